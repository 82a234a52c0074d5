import Verif.Spec.Page
import Verif.Spec.RowAt

/-! # Specification vocabulary for the bytes that are read as the header of a database or as a page

The positions are the ones of the format documentation linked from `src/pdb/mod.rs`. -/

namespace Rekordcrate

/-- The three bytes at `p` as a little-endian number. -/
def U24At (d : Bytes) (p n : Nat) : Prop :=
  ∃ b0 b1 b2 : UInt8, ByteAt d p b0 ∧ ByteAt d (p + 1) b1 ∧ ByteAt d (p + 2) b2 ∧
    n = b0.toNat + 256 * b1.toNat + 65536 * b2.toNat

/-- The code of a page type is stored at `p`. -/
def PageType.At (db : DatabaseType) (d : Bytes) (p : Nat) (t : PageType) : Prop :=
  ∃ c : UInt32, U32At d p c.toNat ∧ t = pageTypeOfCode db c

/-- The table is stored at `p`, 16 bytes. -/
def Table.At (db : DatabaseType) (d : Bytes) (p : Nat) (t : Table) : Prop :=
  PageType.At db d p t.pageType ∧ U32At d (p + 4) t.emptyCandidate.toNat ∧ U32At d (p + 8) t.firstPage.val.toNat ∧
  U32At d (p + 12) t.lastPage.val.toNat

/-- The header of the database is stored at `p`: 28 bytes and 16 bytes for each table. -/
def Header.At (db : DatabaseType) (d : Bytes) (p : Nat) (h : Header) : Prop :=
  U32At d p 0 ∧ U32At d (p + 4) h.pageSize.toNat ∧ U32At d (p + 8) h.tables.length ∧
  h.tables.length = h.numTables.toNat ∧ U32At d (p + 12) h.nextUnusedPage.val.toNat ∧
  U32At d (p + 16) h.unknown.toNat ∧ U32At d (p + 20) h.sequence.toNat ∧ U32At d (p + 24) 0 ∧
  ∀ (i : Nat) t, h.tables[i]? = some t → Table.At db d (p + 28 + 16 * i) t

/-- The flags of a page are the bits of the byte at `p`. -/
def PageFlags.At (d : Bytes) (p : Nat) (f : PageFlags) : Prop :=
  ∃ b : UInt8, ByteAt d p b ∧ b.toNat.testBit 0 = f.unknown0 ∧ b.toNat.testBit 1 = f.unknown1 ∧
    b.toNat.testBit 2 = f.unknown2 ∧ b.toNat.testBit 3 = f.unknown3 ∧ b.toNat.testBit 4 = f.containsDeleted ∧
    b.toNat.testBit 5 = f.unknown5 ∧ b.toNat.testBit 6 = f.isIndexPage ∧ b.toNat.testBit 7 = f.unknown7

/-- The header of a page is stored at `p`, 32 bytes. -/
def PageHeader.At (db : DatabaseType) (d : Bytes) (p : Nat) (h : PageHeader) : Prop :=
  U32At d p 0 ∧ U32At d (p + 4) h.pageIndex.val.toNat ∧ PageType.At db d (p + 8) h.pageType ∧
  U32At d (p + 12) h.nextPage.val.toNat ∧ U32At d (p + 16) h.unknown1.toNat ∧ U32At d (p + 20) h.unknown2.toNat ∧
  U24At d (p + 24) (h.packedRowCounts.numRows.val + 8192 * h.packedRowCounts.numRowsValid.val) ∧
  PageFlags.At d (p + 27) h.pageFlags ∧ U16At d (p + 28) h.freeSize.toNat ∧ U16At d (p + 30) h.usedSize.toNat

/-- The row group is stored in the 36 bytes in front of `e`. -/
def RowGroup.At (d : Bytes) (e : Nat) (g : RowGroup) : Prop :=
  g.rowOffsets.length = 16 ∧ (∀ s, s < 16 → U16At d (e - 6 - 2 * s) (g.slot s).toNat) ∧
  U16At d (e - 4) g.rowPresenceFlags.toNat ∧ U16At d (e - 2) g.unknown.toNat

/-- One of the row groups for `n` rows in front of `e` has a slot that is marked as used and holds the offset `o`. -/
def OffsetListed (d : Bytes) (e n o : Nat) : Prop :=
  ∃ k s flags, k < (n + 15) / 16 ∧ s < 16 ∧ U16At d (e - 36 * k - 4) flags ∧ flags.testBit s = true ∧
    U16At d (e - 36 * k - 6 - 2 * s) o

/-- The content of the data page at `p` that ends at `e`: the header of the content, the row groups backwards from the
end, and for each offset that they list the row that is stored there, ordered by the offset. -/
def DataPageContent.At (S : StringRel) (d : Bytes) (p e : Nat) (h : PageHeader) (c : DataPageContent) : Prop :=
  U16At d (p + 32) c.header.unknown5.toNat ∧ U16At d (p + 34) c.header.unknownNotNumRowsLarge.toNat ∧
  U16At d (p + 36) c.header.unknown6.toNat ∧ U16At d (p + 38) c.header.unknown7.toNat ∧
  c.rowGroups.length = (h.packedRowCounts.numRows.val + 15) / 16 ∧ 36 * c.rowGroups.length ≤ e ∧
  (∀ (k : Nat) g, c.rowGroups[k]? = some g → RowGroup.At d (e - 36 * k) g) ∧
  c.rows.Pairwise (fun x y => x.1.toNat < y.1.toNat) ∧
  (∀ o : UInt16, (∃ row, (o, row) ∈ c.rows) ↔ OffsetListed d e h.packedRowCounts.numRows.val o.toNat) ∧
  (∀ o row, (o, row) ∈ c.rows → ∃ q, Row.At S d (p + 40 + o.toNat) h.pageType row q) ∧
  c.rows.length = h.packedRowCounts.numRowsValid.val

/-- The content of the index page at `p`. -/
def IndexPageContent.At (d : Bytes) (p : Nat) (c : IndexPageContent) : Prop :=
  U16At d (p + 32) c.header.unknownA.toNat ∧ U16At d (p + 34) c.header.unknownB.toNat ∧ U16At d (p + 36) 0x3ec ∧
  U16At d (p + 38) c.header.nextOffset.toNat ∧ U32At d (p + 40) c.header.pageIndex.val.toNat ∧
  U32At d (p + 44) c.header.nextPage.val.toNat ∧ U32At d (p + 48) 0x3ffffff ∧ U32At d (p + 52) 0 ∧
  U16At d (p + 56) c.header.numEntries.toNat ∧ U16At d (p + 58) c.header.firstEmpty.toNat ∧
  c.entries.length = c.header.numEntries.toNat ∧
  ∀ (i : Nat) x, c.entries[i]? = some x → U32At d (p + 60 + 4 * i) x.raw.toNat

/-- The page is stored at `p` and left at `q`. A data page has `size` bytes, and there is none if `size` is `none`. -/
def Page.At (S : StringRel) (size : Option Nat) (db : DatabaseType) (d : Bytes) (p : Nat) (pg : Page) (q : Nat) : Prop :=
  PageHeader.At db d p pg.header ∧
  match pg.content with
  | .data c => pg.header.pageFlags.isIndexPage = false ∧
      ∃ n, size = some n ∧ DataPageContent.At S d p (p + n) pg.header c ∧ q = p + n
  | .index c => pg.header.pageFlags.isIndexPage = true ∧ IndexPageContent.At d p c ∧
      q = p + 60 + 4 * c.header.numEntries.toNat

/-- The size of a data page for the page size of the file: a smaller page has no room for its two headers. -/
def soundSize (pageSize : Nat) : Option Nat := if 40 ≤ pageSize then some pageSize else none

/-- The size of a data page in a build without overflow checks: the space behind the headers is computed modulo
`2 ^ 32`. -/
def wrappedSize (pageSize : Nat) : Option Nat := some (if 40 ≤ pageSize then pageSize else pageSize + 2 ^ 32)

end Rekordcrate
