import Verif.Model.Page
import Verif.Spec.Basic
import Verif.Spec.Header
import Verif.Spec.Rows
import Verif.Spec.Layout

/-! # Specification vocabulary for row groups and pages -/

namespace Rekordcrate

/-- Two lists of the same length, related element by element. -/
inductive Pointwise {α β : Type} (R : α → β → Prop) : List α → List β → Prop where
  | nil : Pointwise R [] []
  | cons {a : α} {b : β} {as : List α} {bs : List β} (h : R a b) (t : Pointwise R as bs) :
      Pointwise R (a :: as) (b :: bs)

/-- Some file holds all these writes: no two of them want different bytes at one position. -/
def Compatible (ps : List Patch) : Prop := ∃ img, Contains img ps

/-! ## Row groups -/

namespace RowGroup

/-- The offset of slot `s` (0 to 15): slots count backwards from the end of the array. -/
def slot (g : RowGroup) (s : Nat) : UInt16 := g.rowOffsets.getD (15 - s) 0

/-- Slot `s` is marked as holding a row: bit `s` of the flags. -/
def Present (g : RowGroup) (s : Nat) : Prop := g.rowPresenceFlags.toNat.testBit s = true

instance (g : RowGroup) (s : Nat) : Decidable (g.Present s) :=
  inferInstanceAs (Decidable (_ = true))

/-- Offsets of the rows of the group, in slot order. -/
def present (g : RowGroup) : List UInt16 :=
  (List.range 16).filterMap fun s => if g.Present s then some (g.slot s) else none

/-- One more than the highest slot that holds a row; 0 if there is none. -/
def slotsUsed (g : RowGroup) : Nat :=
  if g.rowPresenceFlags = 0 then 0 else g.rowPresenceFlags.toNat.log2 + 1

/-- The groups have the same rows, marks and unknown field.  Slots behind the last present row are not
compared: their bytes belong to the page heap. -/
def Same (g g' : RowGroup) : Prop :=
  g'.rowPresenceFlags = g.rowPresenceFlags ∧ g'.unknown = g.unknown ∧
    ∀ s, s < g.slotsUsed → g'.slot s = g.slot s

end RowGroup

/-! ## Rows on a page -/

/-- Every way of writing the row at a position `p` stays within the `n` bytes from there. -/
def Row.Extent (r : Row) (n : Nat) : Prop :=
  ∀ p p' ps, r.write p = .ok ((), p', ps) → PatchesWithin ps p (p + n)

/-- The parts of the row do not contradict each other: no two writes want different bytes at one
position.  (A row read from a file may have strings that share bytes.) -/
def Row.Coherent (r : Row) : Prop :=
  ∀ p p' ps, r.write p = .ok ((), p', ps) → Compatible ps

/-- Keys in strictly increasing order: a `BTreeMap`. -/
def RowMap.Sorted (m : RowMap) : Prop := m.Pairwise fun a b => a.1 < b.1

/-- The row offsets of a page. -/
def DataPageContent.present (c : DataPageContent) : List UInt16 := c.rowGroups.flatMap RowGroup.present

/-- The bytes from the end of the page down to the last slot in use: group `k` ends `36 k` bytes before
the end of the page, with two fields of two bytes and then its slots. -/
def DataPageContent.FooterWithin (c : DataPageContent) (n : Nat) : Prop :=
  ∀ k g, c.rowGroups[k]? = some g → 36 * k + 4 + 2 * g.slotsUsed ≤ n

/-- Rows can be stored on a page of type `t`. -/
def RowsStorable (t : PageType) (rows : RowMap) : Prop :=
  ∀ x ∈ rows, x.2.Storable ∧ x.2.Fits t ∧ x.2.OffsetsFit

/-- A data page whose counters, groups and rows agree with each other. -/
structure DataPageContent.Consistent (h : PageHeader) (c : DataPageContent) : Prop where
  /-- As many groups of 16 as the row count needs. -/
  groups : c.rowGroups.length = (h.packedRowCounts.numRows.val + 15) / 16
  /-- The groups are arrays of 16 offsets. -/
  sixteen : ∀ g ∈ c.rowGroups, g.rowOffsets.length = 16
  /-- The rows are a map. -/
  sorted : c.rows.Sorted
  /-- The offsets marked present are the offsets of the rows. -/
  offsets : ∀ o, o ∈ c.present ↔ o ∈ c.rows.map Prod.fst
  /-- The valid row count is the number of rows. -/
  valid : h.packedRowCounts.numRowsValid.val = c.rows.length

/-- Every row and the footer have their own bytes in a page of `pageSize` bytes. -/
structure DataPageContent.LaidOut (pageSize : Nat) (c : DataPageContent) : Prop where
  /-- Rows do not reach into the next row. -/
  apart : c.rows.Pairwise fun a b => ∃ n, a.2.Extent n ∧ a.1.toNat + n ≤ b.1.toNat
  coherent : ∀ x ∈ c.rows, x.2.Coherent
  /-- Headers (40 bytes), rows and footer fit in the page without touching each other. -/
  fits : ∃ f, c.FooterWithin f ∧ 40 + f ≤ pageSize ∧
    ∀ x ∈ c.rows, ∃ n, x.2.Extent n ∧ 40 + x.1.toNat + n + f ≤ pageSize

/-- What reading back a data page content gives: the same fields and rows; offsets inside rows that were
left to the writer are filled in. -/
def DataPageContent.ReadBack (c c' : DataPageContent) : Prop :=
  c'.header = c.header ∧ Pointwise RowGroup.Same c.rowGroups c'.rowGroups ∧
    Pointwise (fun x y => y.1 = x.1 ∧ x.2.Resolved y.2) c.rows c'.rows

/-- An index page whose counter is right and whose entries fit. -/
def IndexPageContent.Consistent (pageSize : Nat) (c : IndexPageContent) : Prop :=
  c.entries.length = c.header.numEntries.toNat ∧ 80 + 4 * c.entries.length ≤ pageSize

/-- What reading back a page gives. -/
def Page.ReadBack (pg pg' : Page) : Prop :=
  pg'.header = pg.header ∧
    match pg.content with
    | .data c => ∃ c', pg'.content = .data c' ∧ c.ReadBack c'
    | .index c => pg'.content = .index c

/-- A page that can be stored in a page of `pageSize` bytes of a database of kind `db`. -/
structure Page.Sound (pageSize : Nat) (db : DatabaseType) (pg : Page) : Prop where
  type : pg.header.pageType.ValidFor db
  /-- The flags tell the kind of content. -/
  flag : pg.header.pageFlags.isIndexPage = true ↔ ∃ c, pg.content = .index c
  data : ∀ c, pg.content = .data c →
    c.Consistent pg.header ∧ RowsStorable pg.header.pageType c.rows ∧ c.LaidOut pageSize
  index : ∀ c, pg.content = .index c → c.Consistent pageSize ∧ 4 ∣ pageSize

/-- The strings of the rows of a page at `p`, with their positions. -/
def Page.stringsAt (p : Nat) (pg : Page) : List (Nat × DString) :=
  match pg.content with
  | .data c => c.rows.flatMap fun x => x.2.stringsAt (p + 40 + x.1.toNat)
  | .index _ => []

/-- The bytes of an index page at `p` behind its entries are those of the format: empty entries, then 20
zeros. -/
def Page.Padded (pageSize : Nat) (img : Bytes) (p : Nat) (pg : Page) : Prop :=
  match pg.content with
  | .data _ => True
  | .index c => 80 + 4 * c.entries.length ≤ pageSize ∧ 4 ∣ pageSize ∧
    (∀ i, c.entries.length ≤ i → 80 + 4 * i < pageSize → U32At img (p + 60 + 4 * i) 0x1ffffff8) ∧
    ∀ i, i < 20 → img[p + pageSize - 20 + i]? = some 0

/-- The page was read from `p`, its ISRCs have exact length fields, an index page is padded as usual. -/
def Page.Canonical (pageSize : Nat) (img : Bytes) (p : Nat) (pg : Page) : Prop :=
  (∀ x ∈ pg.stringsAt p, x.2.ExactAt img x.1) ∧ pg.Padded pageSize img p

/-! ## Allocation -/

/-- The least multiple of four that is not below `n`. -/
def roundUp4 (n : Nat) : Nat := (n + 3) / 4 * 4

/-- The invariant of a data page with `cap` bytes for rows and footer. -/
structure Page.WellFormed (cap : Nat) (pg : Page) (c : DataPageContent) : Prop where
  content : pg.content = .data c
  consistent : c.Consistent pg.header
  /-- Every row is marked in exactly one slot. -/
  once : c.present.Perm (c.rows.map Prod.fst)
  /-- Only slots that were handed out are marked. -/
  handedOut : ∀ k g s, c.rowGroups[k]? = some g → g.Present s →
    16 * k + s < pg.header.packedRowCounts.numRows.val
  /-- Used bytes, free bytes and footer (4 bytes for each group and 2 for each slot handed out) make up
  the heap. -/
  space : pg.header.usedSize.toNat + pg.header.freeSize.toNat + 4 * c.rowGroups.length +
    2 * pg.header.packedRowCounts.numRows.val = cap
  small : cap < 65536
  aligned : 4 ∣ pg.header.usedSize.toNat
  /-- All rows start in the used part, or (if put into an allocation of zero bytes) at its end. -/
  below : ∀ x ∈ c.rows, x.1.toNat ≤ pg.header.usedSize.toNat

/-- No row starts at the end of the used part, where the next one is going to start. -/
def DataPageContent.EndFree (c : DataPageContent) (h : PageHeader) : Prop := ∀ x ∈ c.rows, x.1 ≠ h.usedSize

/-- One use of `allocate_row` that got space: where, how much, and the row put there, if any. -/
structure Allocation where
  offset : Nat
  size : Nat
  row : Option Row

/-- The rows put on the page, with their offsets, in the order of the calls. -/
def insertedRows (as : List Allocation) : RowMap :=
  as.filterMap fun a => a.row.map fun r => (UInt16.ofNat a.offset, r)

/-- Rows do not reach into the next row, and none reaches beyond `used`. -/
structure RowsPacked (used : Nat) (rows : RowMap) : Prop where
  apart : rows.Pairwise fun a b => ∃ n, a.2.Extent n ∧ a.1.toNat + n ≤ b.1.toNat
  coherent : ∀ x ∈ rows, x.2.Coherent
  within : ∀ x ∈ rows, ∃ n, x.2.Extent n ∧ x.1.toNat + n ≤ used

/-- A history of calls of `allocate_row` on a page: calls that find no space, calls whose closure is
dropped, calls whose closure is used. -/
inductive Page.History : Page → List Allocation → Page → Prop where
  | done (pg : Page) : Page.History pg [] pg
  | full {pg pg1 pg' : Page} {as : List Allocation} (bytes : UInt16)
      (h : pg.allocateRow bytes = .ok (pg1, none)) (t : Page.History pg1 as pg') : Page.History pg as pg'
  | dropped {pg pg1 pg' : Page} {as : List Allocation} {slot : RowSlot} (bytes : UInt16)
      (h : pg.allocateRow bytes = .ok (pg1, some slot)) (t : Page.History pg1 as pg') :
      Page.History pg (⟨slot.offset.toNat, bytes.toNat, none⟩ :: as) pg'
  | inserted {pg pg1 pg2 pg' : Page} {as : List Allocation} {slot : RowSlot} (bytes : UInt16) (row : Row)
      (h : pg.allocateRow bytes = .ok (pg1, some slot)) (hi : pg1.insertRow slot row = .ok pg2)
      (t : Page.History pg2 as pg') :
      Page.History pg (⟨slot.offset.toNat, bytes.toNat, some row⟩ :: as) pg'

end Rekordcrate
