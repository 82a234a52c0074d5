import Verif.Model.Edit
import Verif.Spec.Database

/-! # Specification vocabulary for editing rows and for whole databases -/

namespace Rekordcrate

/-- The reference leads to the row itself: after an assignment the row is the new value. -/
def RowAssign.Lawful (α : Type) [RowVariant α] [RowAssign α] : Prop :=
  ∀ (r : Row) (old a : α), RowVariant.fromRow r = some old →
    ∃ r', RowAssign.assign r a = some r' ∧ RowVariant.fromRow r' = some a

/-- Calling `next` until it returns `None`, and assigning to every row: the row `a` of page `n` at offset `k`
becomes `f n k a`. -/
inductive RowIterator.Edits (α : Type) [RowVariant α] [RowAssign α] (f : Nat → UInt16 → α → α) :
    RowIterator → RowIterator → Prop where
  | done {it it' : RowIterator} (h : it.next α = (.ok none, it')) : Edits α f it it'
  | step {it it1 it' : RowIterator} {slot : Nat} {k : UInt16} {a : α}
      (h : it.next α = (.ok (some (slot, k, a)), it1)) (t : Edits α f (it1.assign slot k (f (slot + 1) k a)) it') :
      Edits α f it it'

/-- The row `y` is the row `x` of page `n` after the edit. -/
def RowEdited {α : Type} [RowVariant α] (f : Nat → UInt16 → α → α) (n : Nat) (x y : UInt16 × Row) : Prop :=
  y.1 = x.1 ∧ ∃ a, RowVariant.fromRow x.2 = some a ∧ RowVariant.fromRow y.2 = some (f n x.1 a)

/-- The page `pg'` is the page `pg` with number `n` after the edit: every row is edited, everything else is
the same. -/
def PageEdited {α : Type} [RowVariant α] (f : Nat → UInt16 → α → α) (n : Nat) (pg pg' : Page) : Prop :=
  pg'.header = pg.header ∧
    match pg.content with
    | .index c => pg'.content = .index c
    | .data c => ∃ rows, pg'.content = .data { c with rows } ∧ Pointwise (RowEdited f n) c.rows rows

/-- The database and its file are in order: it can be stored, it has the number of pages the header says,
and the pages that are only in the file have the form the writer produces. -/
structure Database.Intact (d : Database) : Prop where
  storable : d.Storable
  length : d.content.pages.length = d.content.header.nextUnusedPage.val.toNat - 1
  file : ∀ (n : Nat) (pg : Page) (q : Nat), 1 ≤ n → d.content.pages[n - 1]? = some .notLoaded →
    Page.read d.content.header.pageSize.toNat d.dbType d.io (n * d.content.header.pageSize.toNat) = .ok (pg, q) →
    pg.Sound d.content.header.pageSize.toNat d.dbType ∧
      pg.Canonical d.content.header.pageSize.toNat d.io (n * d.content.header.pageSize.toNat)

/-- The new row can take the place of the old one: it can be stored, and needs no more room. -/
structure Row.TakesPlace (old new : Row) : Prop where
  storable : new.Storable
  offsets : new.OffsetsFit
  coherent : new.Coherent
  room : ∀ n, old.Extent n → new.Extent n

/-- The row `y` is what was stored as `x`: same page, same offset, and the row with the offsets that the
writer filled in. -/
def RowStored {α : Type} [RowVariant α] (x : Nat × UInt16 × Row) (y : Nat × UInt16 × α) : Prop :=
  y.1 = x.1 ∧ y.2.1 = x.2.1 ∧ ∃ r, x.2.2.Resolved r ∧ RowVariant.fromRow r = some y.2.2

/-! ## Room for edited rows -/

/-- The number of bytes of a row without offset array: its fixed fields and its strings. -/
def Row.packedSize : Row → Option Nat
  | .plain (.artwork r) => some (4 + r.path.size)
  | .plain (.color r) => some (8 + r.name.size)
  | .plain (.genre r) => some (4 + r.name.size)
  | .plain (.historyPlaylist r) => some (4 + r.name.size)
  | .plain (.historyEntry _) => some 12
  | .plain (.history r) => some (14 + r.date.size + r.version.size + r.label.size)
  | .plain (.key r) => some (8 + r.name.size)
  | .plain (.label r) => some (4 + r.name.size)
  | .plain (.playlistTreeNode r) => some (20 + r.name.size)
  | .plain (.playlistEntry _) => some 12
  | .plain (.columnEntry r) => some (4 + r.columnName.size)
  | .plain (.menu _) => some 8
  | .ext (.trackTag _) => some 16
  | _ => none

namespace OffsetContainer

variable {T : Type} [OffsetItems T]

/-- The offsets, in bytes from the start of the row, at which the strings were read. -/
def givenOffsets (c : OffsetContainer T) : List Nat :=
  match c.offsets with
  | some (.u8 os) => os.map UInt8.toNat
  | some (.u16 os) => os.map UInt16.toNat
  | none => []

/-- All strings of the row are behind the `n` bytes of its fixed part. -/
def Behind (n : Nat) (c : OffsetContainer T) : Prop :=
  c.offsets ≠ none ∧ ∀ o ∈ c.givenOffsets, n ≤ o

/-- No two strings of the row share bytes, and none is in the offset array. -/
def Separate (n : Nat) (size : OffsetSize) (c : OffsetContainer T) : Prop :=
  c.Behind (n + (OffsetItems.count T + 1) * size.bytes) ∧
    ((OffsetItems.asItems c.inner).zip c.givenOffsets).Pairwise fun x y =>
      DisjointRanges x.2 x.1.size y.2 y.1.size

/-- The strings have the same places and are not longer. -/
def NoLonger (c c' : OffsetContainer T) : Prop :=
  c'.offsets = c.offsets ∧
    Pointwise (fun v v' => v'.size ≤ v.size) (OffsetItems.asItems c.inner) (OffsetItems.asItems c'.inner)

end OffsetContainer

end Rekordcrate
