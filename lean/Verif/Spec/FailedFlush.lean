import Verif.Model.Begun

/-! # Specification of flushes that fail -/

namespace Rekordcrate

/-- The page has the shape of a page of `size` bytes: the row groups have sixteen offsets each and room in the page,
an index page has as many entries as its header says. -/
def Page.Framed (size : Nat) (pg : Page) : Prop :=
  match pg.content with
  | .data c => (∀ g ∈ c.rowGroups, g.rowOffsets.length = 16) ∧ 36 * c.rowGroups.length ≤ size
  | .index c => c.entries.length = c.header.numEntries.toNat ∧ 4 ∣ size

/-- The header fits in the first page, and the pages in memory have the shape of pages. -/
structure Database.Framed (d : Database) : Prop where
  headerFits : 28 + 16 * d.content.header.tables.length ≤ d.content.header.pageSize.toNat
  pages : ∀ pg, LazyPage.loaded pg ∈ d.content.pages → pg.Framed d.content.header.pageSize.toNat

/-- The database with its first `k` pages only. -/
def Database.upTo (d : Database) (k : Nat) : Database :=
  { d with content := { d.content with pages := d.content.pages.take k } }

/-- The page with its first `j` rows only; its header and row groups are those of the whole page. -/
def Page.rowsUpTo (pg : Page) (j : Nat) : Page :=
  { pg with content := match pg.content with
    | .data c => .data { c with rows := c.rows.take j }
    | c => c }

/-- The database with its first `k` pages, and the first `j` rows of the page behind them. -/
def Database.upToRow (d : Database) (k j : Nat) : Database :=
  { d with content := { d.content with pages := d.content.pages.take k ++
    (d.content.pages[k]?.toList.map fun
      | .loaded pg => .loaded (pg.rowsUpTo j)
      | .notLoaded => .notLoaded) } }

/-- What a string takes at most, with the bytes it is moved by to align it, and one to spare; a string that cannot be
written leaves one byte. -/
def DString.room (v : DString) : Nat :=
  match v.enc with
  | .ok bs => bs.length + 4
  | _ => 4

/-- The row writes no further than `n` bytes behind its position, whether or not it can be written. -/
def Row.Within (n : Nat) (r : Row) : Prop := ∀ p, ∀ x ∈ (r.writeT p).1, x.off + x.bytes.length ≤ p + n

/-- The page writes nothing behind its `size` bytes, whether or not it can be written: every row stays in the room
from its offset to the end of the page, the entries of an index page have room. -/
def Page.Within (size : Nat) (pg : Page) : Prop :=
  match pg.content with
  | .data c => ∀ x ∈ c.rows, ∃ n, x.2.Within n ∧ 40 + x.1.toNat + n ≤ size
  | .index c => 60 + 4 * c.entries.length ≤ size

end Rekordcrate
