import Verif.Spec.Database

/-! # Specification for C106: what storing a database does that was only read -/

namespace Rekordcrate

/-- The byte that belongs at `i` if it is a byte of an index page behind its entries, and the page starts
at `base`: all remaining slots hold the empty entry (`0x1ffffff8`, little endian), the last 20 bytes of
the page are zero. -/
def Page.LeftoverAt (size base : Nat) (pg : Page) (i : Nat) (b : UInt8) : Prop :=
  ∃ c, pg.content = .index c ∧
    ((∃ k j, c.entries.length ≤ k ∧ 80 + 4 * k < size ∧ ([0xf8, 0xff, 0xff, 0x1f] : Bytes)[j]? = some b ∧
        i = base + 60 + 4 * k + j) ∨
      (b = 0 ∧ base + size ≤ i + 20 ∧ i < base + size))

/-- A byte that is not kept in memory, and what is written for it: the bytes of the first page behind the
tables, and those of index pages in memory behind their entries. -/
def Database.Leftover (d : Database) (i : Nat) (b : UInt8) : Prop :=
  (28 + 16 * d.content.header.tables.length ≤ i ∧ i < d.content.header.pageSize.toNat ∧ b = 0) ∨
    ∃ n pg, 1 ≤ n ∧ d.content.pages[n - 1]? = some (.loaded pg) ∧
      pg.LeftoverAt d.content.header.pageSize.toNat (n * d.content.header.pageSize.toNat) i b

/-- The page at `p` has room for its index entries or row groups, and the ISRCs in its rows have exact
length fields. -/
def Page.RegularAt (size : Nat) (file : Bytes) (p : Nat) (pg : Page) : Prop :=
  match pg.content with
  | .index c => 80 + 4 * c.entries.length ≤ size ∧ 4 ∣ size
  | .data c => 36 * c.rowGroups.length ≤ size ∧ ∀ x ∈ pg.stringsAt p, x.2.ExactAt file x.1

end Rekordcrate
