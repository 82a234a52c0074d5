import Verif.Spec.Edit

/-! # Specification vocabulary for working on a database for a long time -/

namespace Rekordcrate

/-- Every page below the number in the header is in memory or can be read from the file. -/
def Database.Complete (d : Database) : Prop :=
  ∀ n, 1 ≤ n → n < d.content.header.nextUnusedPage.val.toNat → ∃ pg, d.view n = .ok pg

/-- The page `pg'` is what the page `pg` became: the same page, or the page with the offsets inside rows that the
writer filled in. -/
def Page.Kept (pg pg' : Page) : Prop := pg' = pg ∨ pg.ReadBack pg'

/-- The row `y` is what became of the row `x`: same page, same offset, and the row, possibly with the offsets that
the writer filled in. -/
def RowKept {α : Type} [RowVariant α] (x : Nat × UInt16 × Row) (y : Nat × UInt16 × α) : Prop :=
  y.1 = x.1 ∧ y.2.1 = x.2.1 ∧ ∃ r, (r = x.2.2 ∨ x.2.2.Resolved r) ∧ RowVariant.fromRow r = some y.2.2

/-- The pages after the assignments `l`. -/
def afterAssigned (l : List (Nat × Page)) (ps : List (Nat × Page)) : List (Nat × Page) :=
  ps.map fun x => (x.1, (lastAssigned l x.1).getD x.2)

/-- Working on a database for a long time: sessions of loading, iterating and assigning pages; flushes; and
flushes after which the file is opened again.  The list holds all pages assigned, with their numbers, in order. -/
inductive Database.Career : Database → List (Nat × Page) → Database → Prop where
  | done (d : Database) : Career d [] d
  | work {d d1 d' : Database} {l l' : List (Nat × Page)} (h : d.Session l d1) (t : Career d1 l' d') :
      Career d (l ++ l') d'
  | flush {d d1 d' : Database} {l : List (Nat × Page)} (h : d.flush = .ok d1) (t : Career d1 l d') : Career d l d'
  | reopen {d d1 d2 d' : Database} {l : List (Nat × Page)} (h : d.flush = .ok d1)
      (ho : Database.openAt d1.io 0 d.dbType = .ok d2) (t : Career d2 l d') : Career d l d'

end Rekordcrate
