import Verif.Spec.Edit

/-! # Specification vocabulary for using references to rows -/

namespace Rekordcrate

/-- Using `iter_rows` and the references it returns in any way: `next` is called any number of times, also after
errors; references are kept, and values are assigned through any of them at any time, also several times; one may
stop at any time.  `refs` are the references at hand, page number and offset; the list `w` has the assignments in
order: page number, offset, value. -/
inductive RowIterator.Uses (α : Type) [RowVariant α] [RowAssign α] :
    List (Nat × UInt16) → RowIterator → List (Nat × UInt16 × α) → RowIterator → Prop where
  | stop {refs : List (Nat × UInt16)} (it : RowIterator) : Uses α refs it [] it
  | row {refs : List (Nat × UInt16)} {it it1 it' : RowIterator} {slot : Nat} {k : UInt16} {a : α}
      {w : List (Nat × UInt16 × α)} (h : it.next α = (.ok (some (slot, k, a)), it1))
      (t : Uses α ((slot + 1, k) :: refs) it1 w it') : Uses α refs it w it'
  | other {refs : List (Nat × UInt16)} {it it1 it' : RowIterator} {r : Res (Option (Nat × UInt16 × α))}
      {w : List (Nat × UInt16 × α)} (h : it.next α = (r, it1)) (hr : ∀ x, r ≠ .ok (some x))
      (t : Uses α refs it1 w it') : Uses α refs it w it'
  | assign {refs : List (Nat × UInt16)} {it it' : RowIterator} {slot : Nat} {k : UInt16} (b : α)
      {w : List (Nat × UInt16 × α)} (h : (slot + 1, k) ∈ refs) (t : Uses α refs (it.assign slot k b) w it') :
      Uses α refs it ((slot + 1, k, b) :: w) it'

/-- The last value assigned to the row of page `n` at offset `k`. -/
def lastWritten {α : Type} (w : List (Nat × UInt16 × α)) (n : Nat) (k : UInt16) : Option α :=
  ((w.filter fun x => x.1 == n && x.2.1 == k).getLast?).map fun x => x.2.2

/-- The row `y` is the row `x` of page `n` after the assignments `w`: unchanged if there was none, or else of the
type `α` and the value assigned last.  (In a row map, which is ordered by keys, the second case of the assigned
rows does not arise: references lead to rows of the type only.) -/
def RowWritten {α : Type} [RowVariant α] (w : List (Nat × UInt16 × α)) (n : Nat) (x y : UInt16 × Row) : Prop :=
  y.1 = x.1 ∧
    match lastWritten w n x.1 with
    | none => y.2 = x.2
    | some b => (∃ a : α, RowVariant.fromRow x.2 = some a) ∧ RowVariant.fromRow y.2 = some b ∨
        RowVariant.fromRow (α := α) x.2 = none ∧ y.2 = x.2

/-- The page `pg'` is the page `pg` with number `n` after the assignments `w`. -/
def PageWritten {α : Type} [RowVariant α] (w : List (Nat × UInt16 × α)) (n : Nat) (pg pg' : Page) : Prop :=
  pg'.header = pg.header ∧
    match pg.content with
    | .index c => pg'.content = .index c
    | .data c => ∃ rows, pg'.content = .data { c with rows } ∧ Pointwise (RowWritten w n) c.rows rows

/-- There is no reference to rows of other types. -/
def RowAssign.Strict (α : Type) [RowVariant α] [RowAssign α] : Prop :=
  ∀ (r : Row) (a : α), RowVariant.fromRow (α := α) r = none → RowAssign.assign r a = none

end Rekordcrate
