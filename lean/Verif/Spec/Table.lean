import Verif.Model.Cli
import Verif.Spec.Dump

/-! # Specification vocabulary for reading tables that may be damaged -/

namespace Rekordcrate

/-- A loop over rows that calls `f` for each, where the way to the rows ends with `r`: it ends at the first row of
another type, at the first row for which `f` fails, or else with `r`. -/
inductive Visited {α β : Type} [RowVariant α] (f : α → Res β) (r : Res Unit) : List Row → Res (List β) → Prop where
  | done (h : r = .ok ()) : Visited f r [] (.ok [])
  | fails {e : Err} (h : r = .err e) : Visited f r [] (.err e)
  | panics (h : r = .panic) : Visited f r [] .panic
  /-- A row of another type. -/
  | misfit {x : Row} {xs : List Row} (h : RowVariant.fromRow (α := α) x = none) : Visited f r (x :: xs) .panic
  /-- The function fails. -/
  | refused {x : Row} {xs : List Row} {a : α} {e : Err} (h : RowVariant.fromRow x = some a) (hf : f a = .err e) :
      Visited f r (x :: xs) (.err e)
  | refusedPanic {x : Row} {xs : List Row} {a : α} (h : RowVariant.fromRow x = some a) (hf : f a = .panic) :
      Visited f r (x :: xs) .panic
  /-- The function works. -/
  | next {x : Row} {xs : List Row} {a : α} {y : β} {ys : List β} (h : RowVariant.fromRow x = some a)
      (hf : f a = .ok y) (t : Visited f r xs (.ok ys)) : Visited f r (x :: xs) (.ok (y :: ys))
  | nextFails {x : Row} {xs : List Row} {a : α} {y : β} {e : Err} (h : RowVariant.fromRow x = some a)
      (hf : f a = .ok y) (t : Visited f r xs (.err e)) : Visited f r (x :: xs) (.err e)
  | nextPanics {x : Row} {xs : List Row} {a : α} {y : β} (h : RowVariant.fromRow x = some a)
      (hf : f a = .ok y) (t : Visited f r xs .panic) : Visited f r (x :: xs) .panic

/-- What a loop over a table should give: a missing table is an error; otherwise the rows are those of the
pages on the way from the first to the last page of the first table of the type. -/
inductive Database.Table {α β : Type} [RowVariant α] (d : Database) (f : α → Res β) : Res (List β) → Prop where
  | missing (h : ∀ t ∈ d.content.header.tables, t.pageType ≠ RowVariant.pageType α) :
      Table d f (.err .tableTypeNotPresent)
  | rows {before after : List Rekordcrate.Table} {t : Rekordcrate.Table} {l : List (Nat × Page)} {r : Res Unit}
      {out : Res (List β)} (ht : d.content.header.tables = before ++ t :: after)
      (hp : t.pageType = RowVariant.pageType α) (hb : ∀ t' ∈ before, t'.pageType ≠ RowVariant.pageType α)
      (hl : d.TrailOf t l r) (hv : Visited f r ((rowsOf l).map fun x => x.2.2) out) : Table d f out

/-- One after the other, up to the first failure. -/
def Res.seq {α β : Type} (x : Res α) (y : Res β) : Res (α × β) :=
  match x, y with
  | .ok a, .ok b => .ok (a, b)
  | .ok _, .err e => .err e
  | .ok _, .panic => .panic
  | .err e, _ => .err e
  | .panic, _ => .panic

end Rekordcrate
