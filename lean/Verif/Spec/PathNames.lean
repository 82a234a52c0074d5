import Verif.Model.Path

/-! # Specification vocabulary for the file name of a path -/

namespace Rekordcrate

/-- What may follow the file name of a path: separators, and `.` behind separators. -/
inductive Trailing : FsPath → Prop where
  | nil : Trailing []
  | slash {t : FsPath} (h : Trailing t) : Trailing ('/' :: t)
  | dot {t : FsPath} (h : Trailing t) : Trailing ('/' :: '.' :: t)

/-- `f` is the file name of the path: a name other than `.` and `..`, at the start or behind a separator, with nothing
behind it but separators and `.`. -/
def NamedBy (p f : FsPath) : Prop :=
  f ≠ [] ∧ '/' ∉ f ∧ f ≠ ".".toList ∧ f ≠ "..".toList ∧
    ∃ pre tail, p = pre ++ f ++ tail ∧ (pre = [] ∨ ∃ dir, pre = dir ++ ['/']) ∧ Trailing tail

end Rekordcrate
