import Verif.Spec.Edit

/-! # Specification vocabulary for damage elsewhere in the file -/

namespace Rekordcrate

/-- The two pages have the same header and, if they are data pages, the same content header, the same marks, and the
same rows at the same places; index pages are equal. -/
def Page.SameRows (pg pg' : Page) : Prop :=
  pg'.header = pg.header ∧
    match pg.content with
    | .data c => ∃ c', pg'.content = .data c' ∧ c'.header = c.header ∧ c'.rows = c.rows ∧
        Pointwise RowGroup.Same c.rowGroups c'.rowGroups
    | .index c => pg'.content = .index c

end Rekordcrate
