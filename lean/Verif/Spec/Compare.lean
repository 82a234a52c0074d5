import Verif.Spec.Page

/-! # Specification vocabulary for the comparison of pages -/

namespace Rekordcrate

/-- The groups list the same row offsets in the same order and have the same unknown field.  Which slots hold the rows
does not matter, nor what is in unmarked slots. -/
def RowGroup.Alike (g g' : RowGroup) : Prop := g'.unknown = g.unknown ∧ g'.present = g.present

/-- The pages have the same headers and rows, and their row groups list the same offsets in the same order; index pages
are equal. -/
def Page.Alike (pg pg' : Page) : Prop :=
  pg'.header = pg.header ∧
    match pg.content with
    | .data c => ∃ c', pg'.content = .data c' ∧ c'.header = c.header ∧ c'.rows = c.rows ∧
        Pointwise RowGroup.Alike c.rowGroups c'.rowGroups
    | .index c => pg'.content = .index c

/-- Row groups are arrays of 16 offsets (in the code this is in the type). -/
def Page.Sixteen (pg : Page) : Prop := ∀ c, pg.content = .data c → ∀ g ∈ c.rowGroups, g.rowOffsets.length = 16

end Rekordcrate
