import Verif.Model.Page

/-! # Model of the comparison of pages (`PartialEq`)

`RowGroup` has its own `PartialEq` (`RowGroup.eq`, `src/pdb/mod.rs` 832-837).  The types that contain row groups derive
theirs, so they compare row groups with it. -/

namespace Rekordcrate

/-- `==` of `Vec<RowGroup>` (the field of `src/pdb/mod.rs` 662): the same length, and equal group by group. -/
def RowGroup.allEq : List RowGroup → List RowGroup → Bool
  | [], [] => true
  | g :: gs, g' :: gs' => g.eq g' && allEq gs gs'
  | _, _ => false

/-- Derived `PartialEq` of `DataPageContent`, `src/pdb/mod.rs` 650-683.  Headers and rows have derived comparisons of
all fields, which is equality; maps are equal if they have equal entries. -/
def DataPageContent.eq (c c' : DataPageContent) : Bool :=
  c.header == c'.header && (RowGroup.allEq c.rowGroups c'.rowGroups && c.rows == c'.rows)

/-- Derived `PartialEq` of `PageContent`, `src/pdb/mod.rs` 425-439. -/
def PageContent.eq : PageContent → PageContent → Bool
  | .data c, .data c' => c.eq c'
  | .index c, .index c' => c == c'
  | _, _ => false

/-- Derived `PartialEq` of `Page`, `src/pdb/mod.rs` 551-564. -/
def Page.eq (pg pg' : Page) : Bool := pg.header == pg'.header && pg.content.eq pg'.content

end Rekordcrate
