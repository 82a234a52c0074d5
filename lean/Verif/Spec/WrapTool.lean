import Verif.Model.WrapTool
import Verif.Spec.Dump

/-! # Specification vocabulary for the command line tool in builds without overflow checks -/

namespace Rekordcrate

/-- The page `i` is one of those that a table leads to: from the first page on, every page but the last names the
next one, the numbers increase, and the pages can be read. -/
inductive ChainPage (file : Bytes) (h : Header) (db : DatabaseType) (t : Table) : Nat → Page → Prop where
  | first {pg : Page} {q : Nat} (h1 : 1 ≤ t.firstPage.val.toNat)
      (h2 : t.firstPage.val.toNat < h.nextUnusedPage.val.toNat)
      (hr : Page.readWrap h.pageSize.toNat db file (t.firstPage.val.toNat * h.pageSize.toNat) = .ok (pg, q)) :
      ChainPage file h db t t.firstPage.val.toNat pg
  | next {i : Nat} {pg pg' : Page} {q : Nat} (before : ChainPage file h db t i pg) (hl : i ≠ t.lastPage.val.toNat)
      (h1 : i < pg.header.nextPage.val.toNat) (h2 : pg.header.nextPage.val.toNat < h.nextUnusedPage.val.toNat)
      (hr : Page.readWrap h.pageSize.toNat db file (pg.header.nextPage.val.toNat * h.pageSize.toNat) = .ok (pg', q)) :
      ChainPage file h db t pg.header.nextPage.val.toNat pg'

/-- The row is on the page. -/
def Page.Holds (pg : Page) (r : Row) : Prop := ∃ c k, pg.content = .data c ∧ (k, r) ∈ c.rows

/-- The row is on one of the pages that the first table of a type leads to. -/
def TableRow (file : Bytes) (h : Header) (db : DatabaseType) (pt : PageType) (r : Row) : Prop :=
  ∃ before t after i pg, h.tables = before ++ t :: after ∧ t.pageType = pt ∧
    (∀ x ∈ before, x.pageType ≠ pt) ∧ ChainPage file h db t i pg ∧ pg.Holds r

/-- The rows of the first table of the type of `α` are not all of that type. -/
def ForeignRow (file : Bytes) (h : Header) (α : Type) [RowVariant α] : Prop :=
  ∃ r, TableRow file h .plain (RowVariant.pageType α) r ∧ RowVariant.fromRow (α := α) r = none

end Rekordcrate
