import Verif.Spec.PageAt
import Verif.Model.Database

/-! # Specification vocabulary for a file that is opened as one kind of database or as the other -/

namespace Rekordcrate

/-- The two page types are what one and the same code stands for in databases of the two kinds. -/
def PageType.SameCode (db db' : DatabaseType) (t t' : PageType) : Prop :=
  ∃ c : UInt32, t = pageTypeOfCode db c ∧ t' = pageTypeOfCode db' c

/-- The two tables differ at most in what their code stands for. -/
def Table.SameButKind (db db' : DatabaseType) (t t' : Table) : Prop :=
  PageType.SameCode db db' t.pageType t'.pageType ∧ t'.emptyCandidate = t.emptyCandidate ∧
  t'.firstPage = t.firstPage ∧ t'.lastPage = t.lastPage

/-- The two headers differ at most in what the codes of their tables stand for. -/
def Header.SameButKind (db db' : DatabaseType) (h h' : Header) : Prop :=
  h'.pageSize = h.pageSize ∧ h'.numTables = h.numTables ∧ h'.nextUnusedPage = h.nextUnusedPage ∧
  h'.unknown = h.unknown ∧ h'.sequence = h.sequence ∧ h'.tables.length = h.tables.length ∧
  ∀ (i : Nat) t t', h.tables[i]? = some t → h'.tables[i]? = some t' → Table.SameButKind db db' t t'

/-- The two page headers differ at most in what the code of the page type stands for. -/
def PageHeader.SameButKind (db db' : DatabaseType) (h h' : PageHeader) : Prop :=
  PageType.SameCode db db' h.pageType h'.pageType ∧ h'.pageIndex = h.pageIndex ∧ h'.nextPage = h.nextPage ∧
  h'.unknown1 = h.unknown1 ∧ h'.unknown2 = h.unknown2 ∧ h'.packedRowCounts = h.packedRowCounts ∧
  h'.pageFlags = h.pageFlags ∧ h'.freeSize = h.freeSize ∧ h'.usedSize = h.usedSize

/-- The two contents agree in everything but the rows: index pages are the same, and data pages have the same header,
the same row groups, and rows at the same offsets. -/
def PageContent.SameButRows : PageContent → PageContent → Prop
  | .index c, .index c' => c' = c
  | .data c, .data c' => c'.header = c.header ∧ c'.rowGroups = c.rowGroups ∧
      c'.rows.map (·.1) = c.rows.map (·.1)
  | _, _ => False

end Rekordcrate
