import Verif.Model.Database
import Verif.Spec.Page

/-! # Specification vocabulary for databases -/

namespace Rekordcrate

/-- Page number `n` (counted from 1) as the user sees it: the page in memory, or else what the file holds
at `n` times the page size. -/
def Database.view (d : Database) (n : Nat) : Res Page :=
  match d.content.pages[n - 1]? with
  | some (.loaded pg) => .ok pg
  | some .notLoaded =>
    match Page.read d.content.header.pageSize.toNat d.dbType d.io (n * d.content.header.pageSize.toNat) with
    | .ok (pg, _) => .ok pg
    | .err e => .err e
    | .panic => .panic
  | none => .err (.pageNotPresent n)

/-- The outcomes of `n` calls of `next`. -/
def PageIterator.calls : Nat → PageIterator → List (Res (Option Nat))
  | 0, _ => []
  | n + 1, it => it.next.1 :: calls n it.next.2

/-- The iterator after `n` calls of `next`. -/
def PageIterator.afterCalls : Nat → PageIterator → PageIterator
  | 0, it => it
  | n + 1, it => afterCalls n it.next.2

/-- The pages among the outcomes. -/
def yielded (l : List (Res (Option Nat))) : List Nat :=
  l.filterMap fun r => match r with
    | .ok (some s) => some s
    | _ => none

/-- Calling `next` until it returns `None` gives these pages (number and content) and leaves `it'`. -/
inductive PageIterator.Runs : PageIterator → List (Nat × Page) → PageIterator → Prop where
  | done {it it' : PageIterator} (h : it.next = (.ok none, it')) : Runs it [] it'
  | step {it it1 it' : PageIterator} {slot : Nat} {pg : Page} {l : List (Nat × Page)}
      (h : it.next = (.ok (some slot), it1)) (hp : it1.pages[slot]? = some (.loaded pg)) (t : Runs it1 l it') :
      Runs it ((slot + 1, pg) :: l) it'

/-- The chain of pages from number `n` to number `last`: each page can be read, its link leads to a page
with a larger number, the chain ends at `last`. -/
inductive Database.Chain (d : Database) (last : Nat) : Nat → List (Nat × Page) → Prop where
  | last {pg : Page} (hn : 1 ≤ last) (h : d.view last = .ok pg) : Chain d last last [(last, pg)]
  | link {n : Nat} {pg : Page} {l : List (Nat × Page)} (hn : 1 ≤ n) (h : d.view n = .ok pg) (hne : n ≠ last)
      (hlt : n < pg.header.nextPage.val.toNat) (t : Chain d last pg.header.nextPage.val.toNat l) :
      Chain d last n ((n, pg) :: l)

/-- What a user can do before flushing: load pages, assign to loaded pages, iterate.  The list has the
assignments in order. -/
inductive Database.Session : Database → List (Nat × Page) → Database → Prop where
  | done (d : Database) : Session d [] d
  | load {d d1 d' : Database} {i : PageIndex} {pg : Page} {l : List (Nat × Page)}
      (h : d.loadPage i = .ok (d1, pg)) (t : Session d1 l d') : Session d l d'
  | assign {d d1 d' : Database} {i : PageIndex} {pg : Page} {l : List (Nat × Page)} (new : Page)
      (h : d.loadPage i = .ok (d1, pg)) (t : Session (d1.setPage (i.val.toNat - 1) new) l d') :
      Session d ((i.val.toNat, new) :: l) d'
  | iterate {d d' : Database} {t : Table} {l : List (Nat × Page)} (calls : Nat)
      (t : Session (d.after (PageIterator.afterCalls calls (d.pagesOf t))) l d') : Session d l d'

/-- The last assignment to page `n` in a list. -/
def lastAssigned (l : List (Nat × Page)) (n : Nat) : Option Page :=
  ((l.filter fun x => x.1 == n).getLast?).map Prod.snd

/-- Calling `next` of the row iterator until it returns `None` gives these rows: page number, offset,
row. -/
inductive RowIterator.Runs (α : Type) [RowVariant α] :
    RowIterator → List (Nat × UInt16 × α) → RowIterator → Prop where
  | done {it it' : RowIterator} (h : it.next α = (.ok none, it')) : Runs α it [] it'
  | step {it it1 it' : RowIterator} {slot : Nat} {k : UInt16} {a : α} {l : List (Nat × UInt16 × α)}
      (h : it.next α = (.ok (some (slot, k, a)), it1)) (t : Runs α it1 l it') :
      Runs α it ((slot + 1, k, a) :: l) it'

/-- The outcomes of `n` calls of `next` of the row iterator. -/
def RowIterator.calls (α : Type) [RowVariant α] : Nat → RowIterator → List (Res (Option (Nat × UInt16 × α)))
  | 0, _ => []
  | n + 1, it => (it.next α).1 :: calls α n (it.next α).2

/-- The variant recognises exactly the rows that belong on pages of its type. -/
def RowVariant.Lawful (α : Type) [RowVariant α] : Prop :=
  ∀ r : Row, (RowVariant.fromRow (α := α) r).isSome = true ↔ r.Fits (RowVariant.pageType α)

/-- The rows of the data pages in a list of pages, in order. -/
def rowsOf (l : List (Nat × Page)) : List (Nat × UInt16 × Row) :=
  l.flatMap fun x => match x.2.content with
    | .data c => c.rows.map fun y => (x.1, y.1, y.2)
    | .index _ => []

/-- The row `y` is the row `x` in its own type. -/
def RowTyped {α : Type} [RowVariant α] (x : Nat × UInt16 × Row) (y : Nat × UInt16 × α) : Prop :=
  y.1 = x.1 ∧ y.2.1 = x.2.1 ∧ RowVariant.fromRow x.2.2 = some y.2.2

/-- A page of the database makes the page parser panic, or has a row of another type. -/
def RowPanicCause (α : Type) [RowVariant α] (d : Database) : Prop :=
  ∃ n, 1 ≤ n ∧ (d.view n = .panic ∨
    ∃ pg c x, d.view n = .ok pg ∧ pg.content = .data c ∧ x ∈ c.rows ∧ RowVariant.fromRow (α := α) x.2 = none)

/-- Page number `n` is in memory. -/
def Database.IsLoaded (d : Database) (n : Nat) : Prop := 1 ≤ n ∧ ∃ pg, d.content.pages[n - 1]? = some (.loaded pg)

/-- The database can be stored: the header is consistent and fits in a page, every page in memory can be
stored in a page. -/
structure Database.Storable (d : Database) : Prop where
  header : d.content.header.Consistent d.dbType
  headerFits : 28 + 16 * d.content.header.tables.length ≤ d.content.header.pageSize.toNat
  pages : ∀ (n : Nat) (pg : Page), d.content.pages[n]? = some (.loaded pg) → pg.Sound d.content.header.pageSize.toNat d.dbType

/-- The byte at `i` belongs to the first page of the file, which holds the header, or to a page in memory. -/
def Database.InDirtyPage (d : Database) (i : Nat) : Prop :=
  i < d.content.header.pageSize.toNat ∨
    ∃ n, d.IsLoaded n ∧ n * d.content.header.pageSize.toNat ≤ i ∧ i < (n + 1) * d.content.header.pageSize.toNat

/-- A file in the form the writer produces, as far as it keeps no information about the bytes: zeros behind
the header, and pages in canonical form. -/
structure CanonicalFile (db : DatabaseType) (file : Bytes) (h : Header) : Prop where
  headerFits : 28 + 16 * h.tables.length ≤ h.pageSize.toNat
  padding : ∀ i, 28 + 16 * h.tables.length ≤ i → i < h.pageSize.toNat → file[i]? = some 0
  pages : ∀ (n : Nat) (pg : Page) (q : Nat), 1 ≤ n → n < h.nextUnusedPage.val.toNat →
    Page.read h.pageSize.toNat db file (n * h.pageSize.toNat) = .ok (pg, q) →
    pg.Canonical h.pageSize.toNat file (n * h.pageSize.toNat)

/-- The writes that happened when a sequence of writes was interrupted: some of the writes, and possibly
the first bytes of the next one. -/
def Interrupted (ps done : List Patch) : Prop :=
  ∃ k m, done = ps.take k ∨ ∃ q, ps[k]? = some q ∧ done = ps.take k ++ [⟨q.off, q.bytes.take m⟩]

end Rekordcrate
