import Verif.Spec.Database
import Verif.Model.Wrap

/-! # Specification vocabulary for flushing in builds without overflow checks -/

namespace Rekordcrate

/-- The iterator after `n` calls of `next`, without overflow checks. -/
def PageIterator.afterCallsWrap : Nat → PageIterator → PageIterator
  | 0, it => it
  | n + 1, it => afterCallsWrap n it.nextWrap.2

/-- What a user can do before flushing without assigning to pages, without overflow checks: load pages and
iterate. -/
inductive Database.ReleaseSession : Database → Database → Prop where
  | done (d : Database) : ReleaseSession d d
  | load {d d1 d' : Database} {i : PageIndex} {pg : Page} (h : d.loadPageWrap i = .ok (d1, pg))
      (t : ReleaseSession d1 d') : ReleaseSession d d'
  | iterate {d d' : Database} {t : Table} (calls : Nat)
      (t : ReleaseSession (d.after (PageIterator.afterCallsWrap calls (d.pagesOf t))) d') : ReleaseSession d d'

/-- A file in the form the writer produces, as seen without overflow checks: pages have room for their headers,
there are zeros behind the header of the file, and the pages that can be read are in canonical form. -/
structure ReleaseCanonicalFile (db : DatabaseType) (file : Bytes) (h : Header) : Prop where
  pageFits : 40 ≤ h.pageSize.toNat
  headerFits : 28 + 16 * h.tables.length ≤ h.pageSize.toNat
  padding : ∀ i, 28 + 16 * h.tables.length ≤ i → i < h.pageSize.toNat → file[i]? = some 0
  pages : ∀ (n : Nat) (pg : Page) (q : Nat), 1 ≤ n → n < h.nextUnusedPage.val.toNat →
    Page.readWrap h.pageSize.toNat db file (n * h.pageSize.toNat) = .ok (pg, q) →
    pg.Canonical h.pageSize.toNat file (n * h.pageSize.toNat)

end Rekordcrate
