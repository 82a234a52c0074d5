import Verif.Spec.Table
import Verif.Spec.WrapTool

/-! # Specification vocabulary for damaged tables in builds without overflow checks -/

namespace Rekordcrate

/-- Page `n` of a file: there are pages up to the first unused one, and they can be read or not. -/
inductive FilePage (file : Bytes) (h : Header) (db : DatabaseType) (n : Nat) : Res Page → Prop where
  | there {pg : Page} {q : Nat} (hn : n < h.nextUnusedPage.val.toNat)
      (hr : Page.readWrap h.pageSize.toNat db file (n * h.pageSize.toNat) = .ok (pg, q)) : FilePage file h db n (.ok pg)
  | damaged {e : Err} (hn : n < h.nextUnusedPage.val.toNat)
      (hr : Page.readWrap h.pageSize.toNat db file (n * h.pageSize.toNat) = .err e) : FilePage file h db n (.err e)
  | absent (hn : h.nextUnusedPage.val.toNat ≤ n) : FilePage file h db n (.err (.pageNotPresent n))

/-- The way from page `n` to the page `last`, where pages before `lo` were passed: its pages, and how it ends. -/
inductive FileTrail (file : Bytes) (h : Header) (db : DatabaseType) (last : Nat) :
    Nat → Nat → List (Nat × Page) → Res Unit → Prop where
  /-- The last page. -/
  | last {lo : Nat} {pg : Page} (hlo : lo ≤ last) (hp : FilePage file h db last (.ok pg)) :
      FileTrail file h db last lo last [(last, pg)] (.ok ())
  /-- A page with a link. -/
  | link {lo n : Nat} {pg : Page} {l : List (Nat × Page)} {r : Res Unit} (hlo : lo ≤ n) (hne : n ≠ last)
      (hp : FilePage file h db n (.ok pg)) (t : FileTrail file h db last (n + 1) pg.header.nextPage.val.toNat l r) :
      FileTrail file h db last lo n ((n, pg) :: l) r
  /-- A link back. -/
  | back {lo n : Nat} (hlo : n < lo) : FileTrail file h db last lo n [] (.err (.pageOrderViolation n))
  /-- A page that does not exist or cannot be read. -/
  | fails {lo n : Nat} {e : Err} (hlo : lo ≤ n) (hp : FilePage file h db n (.err e)) :
      FileTrail file h db last lo n [] (.err e)

/-- The trail of a table. -/
def FileTrailOf (file : Bytes) (h : Header) (db : DatabaseType) (t : Table) (l : List (Nat × Page)) (r : Res Unit) : Prop :=
  FileTrail file h db t.lastPage.val.toNat 1 t.firstPage.val.toNat l r

/-- What a loop over a table should give: a missing table is an error; otherwise the rows are those of the
pages on the way from the first to the last page of the first table of the type. -/
inductive FileTable {α β : Type} [RowVariant α] (file : Bytes) (h : Header) (db : DatabaseType) (f : α → Res β) :
    Res (List β) → Prop where
  | missing (hm : ∀ t ∈ h.tables, t.pageType ≠ RowVariant.pageType α) : FileTable file h db f (.err .tableTypeNotPresent)
  | rows {before after : List Table} {t : Table} {l : List (Nat × Page)} {r : Res Unit}
      {out : Res (List β)} (ht : h.tables = before ++ t :: after)
      (hp : t.pageType = RowVariant.pageType α) (hb : ∀ t' ∈ before, t'.pageType ≠ RowVariant.pageType α)
      (hl : FileTrailOf file h db t l r) (hv : Visited f r ((rowsOf l).map fun x => x.2.2) out) : FileTable file h db f out

/-- The lines that `dump-pdb` prints for some tables, numbered from `i` on, and the outcome. -/
inductive FileDump (file : Bytes) (h : Header) (db : DatabaseType) (parseUnknown : Bool) :
    Nat → List Table → List DumpItem → Res Unit → Prop where
  | done {i : Nat} : FileDump file h db parseUnknown i [] [] (.ok ())
  /-- A table of unknown type is skipped unless the user wants it. -/
  | skip {i : Nat} {t : Table} {ts : List Table} {out : List DumpItem} {r : Res Unit} {c : UInt32}
      (hu : t.pageType = .unknown c) (hp : parseUnknown = false) (rest : FileDump file h db parseUnknown (i + 1) ts out r) :
      FileDump file h db parseUnknown i (t :: ts) (.table i t.pageType :: .skipped :: out) r
  /-- All pages of the table are shown. -/
  | full {i : Nat} {t : Table} {ts : List Table} {out : List DumpItem} {r : Res Unit} {l : List (Nat × Page)}
      (ha : (∀ c, t.pageType ≠ .unknown c) ∨ parseUnknown = true) (hl : FileTrailOf file h db t l (.ok ()))
      (hs : ∀ x ∈ l, x.2.Showable) (rest : FileDump file h db parseUnknown (i + 1) ts out r) :
      FileDump file h db parseUnknown i (t :: ts) (.table i t.pageType :: (l.flatMap (fun x => x.2.lines) ++ out)) r
  /-- The pages up to an error are shown, then the error, and the next table follows. -/
  | failed {i : Nat} {t : Table} {ts : List Table} {out : List DumpItem} {r : Res Unit} {l : List (Nat × Page)} {e : Err}
      (ha : (∀ c, t.pageType ≠ .unknown c) ∨ parseUnknown = true) (hl : FileTrailOf file h db t l (.err e))
      (hs : ∀ x ∈ l, x.2.Showable) (rest : FileDump file h db parseUnknown (i + 1) ts out r) :
      FileDump file h db parseUnknown i (t :: ts)
        (.table i t.pageType :: (l.flatMap (fun x => x.2.lines) ++ .failed i e :: out)) r
  /-- A page cannot be shown. -/
  | showPanics {i : Nat} {t : Table} {ts : List Table} {l l' : List (Nat × Page)} {x : Nat × Page} {r : Res Unit}
      (ha : (∀ c, t.pageType ≠ .unknown c) ∨ parseUnknown = true) (hl : FileTrailOf file h db t (l ++ x :: l') r)
      (hs : ∀ y ∈ l, y.2.Showable) (hx : ¬ x.2.Showable) :
      FileDump file h db parseUnknown i (t :: ts) (.table i t.pageType :: l.flatMap (fun x => x.2.lines)) .panic

end Rekordcrate
