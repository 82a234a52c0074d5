import Verif.Spec.WrapTool
import Verif.Lemmas.Dump
import Verif.Lemmas.Listing
import Verif.Props.Table
import Verif.Props.Wrap

/-! # The command line tool in builds without overflow checks -/

namespace Rekordcrate

/-! ## What does not panic is not changed -/

theorem RowIterator.nextWrap_same {α : Type} [RowVariant α] (it : RowIterator) :
    (it.next α).1 ≠ .panic → it.nextWrap α = it.next α := by
  fun_induction RowIterator.next α it with
  | case1 it k r rest hr a ha => intro _; rw [RowIterator.nextWrap.eq_def]; simp only [hr, ha]
  | case2 it k r rest hr ha => intro h; exact absurd rfl h
  | case3 it hr pages hp =>
    intro _
    have := it.pages.nextWrap_same (by rw [hp]; exact fun h => (by cases h))
    rw [RowIterator.nextWrap.eq_def, hr]
    simp only
    split <;> rename_i h <;> rw [this, hp] at h <;> cases h
    rfl
  | case4 it hr e pages hp =>
    intro _
    have := it.pages.nextWrap_same (by rw [hp]; exact fun h => (by cases h))
    rw [RowIterator.nextWrap.eq_def, hr]
    simp only
    split <;> rename_i h <;> rw [this, hp] at h <;> cases h
    rfl
  | case5 it hr pages hp => intro h; exact absurd rfl h
  | case6 it hr slot pages hp ih =>
    intro hn
    have := it.pages.nextWrap_same (by rw [hp]; exact fun h => (by cases h))
    rw [RowIterator.nextWrap.eq_def, hr]
    simp only
    split <;> rename_i h <;> rw [this, hp] at h <;> cases h
    exact ih hn

theorem RowIterator.collectWrap_same {α : Type} [RowVariant α] {β : Type} (f : α → Res β) (it : RowIterator) :
    (it.collect α f).1 ≠ .panic → it.collectWrap α f = it.collect α f := by
  fun_induction RowIterator.collect α f it with
  | case1 it it' h =>
    intro _
    have := it.nextWrap_same (α := α) (by rw [h]; exact fun h => (by cases h))
    rw [RowIterator.collectWrap.eq_def]
    split <;> rename_i h' <;> rw [this, h] at h' <;> cases h'
    rfl
  | case2 it x it' h y hy ys it'' hc ih =>
    intro _
    have := it.nextWrap_same (α := α) (by rw [h]; exact fun h => (by cases h))
    rw [RowIterator.collectWrap.eq_def]
    split <;> rename_i h' <;> rw [this, h] at h' <;> cases h'
    simp only [hy]
    rw [ih (by rw [hc]; exact fun h => (by cases h)), hc]
  | case3 it x it' h y hy hc ih =>
    intro hn
    have := it.nextWrap_same (α := α) (by rw [h]; exact fun h => (by cases h))
    rw [RowIterator.collectWrap.eq_def]
    split <;> rename_i h' <;> rw [this, h] at h' <;> cases h'
    simp only [hy]
    rw [ih hn]
    split
    · rename_i h2; exact absurd h2 (hc _ _)
    · rfl
  | case4 it x it' h e he =>
    intro _
    have := it.nextWrap_same (α := α) (by rw [h]; exact fun h => (by cases h))
    rw [RowIterator.collectWrap.eq_def]
    split <;> rename_i h' <;> rw [this, h] at h' <;> cases h'
    simp only [he]
  | case5 it x it' h he => intro h; exact absurd rfl h
  | case6 it e it' h =>
    intro _
    have := it.nextWrap_same (α := α) (by rw [h]; exact fun h => (by cases h))
    rw [RowIterator.collectWrap.eq_def]
    split <;> rename_i h' <;> rw [this, h] at h' <;> cases h'
    rfl
  | case7 it it' h => intro h; exact absurd rfl h

theorem Database.collectRowsWrap_same {α : Type} [RowVariant α] {β : Type} (f : α → Res β) (d : Database)
    (h : (d.collectRows α f).1 ≠ .panic) : d.collectRowsWrap α f = d.collectRows α f := by
  unfold Database.collectRows at h ⊢
  unfold Database.collectRowsWrap
  cases hi : d.iterRows α with
  | ok it =>
    rw [hi] at h
    simp only at h ⊢
    rw [it.collectWrap_same f h]
  | err e => rfl
  | panic => rfl

theorem Database.allRowsWrap_same {α : Type} [RowVariant α] (d : Database) (h : (d.allRows α).1 ≠ .panic) :
    d.allRowsWrap α = d.allRows α :=
  d.collectRowsWrap_same Res.ok h

theorem listDataWrap_same (d : Database) (h : listData d ≠ .panic) : listDataWrap d = listData d := by
  unfold listData at h ⊢
  unfold listDataWrap
  rcases h1 : d.allRows PlaylistTreeNode with ⟨x1, d1⟩
  rw [h1] at h
  have e1 := d.allRowsWrap_same (α := PlaylistTreeNode)
  rw [h1] at e1
  cases x1 with
  | err e => rw [e1 (fun h => (by cases h))]
  | panic => exact absurd rfl h
  | ok nodes =>
    rw [e1 (fun h => (by cases h))]
    simp only at h ⊢
    rcases h2 : d1.allRows Artist with ⟨x2, d2⟩
    rw [h2] at h
    have e2 := d1.allRowsWrap_same (α := Artist)
    rw [h2] at e2
    cases x2 with
    | err e => rw [e2 (fun h => (by cases h))]
    | panic => exact absurd rfl h
    | ok artists =>
      rw [e2 (fun h => (by cases h))]
      simp only at h ⊢
      rcases h3 : d2.allRows Track with ⟨x3, d3⟩
      rw [h3] at h
      have e3 := d2.allRowsWrap_same (α := Track)
      rw [h3] at e3
      cases x3 with
      | err e => rw [e3 (fun h => (by cases h))]
      | panic => exact absurd rfl h
      | ok tracks =>
        rw [e3 (fun h => (by cases h))]
        simp only at h ⊢
        rcases h4 : d3.allRows PlaylistEntry with ⟨x4, d4⟩
        rw [h4] at h
        have e4 := d3.allRowsWrap_same (α := PlaylistEntry)
        rw [h4] at e4
        cases x4 with
        | err e => rw [e4 (fun h => (by cases h))]
        | panic => exact absurd rfl h
        | ok tracks => rw [e4 (fun h => (by cases h))]

theorem listPlaylistsWrap_same (lossy : Bytes → String) (n : Nat) (file : Option Bytes)
    (h : (listPlaylists lossy n file).outcome ≠ some .panic) :
    listPlaylistsWrap lossy n file = listPlaylists lossy n file := by
  unfold listPlaylists at h ⊢
  unfold listPlaylistsWrap
  cases file with
  | none => rfl
  | some bs =>
    cases ho : Database.openAt bs 0 .plain with
    | err e => simp only [ho]
    | panic => simp only [ho]
    | ok d =>
      simp only [ho] at h ⊢
      unfold listPlaylistsOf at h ⊢
      unfold listPlaylistsOfWrap
      have hd : listData d ≠ .panic := by
        intro hc
        rw [hc] at h
        exact h rfl
      rw [listDataWrap_same d hd]
      rfl

theorem getPlaylistsWrap_same (n : Nat) (d : Database) (h : getPlaylists n d ≠ some .panic) :
    getPlaylistsWrap n d = getPlaylists n d := by
  unfold getPlaylists at h ⊢
  unfold getPlaylistsWrap
  have hd : (d.allRows PlaylistTreeNode).1 ≠ .panic := by
    intro hc
    rw [hc] at h
    exact h rfl
  rw [d.allRowsWrap_same hd]
  rfl

theorem exportDataWrap_same (n : Nat) (d : Database) (h : exportData n d ≠ some .panic) :
    exportDataWrap n d = exportData n d := by
  unfold exportData at h ⊢
  unfold exportDataWrap
  have h0 : getPlaylists n d ≠ some .panic := by
    intro hc
    rw [hc] at h
    exact h rfl
  rw [getPlaylistsWrap_same n d h0]
  cases hg : getPlaylists n d with
  | none => rfl
  | some x =>
    cases x with
    | err e => rfl
    | panic => rfl
    | ok tree =>
      have h1 : (d.allRows PlaylistTreeNode).1 ≠ .panic := by
        intro hc
        unfold getPlaylists at hg
        rw [hc] at hg
        cases hg
      rw [hg] at h
      simp only at h ⊢
      rw [d.allRowsWrap_same h1]
      generalize (d.allRows PlaylistTreeNode).2 = d1 at h ⊢
      rcases h2 : d1.allRows PlaylistEntry with ⟨x2, d2⟩
      rw [h2] at h
      have e2 := d1.allRowsWrap_same (α := PlaylistEntry)
      rw [h2] at e2
      cases x2 with
      | err e => rw [e2 (fun h => (by cases h))]
      | panic => exact absurd rfl h
      | ok entries =>
        rw [e2 (fun h => (by cases h))]
        simp only at h ⊢
        rw [Database.collectRowsWrap_same _ _ (fun hc => h (by rw [hc]))]
        rfl

theorem exportPlaylistsWrap_same (n : Nat) (file : Option Bytes) (root out : FsPath)
    (works : List FsOp → FsOp → Bool) (h : ∀ ops, exportPlaylists n file root out works ≠ some (ops, .panic)) :
    exportPlaylistsWrap n file root out works = exportPlaylists n file root out works := by
  unfold exportPlaylists at h ⊢
  unfold exportPlaylistsWrap
  cases file with
  | none => rfl
  | some bs =>
    cases ho : Database.openAt bs 0 .plain with
    | err e => simp only [ho]
    | panic => simp only [ho]
    | ok d =>
      simp only [ho] at h ⊢
      rw [exportDataWrap_same n d (fun hc => h [] (by rw [hc]))]
      rfl

theorem dumpPagesWrap_same (it : PageIterator) (h : (dumpPages it).2.1 ≠ .panic) : dumpPagesWrap it = dumpPages it := by
  revert h
  fun_induction dumpPages it with
  | case1 it it' h =>
    intro _
    have := it.nextWrap_same (by rw [h]; exact fun h => (by cases h))
    rw [dumpPagesWrap.eq_def]
    split <;> rename_i h' <;> rw [this, h] at h' <;> cases h'
    rfl
  | case2 it e it' h =>
    intro _
    have := it.nextWrap_same (by rw [h]; exact fun h => (by cases h))
    rw [dumpPagesWrap.eq_def]
    split <;> rename_i h' <;> rw [this, h] at h' <;> cases h'
    rfl
  | case3 it it' h => intro h; exact absurd rfl h
  | case4 it slot it' h pg hp l hl r ih =>
    intro hn
    have := it.nextWrap_same (by rw [h]; exact fun h => (by cases h))
    rw [dumpPagesWrap.eq_def]
    split <;> rename_i h' <;> rw [this, h] at h' <;> cases h'
    simp only [hp, hl]
    rw [ih hn]
  | case5 it slot it' h pg hp l e hl =>
    intro hn
    have := it.nextWrap_same (by rw [h]; exact fun h => (by cases h))
    rw [dumpPagesWrap.eq_def]
    split <;> rename_i h' <;> rw [this, h] at h' <;> cases h'
    simp only [hp, hl]
  | case6 it slot it' h pg hp l hl => intro h; exact absurd rfl h
  | case7 it slot it' h hp => intro h; exact absurd rfl h

theorem dumpTablesWrap_same (b : Bool) (ts : List Table) : ∀ (i : Nat) (d : Database),
    (dumpTables b i ts d).2 ≠ .panic → dumpTablesWrap b i ts d = dumpTables b i ts d := by
  induction ts with
  | nil => intro i d _; rfl
  | cons t ts ih =>
    intro i d h
    unfold dumpTables at h ⊢
    unfold dumpTablesWrap
    by_cases hs : (t.pageType.isUnknown && !b) = true
    · rw [if_pos hs] at h
      rw [if_pos hs, if_pos hs, ih _ _ h]
    · rw [if_neg hs] at h
      rw [if_neg hs, if_neg hs]
      have hd : dumpTableWrap d i = dumpTable d i := by
        unfold dumpTable at h ⊢
        unfold dumpTableWrap
        cases hi : d.iterPagesForTable i with
        | err e => rfl
        | panic => rfl
        | ok it =>
          simp only [hi] at h ⊢
          rw [dumpPagesWrap_same]
          intro hc
          rw [hc] at h
          exact h rfl
      rw [hd]
      rcases hx : dumpTable d i with ⟨l, x, d'⟩
      rw [hx] at h
      cases x with
      | ok u => simp only at h ⊢; rw [ih _ _ h]
      | err e => simp only at h ⊢; rw [ih _ _ h]
      | panic => rfl

theorem dumpPdbWrap_same (file : Option Bytes) (db : DatabaseType) (b : Bool) (h : (dumpPdb file db b).2 ≠ .panic) :
    dumpPdbWrap file db b = dumpPdb file db b := by
  unfold dumpPdb at h ⊢
  unfold dumpPdbWrap
  cases file with
  | none => rfl
  | some bs =>
    cases ho : Database.openAt bs 0 db with
    | err e => simp only [ho]
    | panic => simp only [ho]
    | ok d =>
      simp only [ho] at h ⊢
      rw [dumpTablesWrap_same _ _ _ _ h]

/-! ## The pages of a table -/

theorem readPageWrap_ok {io : Bytes} {i : PageIndex} {s : UInt32} {db : DatabaseType} {pg : Page} :
    readPageWrap io i s db = .ok pg ↔ ∃ q, Page.readWrap s.toNat db io (i.val.toNat * s.toNat) = .ok (pg, q) := by
  unfold readPageWrap
  rw [PageIndex.offset_eq, Res.ok_bind]
  cases Page.readWrap s.toNat db io (i.val.toNat * s.toNat) with
  | ok x =>
    obtain ⟨a, b⟩ := x
    constructor
    · intro h
      injection h with h
      exact ⟨b, by rw [← h]⟩
    · rintro ⟨q, h⟩
      injection h with h
      injection h with h _
      rw [← h]
      rfl
  | err e => exact ⟨fun h => (by cases h), fun ⟨q, h⟩ => (by cases h)⟩
  | panic => exact ⟨fun h => (by cases h), fun ⟨q, h⟩ => (by cases h)⟩

theorem ChainPage.read {file : Bytes} {h : Header} {db : DatabaseType} {t : Table} {i : Nat} {pg : Page}
    (c : ChainPage file h db t i pg) : 1 ≤ i ∧ i < h.nextUnusedPage.val.toNat ∧
      ∃ q, Page.readWrap h.pageSize.toNat db file (i * h.pageSize.toNat) = .ok (pg, q) := by
  cases c with
  | first h1 h2 hr => exact ⟨h1, h2, _, hr⟩
  | next _ _ h1 h2 hr => exact ⟨by omega, h2, _, hr⟩

theorem ChainPage.det {file : Bytes} {h : Header} {db : DatabaseType} {t : Table} {i : Nat} {pg pg' : Page}
    (c : ChainPage file h db t i pg) (c' : ChainPage file h db t i pg') : pg = pg' := by
  obtain ⟨-, -, q, h1⟩ := c.read
  obtain ⟨-, -, q', h2⟩ := c'.read
  rw [h1] at h2
  injection h2 with h2
  injection h2

/-- The loaded pages are what the file holds. -/
def LoadedFrom (file : Bytes) (h : Header) (db : DatabaseType) (pages : List LazyPage) : Prop :=
  pages.length = h.nextUnusedPage.val.toNat - 1 ∧
    ∀ slot pg, pages[slot]? = some (.loaded pg) →
      ∃ q, Page.readWrap h.pageSize.toNat db file ((slot + 1) * h.pageSize.toNat) = .ok (pg, q)

/-- The database is about this file. -/
structure Database.About (d : Database) (file : Bytes) (h : Header) (db : DatabaseType) : Prop where
  io : d.io = file
  header : d.content.header = h
  kind : d.dbType = db
  pages : LoadedFrom file h db d.content.pages

/-- The iterator has been at all pages of the table with numbers below `offset`. -/
structure PageIterator.Walks (it : PageIterator) (file : Bytes) (h : Header) (db : DatabaseType) (t : Table) : Prop where
  io : it.io = file
  size : it.pageSize = h.pageSize
  kind : it.dbType = db
  last : it.lastPage = t.lastPage
  pages : LoadedFrom file h db it.pages
  whole : it.start + it.len = it.pages.length
  off : it.offset = it.start + 1
  ahead : ∀ i, it.nextPage = some i →
    i = t.firstPage ∨ ∃ j pg, ChainPage file h db t j pg ∧ j ≠ t.lastPage.val.toNat ∧ j < it.offset ∧
      it.offset ≤ j + 1 ∧ i = pg.header.nextPage
  start : ∀ pg, ChainPage file h db t t.firstPage.val.toNat pg →
    t.firstPage.val.toNat < it.offset ∨ it.nextPage = some t.firstPage
  closed : ∀ j pg pg', ChainPage file h db t j pg → j < it.offset → j ≠ t.lastPage.val.toNat →
    j < pg.header.nextPage.val.toNat → ChainPage file h db t pg.header.nextPage.val.toNat pg' →
    pg.header.nextPage.val.toNat < it.offset ∨ it.nextPage = some pg.header.nextPage

namespace PageIterator.Walks

variable {it : PageIterator} {file : Bytes} {h : Header} {db : DatabaseType} {t : Table}

/-- A page of the table was visited, or the next one is the one that the iterator looks for. -/
theorem frontier (a : it.Walks file h db t) {i : Nat} {pg : Page} (c : ChainPage file h db t i pg) :
    i < it.offset ∨ ∃ j pg', it.nextPage = some j ∧ it.offset ≤ j.val.toNat ∧
      ChainPage file h db t j.val.toNat pg' ∧ j.val.toNat ≤ i := by
  induction c with
  | first h1 h2 hr =>
    by_cases hlt : t.firstPage.val.toNat < it.offset
    · exact .inl hlt
    · rcases a.start _ (.first h1 h2 hr) with h3 | h3
      · exact .inl h3
      · exact .inr ⟨_, _, h3, by omega, .first h1 h2 hr, Nat.le_refl _⟩
  | @next i0 pg0 pg1 q before hl h1 h2 hr ih =>
    rcases ih with h3 | ⟨j, pg', h3, h4, h5, h6⟩
    · by_cases hlt : pg0.header.nextPage.val.toNat < it.offset
      · exact .inl hlt
      · rcases a.closed _ _ _ before h3 hl h1 (.next before hl h1 h2 hr) with h6 | h6
        · exact .inl h6
        · exact .inr ⟨_, _, h6, by omega, .next before hl h1 h2 hr, Nat.le_refl _⟩
    · exact .inr ⟨j, pg', h3, h4, h5, by omega⟩

/-- The page that the iterator looks for is one of the table if it is in the vector and can be read. -/
theorem onChain (a : it.Walks file h db t) {i : PageIndex} (hn : it.nextPage = some i) (ho : it.offset ≤ i.val.toNat)
    (hl : i.val.toNat < h.nextUnusedPage.val.toNat) {pg : Page} {q : Nat}
    (hr : Page.readWrap h.pageSize.toNat db file (i.val.toNat * h.pageSize.toNat) = .ok (pg, q)) :
    ChainPage file h db t i.val.toNat pg := by
  have h1 := a.off
  rcases a.ahead i hn with rfl | ⟨j, pg', c, h2, h3, h4, rfl⟩
  · exact .first (by omega) hl hr
  · exact .next c h2 (by omega) hl hr

end PageIterator.Walks

theorem Database.About.pagesOf {d : Database} {file : Bytes} {h : Header} {db : DatabaseType} (a : d.About file h db)
    (t : Rekordcrate.Table) : (d.pagesOf t).Walks file h db t where
  io := a.io
  size := by rw [← a.header]; rfl
  kind := a.kind
  last := rfl
  pages := a.pages
  whole := by simp [Database.pagesOf]
  off := rfl
  ahead := fun i hi => by
    injection hi with hi
    exact .inl hi.symm
  start := fun _ _ => .inr rfl
  closed := fun j pg pg' c hj => by
    have := c.read.1
    have h2 : (d.pagesOf t).offset = 1 := rfl
    omega

theorem Database.About.after {d : Database} {file : Bytes} {h : Header} {db : DatabaseType} (a : d.About file h db)
    {it : PageIterator} (hp : LoadedFrom file h db it.pages) : (d.after it).About file h db :=
  ⟨a.io, a.header, a.kind, hp⟩

theorem openAt_about {file : Bytes} {db : DatabaseType} {d : Database} (ho : Database.openAt file 0 db = .ok d) :
    d.About file d.content.header db := by
  unfold Database.openAt at ho
  obtain ⟨⟨c, q⟩, h1, h2⟩ := Res.bind_eq_ok.1 ho
  injection h2 with h2
  subst h2
  unfold LazyDatabase.read at h1
  obtain ⟨hd, q1, h3, h4⟩ := Rd.bind_eq_ok.1 h1
  obtain ⟨rfl, -⟩ := Rd.pure_eq_ok.1 h4
  refine ⟨rfl, rfl, rfl, by simp, ?_⟩
  intro slot pg hp
  simp only [List.getElem?_replicate] at hp
  split at hp
  · cases hp
  · cases hp

/-- What `next` does. -/
inductive NextStep (it it' : PageIterator) (file : Bytes) (h : Header) (db : DatabaseType) (t : Table) :
    Res (Option Nat) → Prop where
  | done (hp : LoadedFrom file h db it'.pages) (all : ∀ i pg, ChainPage file h db t i pg → i < it.offset) :
      NextStep it it' file h db t (.ok none)
  | failed {e : Err} (hp : LoadedFrom file h db it'.pages) (all : ∀ i pg, ChainPage file h db t i pg → i < it.offset) :
      NextStep it it' file h db t (.err e)
  | page {slot : Nat} {pg : Page} (hp : it'.pages[slot]? = some (.loaded pg)) (c : ChainPage file h db t (slot + 1) pg)
      (a : it'.Walks file h db t) (ho : it'.offset = slot + 2)
      (only : ∀ i pg', ChainPage file h db t i pg' → i < it'.offset → i < it.offset ∨ (i = slot + 1 ∧ pg' = pg)) :
      NextStep it it' file h db t (.ok (some slot))

theorem LoadedFrom.set {file : Bytes} {h : Header} {db : DatabaseType} {pages : List LazyPage}
    (hp : LoadedFrom file h db pages) {slot : Nat} {pg : Page} {q : Nat}
    (hr : Page.readWrap h.pageSize.toNat db file ((slot + 1) * h.pageSize.toNat) = .ok (pg, q)) :
    LoadedFrom file h db (pages.set slot (.loaded pg)) := by
  refine ⟨by rw [List.length_set]; exact hp.1, ?_⟩
  intro s pg' hs
  rw [List.getElem?_set] at hs
  split at hs
  · rename_i he
    split at hs
    · injection hs with hs
      injection hs with hs
      rw [← hs, ← he]
      exact ⟨q, hr⟩
    · cases hs
  · exact hp.2 _ _ hs

/-- A page that is found is not before the place of the iterator. -/
theorem next_forward {it it' : PageIterator} {file : Bytes} {h : Header} {db : DatabaseType} {t : Table}
    (a : it.Walks file h db t) {slot : Nat} (hn : it.nextWrap = (.ok (some slot), it')) :
    it.offset ≤ slot + 1 ∧ it.offset ≤ it'.offset := by
  have h1 := a.off
  unfold PageIterator.nextWrap at hn
  split at hn
  · cases hn
  · split at hn
    · cases hn
    · simp only at hn
      split at hn
      · cases hn
      · split at hn
        · cases hn
        · split at hn
          · cases hn
          · injection hn with hs hn
            injection hs with hs
            injection hs with hs
            subst hn
            simp only
            omega
          · split at hn
            · injection hn with hs hn
              injection hs with hs
              injection hs with hs
              subst hn
              simp only
              omega
            · cases hn
            · cases hn

/-- The state of the iterator after it found a page. -/
theorem PageIterator.Walks.found {it : PageIterator} {file : Bytes} {h : Header} {db : DatabaseType} {t : Table}
    (a : it.Walks file h db t) {i : PageIndex} (hn : it.nextPage = some i) (ho : it.offset ≤ i.val.toNat) {pg : Page}
    (c : ChainPage file h db t i.val.toNat pg) {pages : List LazyPage} (hp : LoadedFrom file h db pages)
    (hl : pages.length = it.pages.length) {slot : Nat} (hs : slot = it.start + (i.val.toNat - it.offset))
    (hb : i.val.toNat - it.offset < it.len) {it' : PageIterator}
    (he : it' = { it with
      start := slot + 1, len := it.len - (i.val.toNat - it.offset) - 1, offset := i.val.toNat + 1, pages := pages
      nextPage := if i = it.lastPage then none else some pg.header.nextPage }) :
    slot + 1 = i.val.toNat ∧ it'.Walks file h db t ∧ it'.offset = slot + 2 ∧
      ∀ j pg', ChainPage file h db t j pg' → j < it'.offset → j < it.offset ∨ (j = slot + 1 ∧ pg' = pg) := by
  have h1 := a.off
  have h2 := a.whole
  have hslot : slot + 1 = i.val.toNat := by omega
  have only : ∀ j pg', ChainPage file h db t j pg' → j < i.val.toNat + 1 → j < it.offset ∨ (j = slot + 1 ∧ pg' = pg) := by
    intro j pg' c' hj
    rcases a.frontier c' with h3 | ⟨k, pg2, h3, -, -, h5⟩
    · exact .inl h3
    · rw [hn] at h3
      injection h3 with h3
      rw [← h3] at h5
      have hji : j = i.val.toNat := by omega
      subst hji
      exact .inr ⟨hslot.symm, c'.det c⟩
  subst he
  have hlast : i = it.lastPage ↔ i.val.toNat = t.lastPage.val.toNat := by
    rw [← a.last]
    constructor
    · intro h; rw [h]
    · intro h
      rcases i with ⟨iv⟩
      rcases hlp : it.lastPage with ⟨lv⟩
      rw [hlp] at h
      exact congrArg PageIndex.mk (UInt32.toNat_inj.1 h)
  refine ⟨hslot, ⟨a.io, a.size, a.kind, a.last, hp, by simp only; omega, by simp only; omega, ?_, ?_, ?_⟩,
    by simp only; omega, only⟩
  · intro k hk
    simp only at hk
    split at hk
    · cases hk
    · rename_i hne
      injection hk with hk
      refine .inr ⟨i.val.toNat, pg, c, fun hc => hne (hlast.2 hc), ?_, ?_, hk.symm⟩
      · exact Nat.lt_succ_self _
      · exact Nat.le_refl _
  · intro pg' c'
    left
    simp only
    rcases a.start _ c' with h3 | h3
    · omega
    · rw [hn] at h3
      injection h3 with h3
      rw [← h3]
      omega
  · intro j pg1 pg2 c1 hj hne hlt c2
    simp only at hj ⊢
    rcases only _ _ c1 hj with h3 | ⟨rfl, rfl⟩
    · left
      rcases a.closed _ _ _ c1 h3 hne hlt c2 with h4 | h4
      · omega
      · rw [hn] at h4
        injection h4 with h4
        rw [← h4]
        omega
    · right
      rw [if_neg]
      intro hc
      exact hne (by rw [hslot]; exact hlast.1 hc)

theorem PageIterator.Walks.step {it : PageIterator} {file : Bytes} {h : Header} {db : DatabaseType} {t : Table}
    (a : it.Walks file h db t) : NextStep it it.nextWrap.2 file h db t it.nextWrap.1 := by
  have h1 := a.off
  have h2 := a.whole
  have h3 := a.pages.1
  have none_left : ∀ i, it.nextPage = some i → (it.offset ≤ i.val.toNat → ∀ pg, ¬ ChainPage file h db t i.val.toNat pg) →
      ∀ j pg, ChainPage file h db t j pg → j < it.offset := by
    intro i hi hc j pg c
    rcases a.frontier c with h4 | ⟨k, pg', h4, h5, h6, -⟩
    · exact h4
    · rw [hi] at h4
      injection h4 with h4
      rw [← h4] at h5 h6
      exact absurd h6 (hc h5 _)
  unfold PageIterator.nextWrap
  cases hn : it.nextPage with
  | none =>
    refine .done a.pages fun i pg c => ?_
    rcases a.frontier c with h4 | ⟨k, pg', h4, -⟩
    · exact h4
    · rw [hn] at h4; cases h4
  | some i =>
    simp only
    by_cases hb : i.val.toNat < it.offset
    · rw [if_pos hb]
      exact .failed a.pages (none_left i hn fun h4 => by omega)
    · rw [if_neg hb]
      by_cases hk : it.len < i.val.toNat - it.offset
      · rw [if_pos hk]
        refine .failed a.pages (none_left i hn fun _ pg c => ?_)
        have := c.read
        omega
      · rw [if_neg hk]
        by_cases hz : it.len - (i.val.toNat - it.offset) = 0
        · rw [if_pos hz]
          refine .failed a.pages (none_left i hn fun _ pg c => ?_)
          have := c.read
          omega
        · rw [if_neg hz]
          have hlt : it.start + (i.val.toNat - it.offset) < it.pages.length := by omega
          have hsl : it.start + (i.val.toNat - it.offset) + 1 = i.val.toNat := by omega
          cases hp : it.pages[it.start + (i.val.toNat - it.offset)]? with
          | none =>
            rw [List.getElem?_eq_none_iff] at hp
            omega
          | some l =>
            cases l with
            | loaded pg =>
              simp only
              obtain ⟨q, hr⟩ := a.pages.2 _ _ hp
              rw [hsl] at hr
              have c := a.onChain hn (by omega) (by omega) hr
              obtain ⟨g1, g2, g3, g4⟩ := a.found hn (by omega) c a.pages rfl rfl (by omega) rfl
              refine .page (pg := pg) hp ?_ g2 g3 g4
              rw [g1]
              exact c
            | notLoaded =>
              simp only
              cases hrd : readPageWrap it.io i it.pageSize it.dbType with
              | ok pg =>
                simp only
                rw [a.io, a.size, a.kind] at hrd
                obtain ⟨q, hr⟩ := readPageWrap_ok.1 hrd
                have c := a.onChain hn (by omega) (by omega) hr
                have hs := a.pages.set (slot := it.start + (i.val.toNat - it.offset)) (by rw [hsl]; exact hr)
                obtain ⟨g1, g2, g3, g4⟩ := a.found hn (by omega) c hs (List.length_set ..) rfl (by omega) rfl
                refine .page (pg := pg) ?_ ?_ g2 g3 g4
                · simp only
                  rw [List.getElem?_set_self hlt]
                · rw [g1]
                  exact c
              | err e =>
                simp only
                refine .failed a.pages (none_left i hn fun _ pg c => ?_)
                obtain ⟨-, -, q, hr⟩ := c.read
                rw [a.io, a.size, a.kind] at hrd
                rw [readPageWrap_ok.2 ⟨q, hr⟩] at hrd
                cases hrd
              | panic => exact absurd hrd (readPageWrap_np _ _ _ _)

/-! ## Showing the pages of a table -/

theorem dumpPagesWrap_spec {file : Bytes} {h : Header} {db : DatabaseType} {t : Table} (it : PageIterator)
    (a : it.Walks file h db t) :
    ((dumpPagesWrap it).2.1 = .panic ↔ ∃ i pg, ChainPage file h db t i pg ∧ it.offset ≤ i ∧ ¬ pg.Showable) ∧
      LoadedFrom file h db (dumpPagesWrap it).2.2.pages := by
  fun_induction dumpPagesWrap it with
  | case1 it it' hn =>
    have s := a.step
    rw [hn] at s
    cases s with
    | done hp all =>
      refine ⟨⟨fun h => (by cases h), ?_⟩, hp⟩
      rintro ⟨i, pg, c, h1, -⟩
      have := all i pg c
      omega
  | case2 it e it' hn =>
    have s := a.step
    rw [hn] at s
    cases s with
    | failed hp all =>
      refine ⟨⟨fun h => (by cases h), ?_⟩, hp⟩
      rintro ⟨i, pg, c, h1, -⟩
      have := all i pg c
      omega
  | case3 it it' hn =>
    have s := a.step
    rw [hn] at s
    cases s
  | case4 it slot it' hn pg hp l hl r ih =>
    have s := a.step
    rw [hn] at s
    cases s with
    | page hp' c a' ho only =>
      rw [hp] at hp'
      injection hp' with hp'
      injection hp' with hp'
      subst hp'
      obtain ⟨ih1, ih2⟩ := ih a'
      refine ⟨ih1.trans ⟨?_, ?_⟩, ih2⟩
      · rintro ⟨i, pg', c', h1, h2⟩
        refine ⟨i, pg', c', ?_, h2⟩
        have := (next_forward a hn).2
        omega
      · rintro ⟨i, pg', c', h1, h2⟩
        refine ⟨i, pg', c', ?_, h2⟩
        rcases Nat.lt_or_ge i it'.offset with h3 | h3
        · rcases only _ _ c' h3 with h4 | ⟨-, rfl⟩
          · omega
          · rcases printPage_cases pg' with ⟨-, h5⟩ | ⟨h5, -⟩
            · exact absurd h5 h2
            · rw [hl] at h5
              cases h5
        · exact h3
  | case5 it slot it' hn pg hp l e hl =>
    rcases printPage_cases pg with ⟨h5, -⟩ | ⟨h5, -⟩ <;> (rw [hl] at h5; cases h5)
  | case6 it slot it' hn pg hp l hl =>
    have s := a.step
    rw [hn] at s
    cases s with
    | page hp' c a' ho only =>
      rw [hp] at hp'
      injection hp' with hp'
      injection hp' with hp'
      subst hp'
      refine ⟨⟨fun _ => ?_, fun _ => rfl⟩, a'.pages⟩
      rcases printPage_cases pg with ⟨h5, -⟩ | ⟨-, h5⟩
      · rw [hl] at h5; cases h5
      · exact ⟨slot + 1, pg, c, (next_forward a hn).1, h5⟩
  | case7 it slot it' hn hp =>
    have s := a.step
    rw [hn] at s
    cases s with
    | page hp' => exact absurd hp' (hp _)

theorem dumpTablesWrap_spec {file : Bytes} {h : Header} {db : DatabaseType} (b : Bool) : ∀ (ts : List Table) (i : Nat)
    (d : Database), d.About file h db → ts = h.tables.drop i →
    ((dumpTablesWrap b i ts d).2 = .panic ↔ ∃ t ∈ ts, ((∀ c, t.pageType ≠ .unknown c) ∨ b = true) ∧
      ∃ j pg, ChainPage file h db t j pg ∧ ¬ pg.Showable) := by
  intro ts
  induction ts with
  | nil =>
    intro i d _ _
    exact ⟨fun h => (by cases h), fun ⟨t, ht, _⟩ => (by cases ht)⟩
  | cons t ts ih =>
    intro i d ha hi
    have hi' : ts = h.tables.drop (i + 1) := by rw [← List.drop_drop, ← hi]; rfl
    have hti : h.tables[i]? = some t := by
      have := List.getElem?_drop (xs := h.tables) (i := i) (j := 0)
      rw [← hi] at this
      simpa using this.symm
    unfold dumpTablesWrap
    by_cases hs : (t.pageType.isUnknown && !b) = true
    · rw [if_pos hs]
      simp only
      refine (ih _ _ ha hi').trans ⟨?_, ?_⟩
      · rintro ⟨x, h1, h2⟩
        exact ⟨x, List.mem_cons_of_mem _ h1, h2⟩
      · rintro ⟨x, h1, h2, h3⟩
        rcases List.mem_cons.1 h1 with rfl | h1
        · exact absurd hs ((attempted_iff _ _).2 h2)
        · exact ⟨x, h1, h2, h3⟩
    · have hw := (attempted_iff _ _).1 hs
      rw [if_neg hs]
      have hit : d.iterPagesForTable i = .ok (d.pagesOf t) := by
        unfold Database.iterPagesForTable
        rw [ha.header, hti]
      obtain ⟨h1, h2⟩ := dumpPagesWrap_spec (d.pagesOf t) (ha.pagesOf t)
      have hd : dumpTableWrap d i =
          ((dumpPagesWrap (d.pagesOf t)).1, (dumpPagesWrap (d.pagesOf t)).2.1, d.after (dumpPagesWrap (d.pagesOf t)).2.2) := by
        unfold dumpTableWrap
        rw [hit]
      have ha' := ha.after h2
      rw [hd]
      rcases hx : (dumpPagesWrap (d.pagesOf t)).2.1 with u | e | _
      · simp only
        refine (ih _ _ ha' hi').trans ⟨?_, ?_⟩
        · rintro ⟨x, h1, h2⟩
          exact ⟨x, List.mem_cons_of_mem _ h1, h2⟩
        · rintro ⟨x, g1, g2, j, pg, c, g3⟩
          rcases List.mem_cons.1 g1 with rfl | g1
          · rw [hx] at h1
            have := h1.2 ⟨j, pg, c, c.read.1, g3⟩
            cases this
          · exact ⟨x, g1, g2, j, pg, c, g3⟩
      · simp only
        refine (ih _ _ ha' hi').trans ⟨?_, ?_⟩
        · rintro ⟨x, h1, h2⟩
          exact ⟨x, List.mem_cons_of_mem _ h1, h2⟩
        · rintro ⟨x, g1, g2, j, pg, c, g3⟩
          rcases List.mem_cons.1 g1 with rfl | g1
          · rw [hx] at h1
            have := h1.2 ⟨j, pg, c, c.read.1, g3⟩
            cases this
          · exact ⟨x, g1, g2, j, pg, c, g3⟩
      · simp only
        obtain ⟨j, pg, c, -, g3⟩ := h1.1 hx
        exact ⟨fun _ => ⟨t, List.mem_cons_self .., hw, j, pg, c, g3⟩, fun _ => trivial⟩

/-! ## Reading the rows of a table -/

/-- The rows that the iterator has not returned yet. -/
def RowIterator.Left (it : RowIterator) (file : Bytes) (h : Header) (db : DatabaseType) (t : Table) (r : Row) : Prop :=
  (∃ k, (k, r) ∈ it.rest) ∨ ∃ i pg, ChainPage file h db t i pg ∧ it.pages.offset ≤ i ∧ pg.Holds r

theorem LazyPage.mem_rows {pg : Page} {r : Row} : (∃ k, (k, r) ∈ (LazyPage.loaded pg).rows) ↔ pg.Holds r := by
  unfold LazyPage.rows Page.Holds
  simp only
  cases hc : pg.content with
  | data c =>
    simp only [PageContent.asData]
    constructor
    · rintro ⟨k, hk⟩
      exact ⟨c, k, rfl, hk⟩
    · rintro ⟨c', k, h1, h2⟩
      injection h1 with h1
      rw [h1]
      exact ⟨k, h2⟩
  | index c =>
    simp only [PageContent.asData]
    constructor
    · rintro ⟨k, hk⟩
      cases hk
    · rintro ⟨c', k, h1, h2⟩
      cases h1

/-- What `next` of the iterator over rows does. -/
inductive RowStep (α : Type) [RowVariant α] (it it' : RowIterator) (file : Bytes) (h : Header) (db : DatabaseType)
    (t : Table) : Res (Option (Nat × UInt16 × α)) → Prop where
  | done (hp : LoadedFrom file h db it'.pages.pages) (no : ∀ r, ¬ it.Left file h db t r) :
      RowStep α it it' file h db t (.ok none)
  | failed {e : Err} (hp : LoadedFrom file h db it'.pages.pages) (no : ∀ r, ¬ it.Left file h db t r) :
      RowStep α it it' file h db t (.err e)
  | foreign {r : Row} (hp : LoadedFrom file h db it'.pages.pages) (hl : it.Left file h db t r)
      (hr : RowVariant.fromRow (α := α) r = none) : RowStep α it it' file h db t .panic
  | row {s : Nat} {k : UInt16} {r : Row} {a : α} (hr : RowVariant.fromRow r = some a)
      (w : it'.pages.Walks file h db t) (hl : ∀ r', it.Left file h db t r' ↔ r' = r ∨ it'.Left file h db t r') :
      RowStep α it it' file h db t (.ok (some (s, k, a)))

theorem RowIterator.step {file : Bytes} {h : Header} {db : DatabaseType} {t : Table} {α : Type} [RowVariant α]
    (it : RowIterator) (w : it.pages.Walks file h db t) :
    RowStep α it (it.nextWrap α).2 file h db t (it.nextWrap α).1 := by
  fun_induction RowIterator.nextWrap α it with
  | case1 it k r rest hr a ha =>
    refine .row ha w fun r' => ?_
    unfold RowIterator.Left
    rw [hr]
    simp only
    constructor
    · rintro (⟨k', hk⟩ | h1)
      · rcases List.mem_cons.1 hk with hk | hk
        · injection hk with _ hk
          exact .inl hk
        · exact .inr (.inl ⟨k', hk⟩)
      · exact .inr (.inr h1)
    · rintro (rfl | ⟨k', hk⟩ | h1)
      · exact .inl ⟨k, List.mem_cons_self ..⟩
      · exact .inl ⟨k', List.mem_cons_of_mem _ hk⟩
      · exact .inr h1
  | case2 it k r rest hr ha =>
    exact .foreign w.pages (.inl ⟨k, by rw [hr]; exact List.mem_cons_self ..⟩) ha
  | case3 it hr pages hp =>
    have s := w.step
    rw [hp] at s
    cases s with
    | done hp all =>
      refine .done hp ?_
      rintro r (⟨k, hk⟩ | ⟨i, pg, c, h1, -⟩)
      · rw [hr] at hk; cases hk
      · have := all _ _ c
        omega
  | case4 it hr e pages hp =>
    have s := w.step
    rw [hp] at s
    cases s with
    | failed hp all =>
      refine .failed hp ?_
      rintro r (⟨k, hk⟩ | ⟨i, pg, c, h1, -⟩)
      · rw [hr] at hk; cases hk
      · have := all _ _ c
        omega
  | case5 it hr pages hp =>
    have s := w.step
    rw [hp] at s
    cases s
  | case6 it hr slot pages hp ih =>
    have s := w.step
    have hf := next_forward w hp
    rw [hp] at s
    cases s with
    | @page slot pg hp' c a' ho only =>
      have hg : pages.pages.getD slot .notLoaded = .loaded pg := by
        rw [List.getD_eq_getElem?_getD, hp']
        rfl
      rw [hg] at ih ⊢
      have key : ∀ r, it.Left file h db t r ↔
          RowIterator.Left { pages, slot, rest := (LazyPage.loaded pg).rows } file h db t r := by
        intro r
        unfold RowIterator.Left
        rw [hr]
        simp only [LazyPage.mem_rows]
        constructor
        · rintro (⟨k, hk⟩ | ⟨i, pg', c', h1, h2⟩)
          · cases hk
          · rcases Nat.lt_or_ge i pages.offset with h3 | h3
            · rcases only _ _ c' h3 with h4 | ⟨-, rfl⟩
              · omega
              · exact .inl h2
            · exact .inr ⟨i, pg', c', h3, h2⟩
        · rintro (h1 | ⟨i, pg', c', h1, h2⟩)
          · exact .inr ⟨_, pg, c, hf.1, h1⟩
          · exact .inr ⟨i, pg', c', by omega, h2⟩
      have ih := ih a'
      generalize RowIterator.nextWrap α { pages, slot, rest := (LazyPage.loaded pg).rows } = x at ih ⊢
      rcases x with ⟨x, it2⟩
      simp only at ih ⊢
      cases ih with
      | done hp no => exact .done hp fun r hr => no r ((key r).1 hr)
      | failed hp no => exact .failed hp fun r hr => no r ((key r).1 hr)
      | foreign hp hl hr => exact .foreign hp ((key _).2 hl) hr
      | row hr w hl => exact .row hr w fun r' => (key r').trans (hl r')

theorem RowIterator.collectWrap_spec {file : Bytes} {h : Header} {db : DatabaseType} {t : Table} {α : Type}
    [RowVariant α] {β : Type} (f : α → Res β) (it : RowIterator) (w : it.pages.Walks file h db t) :
    LoadedFrom file h db (it.collectWrap α f).2.pages.pages ∧
    ((it.collectWrap α f).1 = .panic → ∃ r, it.Left file h db t r ∧
      (RowVariant.fromRow (α := α) r = none ∨ ∃ a, RowVariant.fromRow (α := α) r = some a ∧ f a = .panic)) ∧
    (∀ ys, (it.collectWrap α f).1 = .ok ys →
      (∀ r, it.Left file h db t r → ∃ a, RowVariant.fromRow (α := α) r = some a) ∧
      ∀ y ∈ ys, ∃ r a, it.Left file h db t r ∧ RowVariant.fromRow (α := α) r = some a ∧ f a = .ok y) ∧
    ∀ e, (it.collectWrap α f).1 = .err e →
      (∀ r, it.Left file h db t r → ∃ a, RowVariant.fromRow (α := α) r = some a) ∨ ∃ a, f a = .err e := by
  fun_induction RowIterator.collectWrap α f it with
  | case1 it it' hn =>
    have s := it.step (α := α) w
    rw [hn] at s
    cases s with
    | done hp no =>
      refine ⟨hp, fun h => (by cases h), ?_, fun e h => (by cases h)⟩
      rintro ys hy
      injection hy with hy
      subst hy
      exact ⟨fun r hr => absurd hr (no r), fun y hy => (by cases hy)⟩
  | case2 it x it' hn y hy ys it'' hc ih =>
    have s := it.step (α := α) w
    rw [hn] at s
    cases s with
    | row hr w' hl =>
      obtain ⟨i1, i2, i3, i4⟩ := ih w'
      rw [hc] at i1 i3
      refine ⟨i1, fun h => (by cases h), ?_, fun e h => (by cases h)⟩
      intro zs hz
      injection hz with hz
      subst hz
      obtain ⟨j1, j2⟩ := i3 _ rfl
      refine ⟨?_, ?_⟩
      · intro r' hr'
        rcases (hl r').1 hr' with rfl | h2
        · exact ⟨_, hr⟩
        · exact j1 _ h2
      · intro z hz
        rcases List.mem_cons.1 hz with rfl | hz
        · exact ⟨_, _, (hl _).2 (.inl rfl), hr, hy⟩
        · obtain ⟨r, a, k1, k2⟩ := j2 z hz
          exact ⟨r, a, (hl _).2 (.inr k1), k2⟩
  | case3 it x it' hn y hy hc ih =>
    have s := it.step (α := α) w
    rw [hn] at s
    cases s with
    | row hr w' hl =>
      obtain ⟨i1, i2, i3, i4⟩ := ih w'
      refine ⟨i1, ?_, ?_, ?_⟩
      · intro h
        obtain ⟨r, k1, k2⟩ := i2 h
        exact ⟨r, (hl _).2 (.inr k1), k2⟩
      · intro ys h
        exact absurd (Prod.ext (x := it'.collectWrap α f) (y := (.ok ys, (it'.collectWrap α f).2)) h rfl) (hc _ _)
      · intro e h
        rcases i4 e h with k | k
        · refine .inl fun r' hr' => ?_
          rcases (hl r').1 hr' with rfl | h2
          · exact ⟨_, hr⟩
          · exact k _ h2
        · exact .inr k
  | case4 it x it' hn e he =>
    have s := it.step (α := α) w
    rw [hn] at s
    cases s with
    | row hr w' hl =>
      refine ⟨w'.pages, fun h => (by cases h), fun ys h => (by cases h), fun e' h => ?_⟩
      injection h with h
      subst h
      exact .inr ⟨_, he⟩
  | case5 it x it' hn he =>
    have s := it.step (α := α) w
    rw [hn] at s
    cases s with
    | row hr w' hl =>
      exact ⟨w'.pages, fun _ => ⟨_, (hl _).2 (.inl rfl), .inr ⟨_, hr, he⟩⟩, fun ys h => (by cases h),
        fun e' h => (by cases h)⟩
  | case6 it e it' hn =>
    have s := it.step (α := α) w
    rw [hn] at s
    cases s with
    | failed hp no =>
      exact ⟨hp, fun h => (by cases h), fun ys h => (by cases h), fun e' h => .inl fun r hr => absurd hr (no r)⟩
  | case7 it it' hn =>
    have s := it.step (α := α) w
    rw [hn] at s
    cases s with
    | foreign hp hl hr =>
      exact ⟨hp, fun _ => ⟨_, hl, .inl hr⟩, fun ys h => (by cases h), fun e' h => (by cases h)⟩

theorem findFrom_split {pt : PageType} {ts : List Table} {i j : Nat} {t : Table}
    (h : Header.findFrom pt i ts = some (j, t)) : ∃ before after, ts = before ++ t :: after ∧ t.pageType = pt ∧
      ∀ x ∈ before, x.pageType ≠ pt := by
  induction ts generalizing i with
  | nil => cases h
  | cons t' ts ih =>
    unfold Header.findFrom at h
    split at h
    · rename_i ht
      injection h with h
      injection h with _ h
      subst h
      exact ⟨[], ts, rfl, ht, fun x hx => (by cases hx)⟩
    · rename_i ht
      obtain ⟨b, a, h1, h2, h3⟩ := ih h
      refine ⟨t' :: b, a, by rw [h1]; rfl, h2, ?_⟩
      intro x hx
      rcases List.mem_cons.1 hx with rfl | hx
      · exact ht
      · exact h3 x hx

theorem findFrom_none {pt : PageType} {ts : List Table} {i : Nat} (h : Header.findFrom pt i ts = none) :
    ∀ x ∈ ts, x.pageType ≠ pt := by
  induction ts generalizing i with
  | nil => exact fun x hx => (by cases hx)
  | cons t' ts ih =>
    unfold Header.findFrom at h
    split at h
    · cases h
    · rename_i ht
      intro x hx
      rcases List.mem_cons.1 hx with rfl | hx
      · exact ht
      · exact ih h x hx

theorem Database.collectRowsWrap_spec {file : Bytes} {h : Header} {db : DatabaseType} {α : Type} [RowVariant α]
    {β : Type} (f : α → Res β) (d : Database) (ab : d.About file h db) :
    (d.collectRowsWrap α f).2.About file h db ∧
    ((d.collectRowsWrap α f).1 = .panic → ∃ r, TableRow file h db (RowVariant.pageType α) r ∧
      (RowVariant.fromRow (α := α) r = none ∨ ∃ a, RowVariant.fromRow (α := α) r = some a ∧ f a = .panic)) ∧
    (∀ ys, (d.collectRowsWrap α f).1 = .ok ys →
      (∀ r, TableRow file h db (RowVariant.pageType α) r → ∃ a, RowVariant.fromRow (α := α) r = some a) ∧
      ∀ y ∈ ys, ∃ r a, TableRow file h db (RowVariant.pageType α) r ∧ RowVariant.fromRow (α := α) r = some a ∧
        f a = .ok y) ∧
    ∀ e, (d.collectRowsWrap α f).1 = .err e →
      (∀ r, TableRow file h db (RowVariant.pageType α) r → ∃ a, RowVariant.fromRow (α := α) r = some a) ∨
        ∃ a, f a = .err e := by
  unfold Database.collectRowsWrap Database.iterRows Database.iterPages
  cases hf : d.content.header.findTable (RowVariant.pageType α) with
  | none =>
    refine ⟨ab, fun h => (by cases h), fun ys h => (by cases h), fun e _ => .inl ?_⟩
    rintro r ⟨before, t, after, i, pg, h1, h2, -⟩
    have := findFrom_none hf t (by rw [ab.header, h1]; simp)
    exact absurd h2 this
  | some x =>
    obtain ⟨j, t⟩ := x
    obtain ⟨b, a, h1, h2, h3⟩ := findFrom_split hf
    rw [ab.header] at h1
    have w := ab.pagesOf t
    obtain ⟨c1, c2, c3, c4⟩ := RowIterator.collectWrap_spec (α := α) f
      { pages := d.pagesOf t, slot := 0, rest := [] } w
    have key : ∀ r, RowIterator.Left { pages := d.pagesOf t, slot := 0, rest := [] } file h db t r ↔
        TableRow file h db (RowVariant.pageType α) r := by
      intro r
      constructor
      · rintro (⟨k, hk⟩ | ⟨i, pg, c, -, hr⟩)
        · cases hk
        · exact ⟨b, t, a, i, pg, h1, h2, h3, c, hr⟩
      · rintro ⟨b', t', a', i, pg, g1, g2, g3, c, hr⟩
        rw [h1] at g1
        have := first_unique g1 h2 g2 h3 g3
        subst this
        exact .inr ⟨i, pg, c, c.read.1, hr⟩
    simp only [key] at c2 c3 c4
    exact ⟨ab.after c1, c2, c3, c4⟩

theorem Database.allRowsWrap_spec {file : Bytes} {h : Header} {db : DatabaseType} {α : Type} [RowVariant α]
    (d : Database) (ab : d.About file h db) :
    (d.allRowsWrap α).2.About file h db ∧
    ((d.allRowsWrap α).1 = .panic ↔ ∃ r, TableRow file h db (RowVariant.pageType α) r ∧
      RowVariant.fromRow (α := α) r = none) ∧
    ∀ ys, (d.allRowsWrap α).1 = .ok ys → ∀ y ∈ ys, ∃ r, TableRow file h db (RowVariant.pageType α) r ∧
      RowVariant.fromRow (α := α) r = some y := by
  obtain ⟨c1, c2, c3, c4⟩ := Database.collectRowsWrap_spec (α := α) Res.ok d ab
  unfold Database.allRowsWrap
  refine ⟨c1, ⟨?_, ?_⟩, ?_⟩
  · intro hp
    obtain ⟨r, h1, h2 | ⟨a, -, h2⟩⟩ := c2 hp
    · exact ⟨r, h1, h2⟩
    · cases h2
  · rintro ⟨r, h1, h2⟩
    have no : ¬ ∀ r, TableRow file h db (RowVariant.pageType α) r → ∃ a, RowVariant.fromRow (α := α) r = some a := by
      intro hc
      obtain ⟨a, ha⟩ := hc r h1
      rw [h2] at ha
      cases ha
    cases hx : (d.collectRowsWrap α Res.ok).1 with
    | ok ys => exact absurd (c3 _ hx).1 no
    | err e =>
      rcases c4 _ hx with h3 | ⟨a, h3⟩
      · exact absurd h3 no
      · cases h3
    | panic => rfl
  · intro ys hy y hm
    obtain ⟨r, a, h1, h2, h3⟩ := (c3 _ hy).2 y hm
    injection h3 with h3
    subst h3
    exact ⟨r, h1, h2⟩

end Rekordcrate
