import Verif.Spec.WrapTable
import Verif.Lemmas.Table
import Verif.Lemmas.WrapTool

/-! # Lemmas about damaged tables in builds without overflow checks -/

namespace Rekordcrate

section
variable {file : Bytes} {h : Header} {db : DatabaseType}

/-! ## Pages and trails -/

theorem FilePage.unique {n : Nat} {x y : Res Page} (a : FilePage file h db n x) (b : FilePage file h db n y) : x = y := by
  cases a with
  | there h1 h2 =>
    cases b with
    | there _ g => rw [h2] at g; injection g with g; injection g with g _; rw [g]
    | damaged _ g => rw [h2] at g; cases g
    | absent g => omega
  | damaged h1 h2 =>
    cases b with
    | there _ g => rw [h2] at g; cases g
    | damaged _ g => rw [h2] at g; injection g with g; rw [g]
    | absent g => omega
  | absent h1 =>
    cases b with
    | there g _ => omega
    | damaged g _ => omega
    | absent g => rfl

theorem FilePage.exists (file : Bytes) (h : Header) (db : DatabaseType) (n : Nat) : ∃ x, FilePage file h db n x := by
  by_cases hn : n < h.nextUnusedPage.val.toNat
  · cases hr : Page.readWrap h.pageSize.toNat db file (n * h.pageSize.toNat) with
    | ok x => exact ⟨_, .there hn hr⟩
    | err e => exact ⟨_, .damaged hn hr⟩
    | panic => exact absurd hr (Page.readWrap_np _ _ _ _)
  · exact ⟨_, .absent (by omega)⟩

theorem FileTrail.unique {last lo n : Nat} {l l' : List (Nat × Page)} {r r' : Res Unit}
    (t : FileTrail file h db last lo n l r) (t' : FileTrail file h db last lo n l' r') : l = l' ∧ r = r' := by
  induction t generalizing l' r' with
  | last h1 h2 =>
    cases t' with
    | last _ g => cases h2.unique g; exact ⟨rfl, rfl⟩
    | link _ g _ _ => exact absurd rfl g
    | back g => omega
    | fails _ g => cases h2.unique g
  | link h1 h2 h3 _ ih =>
    cases t' with
    | last _ g => exact absurd rfl h2
    | link _ _ g t' =>
      cases h3.unique g
      obtain ⟨rfl, rfl⟩ := ih t'
      exact ⟨rfl, rfl⟩
    | back g => omega
    | fails _ g => cases h3.unique g
  | back h1 =>
    cases t' with
    | last g _ => omega
    | link g _ _ _ => omega
    | back _ => exact ⟨rfl, rfl⟩
    | fails g _ => omega
  | fails h1 h2 =>
    cases t' with
    | last _ g => cases h2.unique g
    | link _ _ g _ => cases h2.unique g
    | back g => omega
    | fails _ g => cases h2.unique g; exact ⟨rfl, rfl⟩

theorem FileTrail.exists (last : Nat) : ∀ (m lo n : Nat), h.nextUnusedPage.val.toNat - lo ≤ m →
    ∃ l r, FileTrail file h db last lo n l r := by
  intro m
  induction m with
  | zero =>
    intro lo n hm
    by_cases hn : n < lo
    · exact ⟨_, _, .back hn⟩
    · exact ⟨_, _, .fails (by omega) (.absent (by omega))⟩
  | succ m ih =>
    intro lo n hm
    by_cases hn : n < lo
    · exact ⟨_, _, .back hn⟩
    · obtain ⟨x, hx⟩ := FilePage.exists file h db n
      cases x with
      | ok pg =>
        by_cases he : n = last
        · subst he
          exact ⟨_, _, .last (by omega) hx⟩
        · obtain ⟨l, r, t⟩ := ih (n + 1) pg.header.nextPage.val.toNat (by omega)
          exact ⟨_, _, .link (by omega) he hx t⟩
      | err e => exact ⟨_, _, .fails (by omega) hx⟩
      | panic => cases hx

/-! ## The iterator over pages -/

/-- The iterator is about to go to page `n` of the file, and has the pages from `lo` on before it. -/
structure PageIterator.Nears (it : PageIterator) (file : Bytes) (h : Header) (db : DatabaseType) (last lo n : Nat) :
    Prop where
  io : it.io = file
  size : it.pageSize = h.pageSize
  kind : it.dbType = db
  pages : LoadedFrom file h db it.pages
  whole : it.start + it.len = it.pages.length
  off : it.offset = it.start + 1
  lo : it.offset = lo
  last : it.lastPage.val.toNat = last
  next : ∃ i, it.nextPage = some i ∧ i.val.toNat = n

theorem readPageWrap_err {io : Bytes} {i : PageIndex} {s : UInt32} {db : DatabaseType} {e : Err} :
    readPageWrap io i s db = .err e ↔ Page.readWrap s.toNat db io (i.val.toNat * s.toNat) = .err e := by
  unfold readPageWrap
  rw [PageIndex.offset_eq, Res.ok_bind]
  cases Page.readWrap s.toNat db io (i.val.toNat * s.toNat) with
  | ok x => exact ⟨fun h => (by cases h), fun h => (by cases h)⟩
  | err e' => exact ⟨fun h => (by injection h with h; rw [h]), fun h => (by injection h with h; rw [h]; rfl)⟩
  | panic => exact ⟨fun h => (by cases h), fun h => (by cases h)⟩

namespace PageIterator.Nears

variable {it : PageIterator} {last lo n : Nat}

theorem back (a : it.Nears file h db last lo n) (hn : n < lo) : it.nextWrap = (.err (.pageOrderViolation n), it) := by
  obtain ⟨i, hi, hin⟩ := a.next
  have := a.lo
  unfold PageIterator.nextWrap
  rw [hi]
  simp only
  rw [if_pos (by omega), hin]

theorem err (a : it.Nears file h db last lo n) (hn : lo ≤ n) {e : Err} (hv : FilePage file h db n (.err e)) :
    ∃ it', it.nextWrap = (.err e, it') ∧ it'.pages = it.pages := by
  obtain ⟨i, hi, hin⟩ := a.next
  have h1 := a.lo
  have h2 := a.off
  have h3 := a.whole
  have h4 := a.pages.1
  unfold PageIterator.nextWrap
  rw [hi]
  simp only
  rw [if_neg (by omega), hin]
  cases hv with
  | absent hx =>
    by_cases hl : it.len < n - it.offset
    · rw [if_pos hl]; exact ⟨_, rfl, rfl⟩
    · rw [if_neg hl, if_pos (by omega)]; exact ⟨_, rfl, rfl⟩
  | damaged hx hr =>
    rw [if_neg (by omega), if_neg (by omega), show it.start + (n - it.offset) = n - 1 by omega]
    cases hp : it.pages[n - 1]? with
    | none =>
      rw [List.getElem?_eq_none_iff] at hp
      omega
    | some x =>
      cases x with
      | loaded pg =>
        obtain ⟨q, g⟩ := a.pages.2 _ _ hp
        rw [show n - 1 + 1 = n by omega, hr] at g
        cases g
      | notLoaded =>
        have hr : readPageWrap it.io i it.pageSize it.dbType = .err e := by
          rw [readPageWrap_err, a.io, a.size, a.kind, hin]
          exact hr
        simp only [hr]
        exact ⟨_, rfl, rfl⟩

theorem page (a : it.Nears file h db last lo n) (hn : lo ≤ n) {pg : Page} (hv : FilePage file h db n (.ok pg)) :
    ∃ it', it.nextWrap = (.ok (some (n - 1)), it') ∧ it'.pages[n - 1]? = some (.loaded pg) ∧
      LoadedFrom file h db it'.pages ∧ (n = last → it'.nextPage = none) ∧
      (n ≠ last → it'.Nears file h db last (n + 1) pg.header.nextPage.val.toNat) := by
  obtain ⟨i, hi, hin⟩ := a.next
  have h1 := a.lo
  have h2 := a.off
  have h3 := a.whole
  have h4 := a.pages.1
  have hlast : i = it.lastPage ↔ n = last := by
    rw [← a.last, ← hin]
    constructor
    · intro h; rw [h]
    · intro h
      rcases i with ⟨iv⟩
      rcases hlp : it.lastPage with ⟨lv⟩
      rw [hlp] at h
      exact congrArg PageIndex.mk (UInt32.toNat_inj.1 h)
  cases hv with
  | there hx hr =>
    unfold PageIterator.nextWrap
    rw [hi]
    simp only
    rw [if_neg (by omega), hin, if_neg (by omega), if_neg (by omega), show it.start + (n - it.offset) = n - 1 by omega]
    cases hp : it.pages[n - 1]? with
    | none =>
      rw [List.getElem?_eq_none_iff] at hp
      omega
    | some x =>
      cases x with
      | loaded pg' =>
        obtain ⟨q, g⟩ := a.pages.2 _ _ hp
        rw [show n - 1 + 1 = n by omega, hr] at g
        injection g with g
        injection g with g _
        subst g
        simp only
        refine ⟨_, rfl, hp, a.pages, ?_, ?_⟩
        · intro he
          rw [if_pos (hlast.2 he)]
        · intro he
          refine ⟨a.io, a.size, a.kind, a.pages, ?_, ?_, rfl, a.last, pg.header.nextPage, ?_, rfl⟩
          · simp only; omega
          · simp only; omega
          · simp only
            rw [if_neg (fun h => he (hlast.1 h))]
      | notLoaded =>
        have hrd : readPageWrap it.io i it.pageSize it.dbType = .ok pg := by
          rw [readPageWrap_ok, a.io, a.size, a.kind, hin]
          exact ⟨_, hr⟩
        simp only [hrd]
        have hs := a.pages.set (slot := n - 1) (by rw [show n - 1 + 1 = n by omega]; exact hr)
        refine ⟨_, rfl, ?_, hs, ?_, ?_⟩
        · simp only
          rw [List.getElem?_set_self (by omega)]
        · intro he
          rw [if_pos (hlast.2 he)]
        · intro he
          refine ⟨a.io, a.size, a.kind, hs, ?_, ?_, rfl, a.last, pg.header.nextPage, ?_, rfl⟩
          · simp only [List.length_set]; omega
          · simp only; omega
          · simp only
            rw [if_neg (fun h => he (hlast.1 h))]

end PageIterator.Nears

theorem PageIterator.nextWrap_of_none {it : PageIterator} (hn : it.nextPage = none) : it.nextWrap = (.ok none, it) := by
  unfold PageIterator.nextWrap
  rw [hn]

theorem Database.About.nears {d : Database} (a : d.About file h db) (t : Rekordcrate.Table) :
    (d.pagesOf t).Nears file h db t.lastPage.val.toNat 1 t.firstPage.val.toNat :=
  ⟨a.io, by rw [← a.header]; rfl, a.kind, a.pages, by simp [Database.pagesOf], rfl, rfl, rfl, _, rfl, rfl⟩

end

/-! ## The iterator over rows -/

namespace RowIterator

variable {α β : Type} [RowVariant α]

theorem nextWrap_nil {it : RowIterator} (h : it.rest = []) :
    it.nextWrap α = match it.pages.nextWrap with
    | (.ok none, pages) => (.ok none, { it with pages })
    | (.err e, pages) => (.err e, { it with pages })
    | (.panic, pages) => (.panic, { it with pages })
    | (.ok (some slot), pages) =>
      nextWrap α { pages, slot, rest := (pages.pages.getD slot .notLoaded).rows } := by
  rw [nextWrap.eq_def, h]
  simp only
  split <;> rename_i h' <;> rw [h']

theorem collectWrap_congr (f : α → Res β) {it it0 : RowIterator} (h : it.nextWrap α = it0.nextWrap α) :
    it.collectWrap α f = it0.collectWrap α f := by
  rw [collectWrap.eq_def, collectWrap.eq_def α f it0, h]

theorem collectWrap_rest (f : α → Res β) {pages : PageIterator} {slot : Nat} {r : Res Unit} {xs : List Row}
    (h : Visited f r xs (collectWrap α f ⟨pages, slot, []⟩).1) (rest : RowMap) :
    Visited f r (rest.map (fun x => x.2) ++ xs) (collectWrap α f ⟨pages, slot, rest⟩).1 := by
  induction rest with
  | nil => exact h
  | cons x rest ih =>
    rw [collectWrap.eq_def α f ⟨pages, slot, x :: rest⟩]
    cases ha : RowVariant.fromRow (α := α) x.2 with
    | none =>
      have : nextWrap α ⟨pages, slot, x :: rest⟩ = (.panic, ⟨pages, slot, rest⟩) := by
        rw [nextWrap.eq_def]
        simp only [ha]
      rw [this]
      exact .misfit ha
    | some a =>
      have : nextWrap α ⟨pages, slot, x :: rest⟩ = (.ok (some (slot, x.1, a)), ⟨pages, slot, rest⟩) := by
        rw [nextWrap.eq_def]
        simp only [ha]
      rw [this]
      simp only
      cases hf : f a with
      | err e => exact .refused ha hf
      | panic => exact .refusedPanic ha hf
      | ok y =>
        simp only
        generalize collectWrap α f ⟨pages, slot, rest⟩ = q at ih
        obtain ⟨o, it'⟩ := q
        cases o with
        | ok ys => exact .next ha hf ih
        | err e => exact .nextFails ha hf ih
        | panic => exact .nextPanics ha hf ih

theorem collectWrap_trail {file : Bytes} {h : Header} {db : DatabaseType} (f : α → Res β) {last lo n : Nat}
    {l : List (Nat × Page)} {r : Res Unit} (t : FileTrail file h db last lo n l r) (hlo : 1 ≤ lo) :
    ∀ {it : PageIterator} (s : Nat), it.Nears file h db last lo n →
      Visited f r ((rowsOf l).map fun x => x.2.2) (collectWrap α f ⟨it, s, []⟩).1 := by
  have fin : ∀ {it it' : PageIterator} {n s : Nat} {pg : Page} {xs : List Row} {r : Res Unit},
      it.nextWrap = (.ok (some (n - 1)), it') → it'.pages[n - 1]? = some (.loaded pg) →
      Visited f r xs (collectWrap α f ⟨it', n - 1, []⟩).1 →
      Visited f r ((LazyPage.loaded pg).rows.map (fun x => x.2) ++ xs) (collectWrap α f ⟨it, s, []⟩).1 := by
    intro it it' n s pg xs r g1 g2 hv
    have hn : nextWrap α ⟨it, s, []⟩ = nextWrap α ⟨it', n - 1, (LazyPage.loaded pg).rows⟩ := by
      rw [nextWrap_nil rfl, g1]
      simp only
      rw [List.getD_eq_getElem?_getD, g2]
      rfl
    rw [collectWrap_congr f hn]
    exact collectWrap_rest f hv (LazyPage.loaded pg).rows
  induction t with
  | @last lo pg h1 h2 =>
    intro it s a
    obtain ⟨it', g1, g2, -, g4, -⟩ := a.page h1 h2
    have hend : collectWrap α f ⟨it', last - 1, []⟩ = (.ok [], ⟨it', last - 1, []⟩) := by
      rw [collectWrap.eq_def, nextWrap_nil rfl, PageIterator.nextWrap_of_none (g4 rfl)]
    rw [rows_map]
    refine fin g1 g2 ?_
    rw [hend]
    exact .done rfl
  | @link lo n pg l r h1 h2 h3 t ih =>
    intro it s a
    obtain ⟨it', g1, g2, -, -, g4⟩ := a.page h1 h3
    rw [rows_map]
    exact fin g1 g2 (ih (by omega) (n - 1) (g4 h2))
  | @back lo n h1 =>
    intro it s a
    rw [collectWrap.eq_def, nextWrap_nil rfl, a.back h1]
    exact .fails rfl
  | @fails lo n e h1 h2 =>
    intro it s a
    obtain ⟨it', g1, g2⟩ := a.err h1 h2
    rw [collectWrap.eq_def, nextWrap_nil rfl, g1]
    exact .fails rfl

end RowIterator

/-! ## `dump-pdb` -/

section
variable {file : Bytes} {h : Header} {db : DatabaseType}

theorem dumpPagesWrap_trail {last lo n : Nat} {l : List (Nat × Page)} {r : Res Unit}
    (t : FileTrail file h db last lo n l r) (hlo : 1 ≤ lo) :
    ∀ {it : PageIterator}, it.Nears file h db last lo n →
      TrailShown l r (dumpPagesWrap it).1 (dumpPagesWrap it).2.1 := by
  induction t with
  | @last lo pg h1 h2 =>
    intro it a
    obtain ⟨it', g1, g2, -, g4, -⟩ := a.page h1 h2
    have hend : dumpPagesWrap it' = ([], .ok (), it') := by
      rw [dumpPagesWrap.eq_def, PageIterator.nextWrap_of_none (g4 rfl)]
    rw [dumpPagesWrap.eq_def, g1]
    simp only [g2]
    rcases printPage_cases pg with ⟨p1, p2⟩ | ⟨p1, p2⟩
    · rw [p1]
      simp only [hend]
      have := TrailShown.all (l := [(last, pg)]) (r := .ok ()) (by simpa using p2)
      simpa using this
    · rw [p1]
      exact TrailShown.stop (l := []) (by simp) p2
  | @link lo n pg l r h1 h2 h3 t ih =>
    intro it a
    obtain ⟨it', g1, g2, -, -, g4⟩ := a.page h1 h3
    have i1 := ih (by omega) (g4 h2)
    rw [dumpPagesWrap.eq_def, g1]
    simp only [g2]
    generalize dumpPagesWrap it' = q at i1 ⊢
    obtain ⟨out, res, it2⟩ := q
    simp only at i1 ⊢
    rcases printPage_cases pg with ⟨p1, p2⟩ | ⟨p1, p2⟩
    · rw [p1]
      simp only
      cases i1 with
      | all hs =>
        have := TrailShown.all (l := (n, pg) :: l) (r := r) (by
          intro x hx
          rcases List.mem_cons.1 hx with rfl | hx
          · exact p2
          · exact hs x hx)
        rwa [List.flatMap_cons] at this
      | @stop l l' x _ hs hx =>
        have := TrailShown.stop (l := (n, pg) :: l) (l' := l') (x := x) (r := r) (by
          intro y hy
          rcases List.mem_cons.1 hy with rfl | hy
          · exact p2
          · exact hs y hy) hx
        rwa [List.flatMap_cons] at this
    · rw [p1]
      exact TrailShown.stop (l := []) (by simp) p2
  | @back lo n h1 =>
    intro it a
    rw [dumpPagesWrap.eq_def, a.back h1]
    exact TrailShown.all (l := []) (by simp)
  | @fails lo n e h1 h2 =>
    intro it a
    obtain ⟨it', g1, g2⟩ := a.err h1 h2
    rw [dumpPagesWrap.eq_def, g1]
    exact TrailShown.all (l := []) (by simp)

theorem FileTrail.not_panic {last lo n : Nat} {l : List (Nat × Page)} {r : Res Unit}
    (t : FileTrail file h db last lo n l r) : r ≠ .panic := by
  induction t with
  | last _ _ => exact fun h => (by cases h)
  | link _ _ _ _ ih => exact ih
  | back _ => exact fun h => (by cases h)
  | fails _ _ => exact fun h => (by cases h)

theorem dumpTablesWrap_outline (b : Bool) : ∀ (ts : List Table) (i : Nat) (d : Database), d.About file h db →
    ts = h.tables.drop i → FileDump file h db b i ts (dumpTablesWrap b i ts d).1 (dumpTablesWrap b i ts d).2 := by
  intro ts
  induction ts with
  | nil => intro i d _ _; exact .done
  | cons t ts ih =>
    intro i d ha hi
    have hi' : ts = h.tables.drop (i + 1) := by rw [← List.drop_drop, ← hi]; rfl
    have hti : h.tables[i]? = some t := by
      have := List.getElem?_drop (xs := h.tables) (i := i) (j := 0)
      rw [← hi] at this
      simpa using this.symm
    unfold dumpTablesWrap
    by_cases hu : (t.pageType.isUnknown && !b) = true
    · rw [if_pos hu]
      have hb : b = false := by cases b <;> simp_all
      have hc : ∃ c, t.pageType = .unknown c := by
        cases hp : t.pageType with
        | unknown c => exact ⟨c, rfl⟩
        | _ => rw [hp] at hu; simp [PageType.isUnknown] at hu
      obtain ⟨c, hc⟩ := hc
      exact .skip hc hb (ih (i + 1) d ha hi')
    · rw [if_neg hu]
      have hw := (attempted_iff _ _).1 hu
      have hit : d.iterPagesForTable i = .ok (d.pagesOf t) := by
        unfold Database.iterPagesForTable
        rw [ha.header, hti]
      obtain ⟨l, r, tr⟩ := FileTrail.exists (file := file) (h := h) (db := db) t.lastPage.val.toNat _ 1
        t.firstPage.val.toNat (Nat.le_refl _)
      have h1 := dumpPagesWrap_trail tr (Nat.le_refl _) (ha.nears t)
      have h2 := (dumpPagesWrap_spec (d.pagesOf t) (ha.pagesOf t)).2
      have hd : dumpTableWrap d i =
          ((dumpPagesWrap (d.pagesOf t)).1, (dumpPagesWrap (d.pagesOf t)).2.1, d.after (dumpPagesWrap (d.pagesOf t)).2.2) := by
        unfold dumpTableWrap
        rw [hit]
      have ha' := ha.after h2
      rw [hd]
      generalize dumpPagesWrap (d.pagesOf t) = q at h1 ha' ⊢
      obtain ⟨out, res, it⟩ := q
      simp only at h1 ha' ⊢
      cases h1 with
      | all hs =>
        cases r with
        | ok _ => exact .full hw tr hs (ih (i + 1) _ ha' hi')
        | err e => exact .failed hw tr hs (ih (i + 1) _ ha' hi')
        | panic => exact absurd rfl tr.not_panic
      | stop hs hx => exact .showPanics hw tr hs hx

end

end Rekordcrate
