import Verif.Lemmas.Database
import Verif.Props.PageIter
import Verif.Spec.Dump

/-! # Lemmas about `dump-pdb` -/

namespace Rekordcrate

/-! ## What can be shown -/

theorem debugAll_cases {α : Type} (f : α → Res Unit) (P : α → Prop)
    (hf : ∀ x, (f x = .ok () ∧ P x) ∨ (f x = .panic ∧ ¬ P x)) (l : List α) :
    (debugAll f l = .ok () ∧ ∀ x ∈ l, P x) ∨ (debugAll f l = .panic ∧ ¬ ∀ x ∈ l, P x) := by
  induction l with
  | nil => exact .inl ⟨rfl, fun x hx => by cases hx⟩
  | cons x l ih =>
    rcases hf x with ⟨h1, h2⟩ | ⟨h1, h2⟩
    · have e : debugAll f (x :: l) = debugAll f l := by rw [debugAll, h1]; rfl
      rw [e]
      rcases ih with ⟨i1, i2⟩ | ⟨i1, i2⟩
      · refine .inl ⟨i1, fun y hy => ?_⟩
        rcases List.mem_cons.1 hy with rfl | hy
        · exact h2
        · exact i2 y hy
      · exact .inr ⟨i1, fun h => i2 fun y hy => h y (List.mem_cons_of_mem _ hy)⟩
    · have e : debugAll f (x :: l) = .panic := by rw [debugAll, h1]; rfl
      exact .inr ⟨e, fun h => h2 (h x (List.mem_cons_self ..))⟩

theorem DString.debugFmt_cases (s : DString) :
    (s.debugFmt = .ok () ∧ s.Valid) ∨ (s.debugFmt = .panic ∧ ¬ s.Valid) := by
  rcases s with c | (c | c | us) <;> simp only [DString.debugFmt, DString.display, DString.Valid]
  · cases h : fromUtf8 c <;> simp
  · cases h : fromUtf8 c <;> simp
  · cases h : fromUtf8 c <;> simp
  · simp

theorem shown_iff (r : Row) (s : DString) : s ∈ r.shown ↔ StringIn s r := by
  constructor
  · intro h
    rcases r with r | r | _
    · cases r <;> simp only [Row.shown, PlainRow.shown, OffsetItems.asItems, List.mem_cons, List.not_mem_nil,
        or_false] at h
      case track r =>
        rcases h with rfl | rfl | rfl | rfl | rfl | rfl | rfl | rfl | rfl | rfl | rfl | rfl | rfl | rfl | rfl | rfl |
          rfl | rfl | rfl | rfl | rfl <;> constructor
      case history r => rcases h with rfl | rfl | rfl <;> constructor
      all_goals (subst h; constructor)
    · cases r <;> simp only [Row.shown, ExtRow.shown, OffsetItems.asItems, List.mem_cons, List.not_mem_nil,
        or_false] at h
      rcases h with rfl | rfl <;> constructor
    · cases h
  · intro h
    cases h <;> simp [Row.shown, PlainRow.shown, ExtRow.shown, OffsetItems.asItems]

theorem Row.debugFmt_cases (r : Row) :
    (r.debugFmt = .ok () ∧ ∀ s, StringIn s r → s.Valid) ∨
      (r.debugFmt = .panic ∧ ¬ ∀ s, StringIn s r → s.Valid) := by
  have := debugAll_cases DString.debugFmt DString.Valid DString.debugFmt_cases r.shown
  simp only [shown_iff] at this
  exact this

theorem IndexEntry.debugFmt_cases (e : IndexEntry) :
    (e.debugFmt = .ok () ∧ e.Valid) ∨ (e.debugFmt = .panic ∧ ¬ e.Valid) := by
  unfold IndexEntry.debugFmt IndexEntry.Valid IndexEntry.isEmpty IndexEntry.pageIndex PageIndex.tryFrom
  by_cases h : e.raw = 0x1FFFFFF8
  · left
    simp [h]
  · have h' : e.raw.toNat ≠ 0x1FFFFFF8 := fun hh => h (UInt32.toNat_inj.1 hh)
    have hs : (e.raw >>> 3).toNat = e.raw.toNat / 8 := by
      rw [UInt32.toNat_shiftRight, Nat.shiftRight_eq_div_pow]
      rfl
    have hb : (e.raw == 0x1FFFFFF8) = false := by simpa using h
    rw [hb]
    by_cases hl : e.raw >>> 3 < 0x03FFFFFF
    · left
      have := UInt32.lt_iff_toNat_lt.1 hl
      rw [hs] at this
      simp only [if_pos hl, Bool.false_eq_true, if_false]
      exact ⟨trivial, .inr this⟩
    · right
      have : ¬ e.raw.toNat / 8 < 0x03FFFFFF := by
        intro hh
        apply hl
        rw [UInt32.lt_iff_toNat_lt, hs]
        exact hh
      simp only [if_neg hl, Bool.false_eq_true, if_false]
      exact ⟨trivial, fun hh => hh.elim h' this⟩

theorem IndexPageContent.debugFmt_cases (c : IndexPageContent) :
    (c.debugFmt = .ok () ∧ ∀ e ∈ c.entries, e.Valid) ∨ (c.debugFmt = .panic ∧ ¬ ∀ e ∈ c.entries, e.Valid) :=
  debugAll_cases _ _ IndexEntry.debugFmt_cases _

theorem Page.debugFmt_cases (pg : Page) :
    (pg.debugFmt = .ok () ∧ pg.Showable) ∨ (pg.debugFmt = .panic ∧ ¬ pg.Showable) := by
  unfold Page.debugFmt Page.Showable
  cases hc : pg.content with
  | data c =>
    have := debugAll_cases (fun kr : UInt16 × Row => kr.2.debugFmt) (fun kr => ∀ s, StringIn s kr.2 → s.Valid)
      (fun kr => kr.2.debugFmt_cases) c.rows
    simpa using this
  | index c =>
    have := c.debugFmt_cases
    simpa using this

theorem printItems_ok (l : List DumpItem) (h : ∀ x ∈ l, x.debugFmt = .ok ()) : printItems l = (l, .ok ()) := by
  induction l with
  | nil => rfl
  | cons x l ih =>
    rw [printItems, h x (List.mem_cons_self ..), ih fun y hy => h y (List.mem_cons_of_mem _ hy)]

theorem pageItems_eq (pg : Page) : pageItems pg = pg.lines := by
  unfold pageItems Page.lines
  cases pg.content <;> rfl

theorem printPage_cases (pg : Page) :
    (printItems (pageItems pg) = (pg.lines, .ok ()) ∧ pg.Showable) ∨
      (printItems (pageItems pg) = ([], .panic) ∧ ¬ pg.Showable) := by
  rcases pg.debugFmt_cases with ⟨h1, h2⟩ | ⟨h1, h2⟩
  · refine .inl ⟨?_, h2⟩
    rw [pageItems_eq]
    apply printItems_ok
    unfold Page.lines
    cases hc : pg.content with
    | data c =>
      intro x hx
      simp only [List.singleton_append, List.mem_cons, List.mem_map] at hx
      rcases hx with rfl | ⟨kr, hk, rfl⟩
      · exact h1
      · have := h2.1 c hc kr hk
        exact (kr.2.debugFmt_cases.resolve_right fun h => h.2 this).1
    | index c =>
      intro x hx
      have hv := h2.2 c hc
      simp only [List.singleton_append, List.mem_cons, List.mem_map] at hx
      rcases hx with rfl | rfl | ⟨e, he, rfl⟩
      · exact h1
      · exact (c.debugFmt_cases.resolve_right fun h => h.2 hv).1
      · exact (e.debugFmt_cases.resolve_right fun h => h.2 (hv e he)).1
  · refine .inr ⟨?_, h2⟩
    have : (DumpItem.page pg).debugFmt = .panic := h1
    simp only [pageItems, printItems, this]

/-! ## The pages of a table -/

open PageIterator

/-- The iterator is about to go to page `n` of the database, and has the pages from `lo` on before it. -/
structure PageIterator.Before (it : PageIterator) (d : Database) (last lo n : Nat) : Prop where
  pages : it.pages = d.content.pages
  io : it.io = d.io
  size : it.pageSize = d.content.header.pageSize
  db : it.dbType = d.dbType
  slice : it.start + it.len = it.pages.length
  off : it.offset = it.start + 1
  lo : it.offset = lo
  last : it.lastPage.val.toNat = last
  next : ∃ i, it.nextPage = some i ∧ i.val.toNat = n

theorem PageIterator.Before.back {it : PageIterator} {d : Database} {last lo n : Nat} (h : it.Before d last lo n)
    (hn : n < lo) : it.next = (.err (.pageOrderViolation n), it) := by
  obtain ⟨i, hi, hin⟩ := h.next
  have := h.lo
  unfold PageIterator.next
  rw [hi]
  simp only
  rw [if_pos (by omega), hin]

theorem PageIterator.Before.err {it : PageIterator} {d : Database} {last lo n : Nat} (h : it.Before d last lo n)
    (hn : lo ≤ n) {e : Err} (hv : d.view n = .err e) : ∃ it', it.next = (.err e, it') ∧ it'.pages = it.pages := by
  obtain ⟨i, hi, hin⟩ := h.next
  have h1 := h.lo
  have h2 := h.off
  have h3 := h.slice
  unfold PageIterator.next
  rw [hi]
  simp only
  rw [if_neg (by omega), hin]
  unfold Database.view at hv
  rw [← h.pages] at hv
  by_cases hl : it.len < n - it.offset
  · rw [if_pos hl]
    rw [List.getElem?_eq_none (by omega)] at hv
    injection hv with hv
    subst hv
    exact ⟨_, rfl, rfl⟩
  · rw [if_neg hl]
    by_cases hz : it.len - (n - it.offset) = 0
    · rw [if_pos hz]
      rw [List.getElem?_eq_none (by omega)] at hv
      injection hv with hv
      subst hv
      exact ⟨_, rfl, rfl⟩
    · rw [if_neg hz]
      rw [show it.start + (n - it.offset) = n - 1 by omega]
      cases hp : it.pages[n - 1]? with
      | none =>
        rw [List.getElem?_eq_none_iff] at hp
        omega
      | some x =>
        rw [hp] at hv
        cases x with
        | loaded pg => cases hv
        | notLoaded =>
          have hr : readPage it.io i it.pageSize it.dbType = .err e := by
            rw [readPage_eq, h.io, h.size, h.db, hin]
            exact hv
          simp only [hr]
          exact ⟨_, rfl, rfl⟩

theorem PageIterator.Before.panic {it : PageIterator} {d : Database} {last lo n : Nat} (h : it.Before d last lo n)
    (hn : lo ≤ n) (hv : d.view n = .panic) : ∃ it', it.next = (.panic, it') := by
  obtain ⟨i, hi, hin⟩ := h.next
  have h1 := h.lo
  have h2 := h.off
  have h3 := h.slice
  unfold PageIterator.next
  rw [hi]
  simp only
  rw [if_neg (by omega), hin]
  unfold Database.view at hv
  rw [← h.pages] at hv
  cases hp : it.pages[n - 1]? with
  | none =>
    rw [hp] at hv
    cases hv
  | some x =>
    have hlt := (List.getElem?_eq_some_iff.1 hp).1
    rw [if_neg (by omega), if_neg (by omega), show it.start + (n - it.offset) = n - 1 by omega]
    rw [hp] at hv ⊢
    cases x with
    | loaded pg => cases hv
    | notLoaded =>
      have hr : readPage it.io i it.pageSize it.dbType = .panic := by
        rw [readPage_eq, h.io, h.size, h.db, hin]
        exact hv
      simp only [hr]
      exact ⟨_, rfl⟩

theorem PageIterator.Before.page {it : PageIterator} {d : Database} {last lo n : Nat} (h : it.Before d last lo n)
    (hn : lo ≤ n) {pg : Page} (hv : d.view n = .ok pg) :
    ∃ it', it.next = (.ok (some (n - 1)), it') ∧ it'.pages[n - 1]? = some (.loaded pg) ∧
      d.after it' = d.setPage (n - 1) pg ∧ (n = last → it'.nextPage = none) ∧
      (n ≠ last → it'.Before (d.after it') last (n + 1) pg.header.nextPage.val.toNat) := by
  have h1 := h.lo
  have h2 := h.off
  have h3 := h.slice
  have hat : it.At d last n := ⟨h.pages, h.io, h.size, h.db, h.slice, h.off, by omega, h.last, h.next⟩
  obtain ⟨it', g1, g2, g3, g4, -⟩ := hat.yields hv
  have hd : d.after it' = d.setPage (n - 1) pg := by unfold Database.after; rw [g3]; rfl
  refine ⟨it', g1, g2, hd, g4, fun hne => ?_⟩
  obtain ⟨i, pg', hy⟩ := next_some g1
  obtain ⟨i', hi', hin'⟩ := h.next
  have hy1 := hy.next
  rw [hi'] at hy1
  injection hy1 with hy1
  subst hy1
  have hpg : pg' = pg := by
    have := hy.loaded
    rw [g2] at this
    injection this with this
    injection this with this
    exact this.symm
  subst hpg
  have hl := hy.lt
  have hlen : it'.pages.length = it.pages.length := by rw [g3, h.pages]; simp [Database.setPage]
  have ha := hy.after
  refine ⟨rfl, ?_, ?_, ?_, ?_, ?_, ?_, ?_, ?_⟩
  · rw [ha]; exact h.io
  · rw [ha]; exact h.size
  · rw [ha]; exact h.db
  · rw [hlen, ha]; simp only; omega
  · rw [ha]; simp only; omega
  · rw [ha]; simp only; omega
  · rw [ha]; exact h.last
  · refine ⟨pg'.header.nextPage, ?_, rfl⟩
    rw [ha]
    simp only
    rw [if_neg]
    intro he
    have := h.last
    rw [← he] at this
    omega

theorem Database.pagesOf_before (d : Database) (t : Table) :
    (d.pagesOf t).Before d t.lastPage.val.toNat 1 t.firstPage.val.toNat :=
  ⟨rfl, rfl, rfl, rfl, by simp [Database.pagesOf], rfl, rfl, rfl, _, rfl, rfl⟩

theorem Database.Trail.congr {d d' : Database} (h : ∀ n, 1 ≤ n → d'.view n = d.view n) {last lo n : Nat}
    (hlo : 1 ≤ lo) {l : List (Nat × Page)} {r : Res Unit} (t : d.Trail last lo n l r) : d'.Trail last lo n l r := by
  induction t with
  | last h1 h2 => exact .last h1 ((h _ (by omega)).trans h2)
  | link h1 h2 h3 _ ih => exact .link h1 h2 ((h _ (by omega)).trans h3) (ih (by omega))
  | back h1 => exact .back h1
  | fails h1 h2 => exact .fails h1 ((h _ (by omega)).trans h2)
  | panics h1 h2 => exact .panics h1 ((h _ (by omega)).trans h2)

theorem Database.Trail.unique {d : Database} {last lo n : Nat} {l l' : List (Nat × Page)} {r r' : Res Unit}
    (t : d.Trail last lo n l r) (t' : d.Trail last lo n l' r') : l = l' ∧ r = r' := by
  induction t generalizing l' r' with
  | last h1 h2 =>
    cases t' with
    | last _ g => rw [h2] at g; injection g with g; subst g; exact ⟨rfl, rfl⟩
    | link _ g _ _ => exact absurd rfl g
    | back g => omega
    | fails _ g => rw [h2] at g; cases g
    | panics _ g => rw [h2] at g; cases g
  | link h1 h2 h3 _ ih =>
    cases t' with
    | last _ g => exact absurd rfl h2
    | link _ _ g t' =>
      rw [h3] at g
      injection g with g
      subst g
      obtain ⟨rfl, rfl⟩ := ih t'
      exact ⟨rfl, rfl⟩
    | back g => omega
    | fails _ g => rw [h3] at g; cases g
    | panics _ g => rw [h3] at g; cases g
  | back h1 =>
    cases t' with
    | last g _ => omega
    | link g _ _ _ => omega
    | back _ => exact ⟨rfl, rfl⟩
    | fails g _ => omega
    | panics g _ => omega
  | fails h1 h2 =>
    cases t' with
    | last _ g => rw [h2] at g; cases g
    | link _ _ g _ => rw [h2] at g; cases g
    | back g => omega
    | fails _ g => rw [h2] at g; injection g with g; subst g; exact ⟨rfl, rfl⟩
    | panics _ g => rw [h2] at g; cases g
  | panics h1 h2 =>
    cases t' with
    | last _ g => rw [h2] at g; cases g
    | link _ _ g _ => rw [h2] at g; cases g
    | back g => omega
    | fails _ g => rw [h2] at g; cases g
    | panics _ _ => exact ⟨rfl, rfl⟩

theorem Database.Trail.exists (d : Database) (last : Nat) : ∀ (m lo n : Nat), d.content.pages.length + 1 - lo ≤ m → 1 ≤ lo →
    ∃ l r, d.Trail last lo n l r := by
  intro m
  induction m with
  | zero =>
    intro lo n hm hlo
    by_cases hn : n < lo
    · exact ⟨_, _, .back hn⟩
    · refine ⟨_, _, .fails (e := .pageNotPresent n) (by omega) ?_⟩
      unfold Database.view
      rw [List.getElem?_eq_none (by omega)]
  | succ m ih =>
    intro lo n hm hlo
    by_cases hn : n < lo
    · exact ⟨_, _, .back hn⟩
    · cases hv : d.view n with
      | ok pg =>
        by_cases he : n = last
        · subst he
          exact ⟨_, _, .last (by omega) hv⟩
        · obtain ⟨l, r, t⟩ := ih (n + 1) pg.header.nextPage.val.toNat (by omega) (by omega)
          exact ⟨_, _, .link (by omega) he hv t⟩
      | err e => exact ⟨_, _, .fails (by omega) hv⟩
      | panic => exact ⟨_, _, .panics (by omega) hv⟩

/-- What `dump_table` shows for a trail. -/
inductive TrailShown : List (Nat × Page) → Res Unit → List DumpItem → Res Unit → Prop where
  | all {l : List (Nat × Page)} {r : Res Unit} (hs : ∀ x ∈ l, x.2.Showable) :
      TrailShown l r (l.flatMap fun x => x.2.lines) r
  | stop {l l' : List (Nat × Page)} {x : Nat × Page} {r : Res Unit} (hs : ∀ y ∈ l, y.2.Showable)
      (hx : ¬ x.2.Showable) : TrailShown (l ++ x :: l') r (l.flatMap fun x => x.2.lines) .panic

theorem dumpPages_trail {d : Database} {last lo n : Nat} {l : List (Nat × Page)} {r : Res Unit}
    (t : d.Trail last lo n l r) (hlo : 1 ≤ lo) :
    ∀ {d1 : Database} {it : PageIterator}, (∀ m, 1 ≤ m → d1.view m = d.view m) → it.Before d1 last lo n →
      TrailShown l r (dumpPages it).1 (dumpPages it).2.1 ∧
      ((dumpPages it).2.1 ≠ .panic → ∀ m, 1 ≤ m → (d1.after (dumpPages it).2.2).view m = d1.view m) := by
  induction t with
  | @last lo pg h1 h2 =>
    intro d1 it hd hb
    have hv := (hd _ (by omega)).trans h2
    obtain ⟨it', g1, g2, g3, g4, -⟩ := hb.page h1 hv
    have hview : ∀ m, 1 ≤ m → (d1.after it').view m = d1.view m := by
      intro m hm
      rw [g3]
      exact Database.view_setPage_self (by rw [show last - 1 + 1 = last by omega]; exact hv) hm
    have hend : dumpPages it' = ([], .ok (), it') := by
      rw [dumpPages.eq_def, next_of_none (g4 rfl)]
    rw [dumpPages.eq_def, g1]
    simp only [g2]
    rcases printPage_cases pg with ⟨p1, p2⟩ | ⟨p1, p2⟩
    · rw [p1]
      simp only [hend]
      refine ⟨?_, fun _ => hview⟩
      have := TrailShown.all (l := [(last, pg)]) (r := .ok ()) (by simpa using p2)
      simpa using this
    · rw [p1]
      simp only
      refine ⟨?_, fun h => absurd rfl h⟩
      exact TrailShown.stop (l := []) (by simp) p2
  | @link lo n pg l r h1 h2 h3 t ih =>
    intro d1 it hd hb
    have hv := (hd _ (by omega)).trans h3
    obtain ⟨it', g1, g2, g3, -, g4⟩ := hb.page h1 hv
    have hview : ∀ m, 1 ≤ m → (d1.after it').view m = d1.view m := by
      intro m hm
      rw [g3]
      exact Database.view_setPage_self (by rw [show n - 1 + 1 = n by omega]; exact hv) hm
    obtain ⟨i1, i2⟩ := ih (by omega) (fun m hm => (hview m hm).trans (hd m hm)) (g4 h2)
    rw [dumpPages.eq_def, g1]
    simp only [g2]
    generalize dumpPages it' = q at i1 i2 ⊢
    obtain ⟨out, res, it2⟩ := q
    simp only at i1 i2 ⊢
    rcases printPage_cases pg with ⟨p1, p2⟩ | ⟨p1, p2⟩
    · rw [p1]
      simp only
      constructor
      · cases i1 with
        | all hs =>
          have := TrailShown.all (l := (n, pg) :: l) (r := r) (by
            intro x hx
            rcases List.mem_cons.1 hx with rfl | hx
            · exact p2
            · exact hs x hx)
          rwa [List.flatMap_cons] at this
        | @stop l l' x _ hs hx =>
          have := TrailShown.stop (l := (n, pg) :: l) (l' := l') (x := x) (r := r) (by
            intro y hy
            rcases List.mem_cons.1 hy with rfl | hy
            · exact p2
            · exact hs y hy) hx
          rwa [List.flatMap_cons] at this
      · intro hr m hm
        have := i2 hr m hm
        rwa [Database.after_after, hview m hm] at this
    · rw [p1]
      simp only
      refine ⟨?_, fun h => absurd rfl h⟩
      exact TrailShown.stop (l := []) (by simp) p2
  | @back lo n h1 =>
    intro d1 it hd hb
    rw [dumpPages.eq_def, hb.back h1]
    simp only
    refine ⟨TrailShown.all (l := []) (by simp), fun _ m hm => ?_⟩
    unfold Database.after Database.view
    rw [hb.pages]
  | @fails lo n e h1 h2 =>
    intro d1 it hd hb
    obtain ⟨it', g1, g2⟩ := hb.err h1 ((hd _ (by omega)).trans h2)
    rw [dumpPages.eq_def, g1]
    simp only
    refine ⟨TrailShown.all (l := []) (by simp), fun _ m hm => ?_⟩
    unfold Database.after Database.view
    rw [g2, hb.pages]
  | @panics lo n h1 h2 =>
    intro d1 it hd hb
    obtain ⟨it', g1⟩ := hb.panic h1 ((hd _ (by omega)).trans h2)
    rw [dumpPages.eq_def, g1]
    simp only
    exact ⟨TrailShown.all (l := []) (by simp), fun h => absurd rfl h⟩

/-! ## The tables -/

theorem attempted_iff (t : PageType) (b : Bool) :
    ¬ (t.isUnknown && !b) = true ↔ (∀ c, t ≠ .unknown c) ∨ b = true := by
  cases t <;> cases b <;> simp [PageType.isUnknown]

theorem dumpTables_spec (d0 : Database) (b : Bool) (hd : List Table) : ∀ (ts : List Table) (i : Nat) (d : Database),
    d.content.header.tables = hd → ts = hd.drop i → (∀ m, 1 ≤ m → d.view m = d0.view m) →
    DumpOf d0 b i ts (dumpTables b i ts d).1 (dumpTables b i ts d).2 := by
  intro ts
  induction ts with
  | nil => intro i d _ _ _; exact .done
  | cons t ts ih =>
    intro i d hh hts hv
    have hget : hd[i]? = some t := by
      have : (hd.drop i)[0]? = some t := by rw [← hts]; rfl
      rwa [List.getElem?_drop, Nat.add_zero] at this
    have hrest : ts = hd.drop (i + 1) := by
      have : (hd.drop i).tail = ts := by rw [← hts]; rfl
      rw [← this, List.tail_drop]
    rw [dumpTables]
    by_cases hu : (t.pageType.isUnknown && !b) = true
    · rw [if_pos hu]
      have hb : b = false := by cases b <;> simp_all
      have hc : ∃ c, t.pageType = .unknown c := by
        cases hp : t.pageType with
        | unknown c => exact ⟨c, rfl⟩
        | _ => rw [hp] at hu; simp [PageType.isUnknown] at hu
      obtain ⟨c, hc⟩ := hc
      exact .skip hc hb (ih (i + 1) d hh hrest hv)
    · rw [if_neg hu]
      have ha := (attempted_iff _ _).1 hu
      have hit : d.iterPagesForTable i = .ok (d.pagesOf t) := by
        unfold Database.iterPagesForTable
        rw [hh, hget]
      obtain ⟨l, r, tr⟩ := Database.Trail.exists d0 t.lastPage.val.toNat _ 1 t.firstPage.val.toNat (Nat.le_refl _)
        (Nat.le_refl _)
      obtain ⟨h1, h2⟩ := dumpPages_trail tr (Nat.le_refl _) hv (d.pagesOf_before t)
      have hdt : dumpTable d i = ((dumpPages (d.pagesOf t)).1, (dumpPages (d.pagesOf t)).2.1,
          d.after (dumpPages (d.pagesOf t)).2.2) := by
        unfold dumpTable
        rw [hit]
      rw [hdt]
      generalize hq : dumpPages (d.pagesOf t) = q at h1 h2 ⊢
      obtain ⟨out, res, it⟩ := q
      simp only at h1 h2 ⊢
      have hd' : (d.after it).content.header.tables = hd := hh
      have hv' : res ≠ .panic → ∀ m, 1 ≤ m → (d.after it).view m = d0.view m :=
        fun hr m hm => (h2 hr m hm).trans (hv m hm)
      cases h1 with
      | all hs =>
        cases r with
        | ok _ => exact .full ha tr hs (ih (i + 1) _ hd' hrest (hv' (by simp)))
        | err e => exact .failed ha tr hs (ih (i + 1) _ hd' hrest (hv' (by simp)))
        | panic => exact .readPanics ha tr hs
      | stop hs hx => exact .showPanics ha tr hs hx

/-- Splitting a list at the first element without a property is unique. -/
theorem split_unique {α : Type} {P : α → Prop} {l1 l1' l2 l2' : List α} {x y : α}
    (h : l1 ++ x :: l1' = l2 ++ y :: l2') (h1 : ∀ z ∈ l1, P z) (hx : ¬ P x) (h2 : ∀ z ∈ l2, P z) (hy : ¬ P y) :
    l1 = l2 := by
  induction l1 generalizing l2 with
  | nil =>
    cases l2 with
    | nil => rfl
    | cons b l2 =>
      simp only [List.nil_append, List.cons_append, List.cons.injEq] at h
      exact absurd (h.1 ▸ h2 b (List.mem_cons_self ..)) hx
  | cons a l1 ih =>
    cases l2 with
    | nil =>
      simp only [List.nil_append, List.cons_append, List.cons.injEq] at h
      exact absurd (h.1 ▸ h1 a (List.mem_cons_self ..)) hy
    | cons b l2 =>
      simp only [List.cons_append, List.cons.injEq] at h
      rw [h.1, ih h.2 (fun z hz => h1 z (List.mem_cons_of_mem _ hz)) fun z hz => h2 z (List.mem_cons_of_mem _ hz)]

/-- There is only one dump. -/
theorem DumpOf.unique {d : Database} {b : Bool} {i : Nat} {ts : List Table} {o1 o2 : List DumpItem}
    {r1 r2 : Res Unit} (h1 : DumpOf d b i ts o1 r1) (h2 : DumpOf d b i ts o2 r2) : o1 = o2 ∧ r1 = r2 := by
  induction h1 generalizing o2 r2 with
  | done => cases h2; exact ⟨rfl, rfl⟩
  | skip hu hp _ ih =>
    have no : ∀ {P : Prop} {c : UInt32}, ((∀ c', PageType.unknown c ≠ PageType.unknown c') ∨ b = true) → P := by
      rintro P c (h | h)
      · exact absurd rfl (h _)
      · rw [hp] at h; cases h
    cases h2 with
    | skip _ _ rest => obtain ⟨rfl, rfl⟩ := ih rest; exact ⟨rfl, rfl⟩
    | full ha _ _ _ => rw [hu] at ha; exact no ha
    | failed ha _ _ _ => rw [hu] at ha; exact no ha
    | readPanics ha _ _ => rw [hu] at ha; exact no ha
    | showPanics ha _ _ _ => rw [hu] at ha; exact no ha
  | full ha hl hs _ ih =>
    cases h2 with
    | skip hu hp _ =>
      rcases ha with h | h
      · exact absurd hu (h _)
      · rw [hp] at h; cases h
    | full _ hl' _ rest =>
      obtain ⟨rfl, rfl⟩ := ih rest
      obtain ⟨rfl, -⟩ := hl.unique hl'
      exact ⟨rfl, rfl⟩
    | failed _ hl' _ _ => cases (hl.unique hl').2
    | readPanics _ hl' _ => cases (hl.unique hl').2
    | showPanics _ hl' _ hx =>
      obtain ⟨rfl, -⟩ := hl.unique hl'
      exact absurd (hs _ (by simp)) hx
  | failed ha hl hs _ ih =>
    cases h2 with
    | skip hu hp _ =>
      rcases ha with h | h
      · exact absurd hu (h _)
      · rw [hp] at h; cases h
    | full _ hl' _ rest => cases (hl.unique hl').2
    | failed _ hl' _ rest =>
      obtain ⟨rfl, rfl⟩ := ih rest
      obtain ⟨rfl, h⟩ := hl.unique hl'
      cases h
      exact ⟨rfl, rfl⟩
    | readPanics _ hl' _ => cases (hl.unique hl').2
    | showPanics _ hl' _ hx =>
      obtain ⟨rfl, -⟩ := hl.unique hl'
      exact absurd (hs _ (by simp)) hx
  | readPanics ha hl hs =>
    cases h2 with
    | skip hu hp _ =>
      rcases ha with h | h
      · exact absurd hu (h _)
      · rw [hp] at h; cases h
    | full _ hl' _ rest => cases (hl.unique hl').2
    | failed _ hl' _ rest => cases (hl.unique hl').2
    | readPanics _ hl' _ =>
      obtain ⟨rfl, -⟩ := hl.unique hl'
      exact ⟨rfl, rfl⟩
    | showPanics _ hl' _ hx =>
      obtain ⟨rfl, -⟩ := hl.unique hl'
      exact absurd (hs _ (by simp)) hx
  | showPanics ha hl hs hx =>
    cases h2 with
    | skip hu hp _ =>
      rcases ha with h | h
      · exact absurd hu (h _)
      · rw [hp] at h; cases h
    | full _ hl' hs' _ =>
      obtain ⟨rfl, -⟩ := hl.unique hl'
      exact absurd (hs' _ (by simp)) hx
    | failed _ hl' hs' _ =>
      obtain ⟨rfl, -⟩ := hl.unique hl'
      exact absurd (hs' _ (by simp)) hx
    | readPanics _ hl' hs' =>
      obtain ⟨rfl, -⟩ := hl.unique hl'
      exact absurd (hs' _ (by simp)) hx
    | showPanics _ hl' hs' hx' =>
      have := split_unique (P := fun z : Nat × Page => z.2.Showable) (hl.unique hl').1 hs hx hs' hx'
      rw [this]
      exact ⟨rfl, rfl⟩

end Rekordcrate
