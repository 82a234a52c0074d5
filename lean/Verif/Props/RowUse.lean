import Verif.Spec.RowUse
import Verif.Props.Again
import Verif.Props.EditExample

/-! # C81: using references to rows in any way -/

namespace Rekordcrate

/-- C81: for each of the fifteen row types, there is no reference to rows of other types. -/
theorem row_assign_strict :
    RowAssign.Strict Album ∧ RowAssign.Strict Artist ∧ RowAssign.Strict Artwork ∧ RowAssign.Strict Color ∧
    RowAssign.Strict Genre ∧ RowAssign.Strict HistoryPlaylist ∧ RowAssign.Strict HistoryEntry ∧
    RowAssign.Strict History ∧ RowAssign.Strict Key ∧ RowAssign.Strict Label ∧
    RowAssign.Strict PlaylistTreeNode ∧ RowAssign.Strict PlaylistEntry ∧ RowAssign.Strict ColumnEntry ∧
    RowAssign.Strict Track ∧ RowAssign.Strict Menu := by
  refine ⟨?_, ?_, ?_, ?_, ?_, ?_, ?_, ?_, ?_, ?_, ?_, ?_, ?_, ?_, ?_⟩
  all_goals
    intro r a h
    cases r with
    | plain r => cases r <;> (first | rfl | cases h)
    | ext r => cases r <;> rfl
    | unknown => rfl

/-! ## Sessions -/

theorem Database.Session.append {d d1 d' : Database} {l l' : List (Nat × Page)} (h : d.Session l d1)
    (h' : d1.Session l' d') : d.Session (l ++ l') d' := by
  induction h with
  | done d => exact h'
  | load h _ ih => exact .load h (ih h')
  | assign new h _ ih => exact .assign new h (ih h')
  | iterate calls _ ih => exact .iterate calls (ih h')

namespace RowIterator

/-- The page at this place is in memory, and has a number. -/
def Reached (it : RowIterator) (slot : Nat) : Prop :=
  slot + 1 < 2 ^ 32 ∧ ∃ pg, it.pages.pages[slot]? = some (.loaded pg)

/-- The iterator works on the pages of the database. -/
structure On (d : Database) (refs : List (Nat × UInt16)) (it : RowIterator) : Prop where
  ok : it.pages.Ok
  io : it.pages.io = d.io
  pageSize : it.pages.pageSize = d.content.header.pageSize
  dbType : it.pages.dbType = d.dbType
  rest : it.rest ≠ [] → it.Reached it.slot
  refs : ∀ x ∈ refs, ∃ slot, x.1 = slot + 1 ∧ it.Reached slot

theorem loadPage_after {d : Database} {ps : PageIterator} (hio : ps.io = d.io)
    (hp : ps.pageSize = d.content.header.pageSize) (hdb : ps.dbType = d.dbType) {slot : Nat} {i : PageIndex}
    {pg : Page} (hi : i.val.toNat = slot + 1) (hl : ps.pages[slot]? = some .notLoaded)
    (hr : readPage ps.io i ps.pageSize ps.dbType = .ok pg) :
    (d.after ps).loadPage i = .ok ((d.after ps).setPage slot pg, pg) := by
  unfold Database.loadPage subU
  rw [if_pos (by omega), Res.ok_bind, hi]
  have : (d.after ps).content.pages[slot + 1 - 1]? = some .notLoaded := hl
  simp only [this]
  rw [hio, hp, hdb] at hr
  have hr : readPage (d.after ps).io i (d.after ps).content.header.pageSize (d.after ps).dbType = .ok pg := hr
  rw [hr]
  rfl

theorem Reached.set {it it' : RowIterator} {s slot : Nat} {pg : Page} (h : it.Reached s)
    (hs : it'.pages.pages = it.pages.pages.set slot (.loaded pg)) : it'.Reached s := by
  obtain ⟨h1, pg', h2⟩ := h
  refine ⟨h1, ?_⟩
  rw [hs, List.getElem?_set]
  obtain ⟨hlt, -⟩ := List.getElem?_eq_some_iff.1 h2
  split
  · rename_i he
    subst he
    rw [if_pos hlt]
    exact ⟨pg, rfl⟩
  · exact ⟨pg', h2⟩

theorem Reached.same {it it' : RowIterator} {s : Nat} (h : it.Reached s)
    (hs : it'.pages.pages = it.pages.pages) : it'.Reached s := by
  obtain ⟨h1, pg', h2⟩ := h
  exact ⟨h1, pg', by rw [hs]; exact h2⟩

/-- One call of the page iterator is loading pages. -/
theorem pages_next {d : Database} {ps ps' : PageIterator} (hk : ps.Ok) (hio : ps.io = d.io)
    (hp : ps.pageSize = d.content.header.pageSize) (hdb : ps.dbType = d.dbType) {r : Res (Option Nat)}
    (h : ps.next = (r, ps')) :
    ps'.Ok ∧ ps'.io = d.io ∧ ps'.pageSize = d.content.header.pageSize ∧ ps'.dbType = d.dbType ∧
      (d.after ps).Session [] (d.after ps') ∧
      (ps'.pages = ps.pages ∨ ∃ slot pg, ps'.pages = ps.pages.set slot (.loaded pg)) := by
  obtain ⟨h1, h2, h3, h4, -, h5⟩ := PageIterator.next_pages hk
  rw [h] at h1 h2 h3 h4 h5
  simp only at h1 h2 h3 h4 h5
  refine ⟨h1, h2.trans hio, h3.trans hp, h4.trans hdb, ?_, ?_⟩
  · rcases h5 with h5 | ⟨slot, pg, i, hi, hl, hr, h5⟩
    · have : d.after ps' = d.after ps := by unfold Database.after; rw [h5]
      rw [this]
      exact .done _
    · have : d.after ps' = (d.after ps).setPage slot pg := by unfold Database.after Database.setPage; rw [h5]
      rw [this]
      exact .load (loadPage_after hio hp hdb hi hl hr) (.done _)
  · rcases h5 with h5 | ⟨slot, pg, i, hi, hl, hr, h5⟩
    · exact .inl h5
    · exact .inr ⟨slot, pg, h5⟩

/-- One call of the row iterator is loading pages. -/
theorem next_on {α : Type} [RowVariant α] {d : Database} {refs : List (Nat × UInt16)} {it it' : RowIterator}
    (ho : it.On d refs) {r : Res (Option (Nat × UInt16 × α))} (h : it.next α = (r, it')) :
    (∀ slot k a, r = .ok (some (slot, k, a)) → it'.Reached slot) ∧ it'.On d refs ∧
      (d.after it.pages).Session [] (d.after it'.pages) := by
  fun_induction RowIterator.next α it generalizing refs with
  | case1 it k row rest hrest a ha =>
    injection h with h1 h2
    subst h2
    have hr := ho.rest (by rw [hrest]; simp)
    refine ⟨fun slot k' a' he => ?_, ⟨ho.ok, ho.io, ho.pageSize, ho.dbType, fun _ => hr, ho.refs⟩, .done _⟩
    rw [he] at h1
    simp only [Res.ok.injEq, Option.some.injEq, Prod.mk.injEq] at h1
    rw [← h1.1]
    exact hr
  | case2 it k row rest hrest ha =>
    injection h with h1 h2
    subst h2
    have hr := ho.rest (by rw [hrest]; simp)
    exact ⟨fun slot k' a' he => (by rw [he] at h1; cases h1),
      ⟨ho.ok, ho.io, ho.pageSize, ho.dbType, fun _ => hr, ho.refs⟩, .done _⟩
  | case3 it hrest ps hn =>
    obtain ⟨g1, g2, g3, g4, g5, g6⟩ := pages_next ho.ok ho.io ho.pageSize ho.dbType hn
    injection h with h1 h2
    subst h2
    refine ⟨fun slot k' a' he => (by rw [he] at h1; cases h1),
      ⟨g1, g2, g3, g4, fun hne => absurd hrest hne, fun x hx => ?_⟩, g5⟩
    obtain ⟨s, hs, hR⟩ := ho.refs x hx
    rcases g6 with g6 | ⟨slot, pg, g6⟩
    · exact ⟨s, hs, hR.same g6⟩
    · exact ⟨s, hs, hR.set g6⟩
  | case4 it hrest e ps hn =>
    obtain ⟨g1, g2, g3, g4, g5, g6⟩ := pages_next ho.ok ho.io ho.pageSize ho.dbType hn
    injection h with h1 h2
    subst h2
    refine ⟨fun slot k' a' he => (by rw [he] at h1; cases h1),
      ⟨g1, g2, g3, g4, fun hne => absurd hrest hne, fun x hx => ?_⟩, g5⟩
    obtain ⟨s, hs, hR⟩ := ho.refs x hx
    rcases g6 with g6 | ⟨slot, pg, g6⟩
    · exact ⟨s, hs, hR.same g6⟩
    · exact ⟨s, hs, hR.set g6⟩
  | case5 it hrest ps hn =>
    obtain ⟨g1, g2, g3, g4, g5, g6⟩ := pages_next ho.ok ho.io ho.pageSize ho.dbType hn
    injection h with h1 h2
    subst h2
    refine ⟨fun slot k' a' he => (by rw [he] at h1; cases h1),
      ⟨g1, g2, g3, g4, fun hne => absurd hrest hne, fun x hx => ?_⟩, g5⟩
    obtain ⟨s, hs, hR⟩ := ho.refs x hx
    rcases g6 with g6 | ⟨slot, pg, g6⟩
    · exact ⟨s, hs, hR.same g6⟩
    · exact ⟨s, hs, hR.set g6⟩
  | case6 it hrest slot ps hn ih =>
    obtain ⟨g1, g2, g3, g4, g5, g6⟩ := pages_next ho.ok ho.io ho.pageSize ho.dbType hn
    obtain ⟨i, pg, hy⟩ := PageIterator.next_some hn
    obtain ⟨-, hi⟩ := hy.ok ho.ok
    have hl := hy.loaded
    obtain ⟨h1, h2, h3⟩ := ih (refs := refs) ⟨g1, g2, g3, g4, fun _ => ⟨by
        rw [hi]; exact i.val.toNat_lt, pg, hl⟩, fun x hx => by
          obtain ⟨s, hs, hR⟩ := ho.refs x hx
          rcases g6 with g6 | ⟨slot, pg, g6⟩
          · exact ⟨s, hs, hR.same g6⟩
          · exact ⟨s, hs, hR.set g6⟩⟩ h
    exact ⟨h1, h2, g5.append h3⟩

/-- The page after an assignment to a row. -/
theorem assign_page {α : Type} [RowAssign α] {it : RowIterator} {slot : Nat} {pg : Page}
    (h : it.pages.pages[slot]? = some (.loaded pg)) (k : UInt16) (b : α) :
    ∃ pg', LazyPage.assignRow k b (.loaded pg) = .loaded pg' ∧
      (it.assign slot k b).pages.pages = it.pages.pages.set slot (.loaded pg') := by
  have hex : ∃ pg', LazyPage.assignRow k b (.loaded pg) = .loaded pg' := by
    unfold LazyPage.assignRow
    simp only
    split <;> exact ⟨_, rfl⟩
  obtain ⟨pg', he⟩ := hex
  refine ⟨pg', he, ?_⟩
  unfold RowIterator.assign
  simp only [List.getD_eq_getElem?_getD, h, Option.getD_some, he]

end RowIterator

/-! ## Assignments -/

theorem lastWritten_cons {α : Type} (x : Nat × UInt16 × α) (w : List (Nat × UInt16 × α)) (n : Nat) (k : UInt16) :
    lastWritten (x :: w) n k = (lastWritten w n k).or (if x.1 = n ∧ x.2.1 = k then some x.2.2 else none) := by
  unfold lastWritten
  rw [List.filter_cons]
  by_cases h : x.1 = n ∧ x.2.1 = k
  · rw [if_pos (by simp [h]), if_pos h, List.getLast?_cons]
    cases (w.filter fun x => x.1 == n && x.2.1 == k).getLast? <;> rfl
  · rw [if_neg (by simpa using h), if_neg h, Option.or_none]

theorem PageWritten.nil {α : Type} [RowVariant α] (n : Nat) (pg : Page) :
    PageWritten ([] : List (Nat × UInt16 × α)) n pg pg := by
  refine ⟨rfl, ?_⟩
  cases hc : pg.content with
  | index c => rfl
  | data c => exact ⟨c.rows, rfl, Pointwise.refl_of fun x _ => ⟨rfl, rfl⟩⟩

/-- An assignment, followed by others. -/
theorem PageWritten.step {α : Type} [RowVariant α] [RowAssign α] (hm : RowAssign.Lawful α)
    (hst : RowAssign.Strict α) {w : List (Nat × UInt16 × α)} {slot : Nat} {k : UInt16} {b : α} {pg pg1 pg' : Page}
    (h : LazyPage.assignRow k b (.loaded pg) = .loaded pg1) (t : PageWritten w (slot + 1) pg1 pg') :
    PageWritten ((slot + 1, k, b) :: w) (slot + 1) pg pg' := by
  obtain ⟨t1, t2⟩ := t
  unfold LazyPage.assignRow at h
  simp only at h
  cases hc : pg.content with
  | index c =>
    rw [hc] at h
    simp only [LazyPage.loaded.injEq] at h
    subst h
    rw [hc] at t2
    exact ⟨t1, by rw [hc]; exact t2⟩
  | data c =>
    rw [hc] at h
    simp only [LazyPage.loaded.injEq] at h
    subst h
    simp only at t1 t2
    obtain ⟨rows, e, hr⟩ := t2
    refine ⟨t1, ?_⟩
    rw [hc]
    refine ⟨rows, e, ?_⟩
    have h1 : Pointwise (fun x y => y = if x.1 = k then (x.1, (RowAssign.assign x.2 b).getD x.2) else x) c.rows
        (c.rows.map fun x => if x.1 = k then (x.1, (RowAssign.assign x.2 b).getD x.2) else x) := by
      have := (Pointwise.refl_of (R := Eq) (as := c.rows) fun _ _ => rfl).map_map id
        (fun x : UInt16 × Row => if x.1 = k then (x.1, (RowAssign.assign x.2 b).getD x.2) else x)
        (S := fun x y => y = if x.1 = k then (x.1, (RowAssign.assign x.2 b).getD x.2) else x)
        (fun x y h => by rw [h]; rfl)
      rw [List.map_id] at this
      exact this
    refine (h1.trans hr).imp fun x _ y _ hxy => ?_
    obtain ⟨z, rfl, hz1, hz2⟩ := hxy
    by_cases hk : x.1 = k
    · rw [if_pos hk] at hz1 hz2
      simp only at hz1 hz2
      refine ⟨hz1, ?_⟩
      rw [lastWritten_cons, if_pos ⟨rfl, hk.symm⟩]
      cases hx : RowVariant.fromRow (α := α) x.2 with
      | none =>
        rw [hst x.2 b hx, Option.getD_none] at hz2
        cases hl : lastWritten w (slot + 1) x.1 with
        | none =>
          rw [hl] at hz2
          exact .inr ⟨rfl, hz2⟩
        | some b' =>
          rw [hl] at hz2
          rcases hz2 with ⟨⟨a, ha⟩, -⟩ | ⟨-, hz2⟩
          · rw [hx] at ha; cases ha
          · exact .inr ⟨rfl, hz2⟩
      | some a =>
        obtain ⟨r', e1, e2⟩ := hm x.2 a b hx
        rw [e1, Option.getD_some] at hz2
        cases hl : lastWritten w (slot + 1) x.1 with
        | none =>
          rw [hl] at hz2
          simp only at hz2
          rw [Option.none_or]
          exact .inl ⟨⟨a, rfl⟩, by rw [hz2]; exact e2⟩
        | some b' =>
          rw [hl] at hz2
          rcases hz2 with ⟨-, hz2⟩ | ⟨hz2, -⟩
          · exact .inl ⟨⟨a, rfl⟩, hz2⟩
          · rw [e2] at hz2; cases hz2
    · rw [if_neg hk] at hz1 hz2
      refine ⟨hz1, ?_⟩
      rw [lastWritten_cons, if_neg (by rintro ⟨-, h⟩; exact hk h.symm), Option.or_none]
      exact hz2

theorem PageWritten.skip {α : Type} [RowVariant α] {w : List (Nat × UInt16 × α)} {n m : Nat} {k : UInt16} {b : α}
    {pg pg' : Page} (hn : m ≠ n) (t : PageWritten w n pg pg') : PageWritten ((m, k, b) :: w) n pg pg' := by
  obtain ⟨t1, t2⟩ := t
  refine ⟨t1, ?_⟩
  cases hc : pg.content with
  | index c => rw [hc] at t2; exact t2
  | data c =>
    rw [hc] at t2
    obtain ⟨rows, e, hr⟩ := t2
    refine ⟨rows, e, hr.imp fun x _ y _ hxy => ⟨hxy.1, ?_⟩⟩
    rw [lastWritten_cons, if_neg (by rintro ⟨h, -⟩; exact hn h), Option.or_none]
    exact hxy.2

namespace RowIterator

theorem uses_session {α : Type} [RowVariant α] [RowAssign α] (hm : RowAssign.Lawful α) (hst : RowAssign.Strict α)
    {d : Database} {refs : List (Nat × UInt16)} {it it' : RowIterator} {w : List (Nat × UInt16 × α)}
    (hu : it.Uses α refs w it') (ho : it.On d refs) :
    ∃ l, (d.after it.pages).Session l (d.after it'.pages) ∧ l.map Prod.fst = w.map Prod.fst ∧
      ∀ n, 1 ≤ n → match (d.after it.pages).view n with
        | .ok pg => ∃ pg', (d.after it'.pages).view n = .ok pg' ∧ PageWritten w n pg pg'
        | .err e => (d.after it'.pages).view n = .err e
        | .panic => (d.after it'.pages).view n = .panic := by
  induction hu with
  | stop it =>
    refine ⟨[], .done _, rfl, fun n hn => ?_⟩
    cases hv : (d.after it.pages).view n with
    | ok pg => exact ⟨pg, rfl, PageWritten.nil n pg⟩
    | err e => rfl
    | panic => rfl
  | @row refs it it1 it' slot k a w h _ ih =>
    obtain ⟨g1, g2, g3⟩ := next_on ho h
    obtain ⟨l, e1, e2, e3⟩ := ih ⟨g2.ok, g2.io, g2.pageSize, g2.dbType, g2.rest, fun x hx => by
      rcases List.mem_cons.1 hx with rfl | hx
      · exact ⟨slot, rfl, g1 slot k a rfl⟩
      · exact g2.refs x hx⟩
    refine ⟨l, g3.append e1, e2, fun n hn => ?_⟩
    have := (session_keeps_pages g3).1 n hn
    have hnil : lastAssigned [] n = none := rfl
    rw [hnil] at this
    simp only at this
    rw [← this]
    exact e3 n hn
  | @other refs it it1 it' r w h hr _ ih =>
    obtain ⟨g1, g2, g3⟩ := next_on ho h
    obtain ⟨l, e1, e2, e3⟩ := ih g2
    refine ⟨l, g3.append e1, e2, fun n hn => ?_⟩
    have := (session_keeps_pages g3).1 n hn
    have hnil : lastAssigned [] n = none := rfl
    rw [hnil] at this
    simp only at this
    rw [← this]
    exact e3 n hn
  | @assign refs it it' slot k b w h _ ih =>
    obtain ⟨s, hs, hR⟩ := ho.refs _ h
    have hs : slot = s := by simpa using hs
    subst hs
    obtain ⟨hlt, pg, hl⟩ := hR
    obtain ⟨pg1, a1, a2⟩ := assign_page hl k b
    have hlen : slot < it.pages.pages.length := (List.getElem?_eq_some_iff.1 hl).1
    have hk : (it.assign slot k b).On d refs := by
      refine ⟨⟨?_, ho.ok.offset⟩, ho.io, ho.pageSize, ho.dbType, fun hne => (ho.rest hne).set a2, fun x hx => ?_⟩
      · have := ho.ok.within
        rw [a2, List.length_set]
        exact this
      · obtain ⟨s, hs, hR⟩ := ho.refs x hx
        exact ⟨s, hs, hR.set a2⟩
    obtain ⟨l, e1, e2, e3⟩ := ih hk
    have hset : d.after (it.assign slot k b).pages = (d.after it.pages).setPage slot pg1 := by
      unfold Database.after Database.setPage
      rw [a2]
    have hview : (d.after it.pages).view (slot + 1) = .ok pg := Database.view_loaded (by
      rw [Nat.add_sub_cancel]; exact hl)
    let i : PageIndex := ⟨UInt32.ofNat (slot + 1)⟩
    have hi : i.val.toNat = slot + 1 := by
      show (UInt32.ofNat (slot + 1)).toNat = slot + 1
      rw [UInt32.toNat_ofNat']
      exact Nat.mod_eq_of_lt hlt
    have hload : (d.after it.pages).loadPage i = .ok (d.after it.pages, pg) := by
      rw [((d.after it.pages).loadPage_view i (by omega)).1, hi]
      refine ⟨hview, ?_⟩
      unfold Database.setPage
      rw [Nat.add_sub_cancel]
      have : (d.after it.pages).content.pages.set slot (.loaded pg) = (d.after it.pages).content.pages := by
        obtain ⟨h1, h2⟩ := List.getElem?_eq_some_iff.1 hl
        change it.pages.pages.set slot (.loaded pg) = it.pages.pages
        rw [← h2, List.set_getElem_self]
      rw [this]
    rw [hset] at e1 e3
    refine ⟨(slot + 1, pg1) :: l, ?_, by rw [List.map_cons, e2, List.map_cons], fun n hn => ?_⟩
    · have := Database.Session.assign (d' := d.after it'.pages) (l := l) pg1 hload (by
        rw [hi, Nat.add_sub_cancel]; exact e1)
      rw [hi] at this
      exact this
    · have e3 := e3 n hn
      rw [Database.view_setPage _ pg1 hlen hn] at e3
      by_cases he : n = slot + 1
      · subst he
        rw [if_pos rfl] at e3
        obtain ⟨pg', v1, v2⟩ := e3
        rw [hview]
        exact ⟨pg', v1, v2.step hm hst a1⟩
      · rw [if_neg he] at e3
        cases hv : (d.after it.pages).view n with
        | ok pg0 =>
          rw [hv] at e3
          obtain ⟨pg', v1, v2⟩ := e3
          exact ⟨pg', v1, v2.skip fun h => he h.symm⟩
        | err e => rw [hv] at e3; exact e3
        | panic => rw [hv] at e3; exact e3

end RowIterator

theorem Database.iterRows_on {α : Type} [RowVariant α] {d : Database} {it : RowIterator} (h : d.iterRows α = .ok it) :
    it.On d [] ∧ d.after it.pages = d := by
  unfold Database.iterRows Database.iterPages at h
  split at h
  · cases h
  · rename_i k t ht
    simp only [Res.ok_bind, Res.ok.injEq] at h
    subst h
    exact ⟨⟨d.pagesOf_ok t, rfl, rfl, rfl, fun h => absurd rfl h, fun x hx => by cases hx⟩, rfl⟩

/-- C81: whatever is done with `iter_rows` and the references it returns – rows skipped, references kept for
later, several assignments to a row, stopping early, going on after errors – amounts to loading pages and assigning
pages, one per assignment to a row. -/
theorem row_uses_session {α : Type} [RowVariant α] [RowAssign α] (hm : RowAssign.Lawful α)
    (hst : RowAssign.Strict α) {d : Database} {it it' : RowIterator} {w : List (Nat × UInt16 × α)}
    (h : d.iterRows α = .ok it) (hu : it.Uses α [] w it') :
    ∃ l, d.Session l (d.after it'.pages) ∧ l.map Prod.fst = w.map Prod.fst := by
  obtain ⟨h1, h2⟩ := Database.iterRows_on h
  obtain ⟨l, e1, e2, -⟩ := RowIterator.uses_session hm hst hu h1
  rw [h2] at e1
  exact ⟨l, e1, e2⟩

/-- C81: afterwards every row that was assigned to is the value assigned last, and everything else is what it was:
the other rows, the headers of the pages, the pages that cannot be read. -/
theorem row_uses_exact {α : Type} [RowVariant α] [RowAssign α] (hm : RowAssign.Lawful α)
    (hst : RowAssign.Strict α) {d : Database} {it it' : RowIterator} {w : List (Nat × UInt16 × α)}
    (h : d.iterRows α = .ok it) (hu : it.Uses α [] w it') {n : Nat} (hn : 1 ≤ n) :
    (∀ pg, d.view n = .ok pg → ∃ pg', (d.after it'.pages).view n = .ok pg' ∧ PageWritten w n pg pg') ∧
    (∀ e, d.view n = .err e → (d.after it'.pages).view n = .err e) ∧
    (d.view n = .panic → (d.after it'.pages).view n = .panic) := by
  obtain ⟨h1, h2⟩ := Database.iterRows_on h
  obtain ⟨l, -, -, e3⟩ := RowIterator.uses_session hm hst hu h1
  have e3 := e3 n hn
  rw [h2] at e3
  refine ⟨fun pg hv => ?_, fun e hv => ?_, fun hv => ?_⟩
  · rw [hv] at e3; exact e3
  · rw [hv] at e3; exact e3
  · rw [hv] at e3; exact e3

/-! ## Storing -/

theorem Row.Fits.swap {x y : Row} {t t' : PageType} (h : x.Fits t) (h' : x.Fits t') (hy : y.Fits t') : y.Fits t := by
  cases x with
  | plain r => rw [show t = t' from h.trans h'.symm]; exact hy
  | ext r => cases r <;> (rw [show t = t' from Eq.trans h (Eq.symm h')]; exact hy)
  | unknown =>
    obtain ⟨c, rfl⟩ := h
    obtain ⟨c', rfl⟩ := h'
    cases y with
    | plain r => cases hy
    | ext r => cases r <;> cases hy
    | unknown => exact ⟨c, rfl⟩

/-- C81: a page after some assignments can be stored if every row assigned can take the place of the old one. -/
theorem written_page_sound {α : Type} [RowVariant α] (hα : RowVariant.Lawful α) {w : List (Nat × UInt16 × α)}
    {pageSize : Nat} {db : DatabaseType} {n : Nat} {pg pg' : Page} (h : PageWritten w n pg pg')
    (hs : pg.Sound pageSize db)
    (hroom : ∀ c, pg.content = .data c → ∀ x ∈ c.rows, ∀ b, lastWritten w n x.1 = some b → ∀ (a : α) r',
      RowVariant.fromRow x.2 = some a → RowVariant.fromRow r' = some b → x.2.TakesPlace r') :
    pg'.Sound pageSize db := by
  obtain ⟨hh, hcont⟩ := h
  cases hd : pg.content with
  | index c =>
    rw [hd] at hcont
    simp only at hcont
    have : pg' = pg := by cases pg; cases pg'; simp only at *; rw [hh, hcont, hd]
    rw [this]
    exact hs
  | data c =>
    rw [hd] at hcont
    obtain ⟨rows, hc', hrows⟩ := hcont
    obtain ⟨hcons, hst, hl⟩ := hs.data c hd
    have take : ∀ x ∈ c.rows, ∀ y, RowWritten w n x y →
        x.2.TakesPlace y.2 ∧ ∀ t, x.2.Fits t → y.2.Fits t := by
      intro x hx y ⟨_, hxy⟩
      have same : y.2 = x.2 → x.2.TakesPlace y.2 ∧ ∀ t, x.2.Fits t → y.2.Fits t := fun he => by
        rw [he]
        exact ⟨⟨(hst x hx).1, (hst x hx).2.2, hl.coherent x hx, fun _ h => h⟩, fun _ h => h⟩
      cases hw : lastWritten w n x.1 with
      | none => rw [hw] at hxy; exact same hxy
      | some b =>
        rw [hw] at hxy
        rcases hxy with ⟨⟨a, ha⟩, hb⟩ | ⟨-, he⟩
        · refine ⟨hroom c hd x hx b hw a y.2 ha hb, fun t ht => ?_⟩
          exact ht.swap ((hα x.2).1 (by rw [ha]; rfl)) ((hα y.2).1 (by rw [hb]; rfl))
        · exact same he
    have hkeys : rows.map Prod.fst = c.rows.map Prod.fst :=
      hrows.map_eq (f := Prod.fst) (g := Prod.fst) fun x y h => h.1
    have hlen : rows.length = c.rows.length := by
      have := congrArg List.length hkeys
      simpa using this
    refine ⟨by rw [hh]; exact hs.type, ?_, ?_, ?_⟩
    · rw [hh, hs.flag, hd, hc']
      simp
    · intro x hx
      rw [hc'] at hx
      injection hx with hx
      subst hx
      rw [hh]
      refine ⟨⟨hcons.groups, hcons.sixteen, ?_, ?_, ?_⟩, ?_, ?_, ?_, ?_⟩
      · have := hcons.sorted
        unfold RowMap.Sorted at this ⊢
        rw [← List.pairwise_map (f := Prod.fst) (R := fun a b : UInt16 => a < b)] at this ⊢
        rw [hkeys]
        exact this
      · intro o
        simp only
        rw [hkeys]
        exact hcons.offsets o
      · rw [hlen]
        exact hcons.valid
      · intro y hy
        obtain ⟨x, hx, hxy⟩ := hrows.mem_right hy
        obtain ⟨t1, t2⟩ := take x hx y hxy
        exact ⟨t1.storable, t2 _ (hst x hx).2.1, t1.offsets⟩
      · refine hrows.pairwise hl.apart fun x hx y _ x' _ y' _ hxy hxy' hap => ?_
        obtain ⟨m, h1, h2⟩ := hap
        exact ⟨m, (take x hx y hxy).1.room m h1, by rw [hxy.1, hxy'.1]; exact h2⟩
      · intro y hy
        obtain ⟨x, hx, hxy⟩ := hrows.mem_right hy
        exact (take x hx y hxy).1.coherent
      · obtain ⟨fo, h1, h2, h3⟩ := hl.fits
        refine ⟨fo, h1, h2, fun y hy => ?_⟩
        obtain ⟨x, hx, hxy⟩ := hrows.mem_right hy
        obtain ⟨m, h4, h5⟩ := h3 x hx
        exact ⟨m, (take x hx y hxy).1.room m h4, by rw [hxy.1]; exact h5⟩
    · intro x hx
      rw [hc'] at hx
      cases hx

theorem session_assigned_pos {d d' : Database} {l : List (Nat × Page)} (h : d.Session l d') :
    ∀ x ∈ l, 1 ≤ x.1 := by
  induction h with
  | done d => intro x hx; cases hx
  | load _ _ ih => exact ih
  | @assign d d1 d' i pg l new h _ ih =>
    intro x hx
    rcases List.mem_cons.1 hx with rfl | hx
    · apply Nat.pos_of_ne_zero
      intro h0
      rw [Database.loadPage_zero d i h0] at h
      cases h
    · exact ih x hx
  | iterate _ _ ih => exact ih

/-- C81, for rows that can be stored where the old ones were: whatever is done with `iter_rows` and the references
it returns, then the database is flushed and the file opened again.  Then every row that was assigned to is the
value assigned last, and everything else is what it was (offsets in rows that were left to the writer are filled
in).  Missing: the code does not check that the rows can be stored, see `longer_title_is_damaged`. -/
theorem row_uses_survive_partial {α : Type} [RowVariant α] [RowAssign α] (hα : RowVariant.Lawful α)
    (hm : RowAssign.Lawful α) (hst : RowAssign.Strict α) {d : Database} (hi : d.Intact) {it it' : RowIterator}
    {w : List (Nat × UInt16 × α)} (h : d.iterRows α = .ok it) (hu : it.Uses α [] w it')
    (hroom : ∀ n pg c, 1 ≤ n → d.view n = .ok pg → pg.content = .data c → ∀ x ∈ c.rows, ∀ b,
      lastWritten w n x.1 = some b → ∀ (a : α) r', RowVariant.fromRow x.2 = some a →
      RowVariant.fromRow r' = some b → x.2.TakesPlace r') :
    (d.after it'.pages).Intact ∧
    ∃ d1 d2, (d.after it'.pages).flush = .ok d1 ∧ Database.openAt d1.io 0 d.dbType = .ok d2 ∧
      d2.content.header = d.content.header ∧
      ∀ n pg, 1 ≤ n → d.view n = .ok pg →
        ∃ pg1 pg2, PageWritten w n pg pg1 ∧ d2.view n = .ok pg2 ∧ pg1.ReadBack pg2 := by
  obtain ⟨l, hl, hlw⟩ := row_uses_session hm hst h hu
  have hex := fun {n : Nat} (hn : 1 ≤ n) => row_uses_exact hm hst h hu hn
  have hint : (d.after it'.pages).Intact := by
    refine session_intact hl hi fun n pg' ha => ?_
    have hn := session_assigned_pos hl _ (lastAssigned_mem ha)
    have hv := (session_keeps_pages hl).1 n hn
    rw [ha] at hv
    simp only at hv
    obtain ⟨e1, e2, e3⟩ := hex hn
    cases hd : d.view n with
    | ok pg =>
      obtain ⟨pg1, g1, g2⟩ := e1 pg hd
      rw [hv] at g1
      injection g1 with g1
      subst g1
      exact written_page_sound hα g2 (hi.sound hn hd) fun c hc => hroom n pg c hn hd hc
    | err e => rw [e2 e hd] at hv; cases hv
    | panic => rw [e3 hd] at hv; cases hv
  obtain ⟨d1, d2, g1, g2, g3, g4⟩ := intact_reopen hint
  refine ⟨hint, d1, d2, g1, g2, g3, fun n pg hn hv => ?_⟩
  obtain ⟨pg1, e1, e2⟩ := (hex hn).1 pg hv
  obtain ⟨pg2, e3, e4⟩ := g4 n pg1 hn e1
  exact ⟨pg1, pg2, e2, e3, e4⟩

/-! ## Ways to use the references -/

/-- C81: the loop that assigns to every row is one way to use the references. -/
theorem edits_are_uses {α : Type} [RowVariant α] [RowAssign α] {f : Nat → UInt16 → α → α} {it it' : RowIterator}
    (h : it.Edits α f it') (refs : List (Nat × UInt16)) : ∃ w, it.Uses α refs w it' := by
  induction h generalizing refs with
  | @done it it' h => exact ⟨[], .other h (fun x hx => by cases hx) (.stop it')⟩
  | @step it it1 it' slot k a h _ ih =>
    obtain ⟨w, ih⟩ := ih ((slot + 1, k) :: refs)
    exact ⟨_, .row h (.assign _ (List.mem_cons_self ..) ih)⟩

/-- C81: collecting all references first and assigning later is another. -/
theorem collect_then_use {α : Type} [RowVariant α] [RowAssign α] {it it1 it' : RowIterator}
    {rows : List (Nat × UInt16 × α)} (h : it.Runs α rows it1) {refs : List (Nat × UInt16)}
    {w : List (Nat × UInt16 × α)}
    (hu : it1.Uses α ((rows.map fun x => (x.1, x.2.1)).reverse ++ refs) w it') : it.Uses α refs w it' := by
  induction h generalizing refs with
  | done h => exact .other h (fun x hx => by cases hx) hu
  | @step it it1 it2 slot k a l h _ ih =>
    refine .row h (ih ?_)
    rw [List.map_cons, List.reverse_cons, List.append_assoc] at hu
    exact hu

/-- The second playlist of the example, without a name. -/
def noName : PlaylistTreeNode := { namedRow 1 2 0 [80] with name := .short [] }

theorem noName_takes_place {r' : Row} (h : RowVariant.fromRow r' = some noName) :
    (Row.plain (.playlistTreeNode (namedRow 1 2 0 [80]))).TakesPlace r' := by
  have : r' = .plain (.playlistTreeNode noName) := by
    simp only [RowVariant.fromRow] at h
    split at h
    · injection h with h
      rw [h]
    · cases h
  subst this
  refine packed_takes_place (m := 22) (n := 21) ?_ ?_ rfl rfl (by decide)
  · refine ⟨fun v hv => ?_, trivial, trivial⟩
    change v ∈ [DString.short [80]] at hv
    rw [List.mem_singleton] at hv
    subst hv
    show _ ≤ 126
    decide
  · refine ⟨fun v hv => ?_, trivial, trivial⟩
    change v ∈ [DString.short []] at hv
    rw [List.mem_singleton] at hv
    subst hv
    show _ ≤ 126
    decide

theorem nodesPage_rows : nodesPage.content = .data (contentOf 24 (goodNodes.map fun r => .plain (.playlistTreeNode r))) ∧
    (contentOf 24 (goodNodes.map fun r => Row.plain (.playlistTreeNode r))).rows =
      [(0, .plain (.playlistTreeNode (namedRow 0 1 1 [70]))), (24, .plain (.playlistTreeNode (namedRow 1 2 0 [80]))),
        (48, .plain (.playlistTreeNode (namedRow 0 3 0 [80])))] := by
  refine ⟨rfl, ?_⟩
  decide +kernel

/-- C81: in the example file, collect references to all playlists, then give the second one a name that is longer,
and then none; flush and open again.  The second playlist has no name, and the other two are what they were. -/
example : ∃ it it' d1 d2 pg c, smallDb.iterRows PlaylistTreeNode = .ok it ∧
    it.Uses PlaylistTreeNode [] [(2, 24, { noName with name := longName }), (2, 24, noName)] it' ∧
    (smallDb.after it'.pages).flush = .ok d1 ∧ Database.openAt d1.io 0 .plain = .ok d2 ∧
    d2.view 2 = .ok pg ∧ pg.content = .data c ∧
    c.rows = [(0, .plain (.playlistTreeNode (namedRow 0 1 1 [70]))), (24, .plain (.playlistTreeNode noName)),
      (48, .plain (.playlistTreeNode (namedRow 0 3 0 [80])))] := by
  obtain ⟨-, -, -, -, -, -, -, -, -, -, L, -⟩ := row_variants_lawful
  obtain ⟨-, -, -, -, -, -, -, -, -, -, M, -⟩ := row_assign_lawful
  obtain ⟨-, -, -, -, -, -, -, -, -, -, S, -⟩ := row_assign_strict
  obtain ⟨it, rows, it1, h1, h2, h3, -⟩ := row_iteration_of_file L (d := smallDb) smallDb_tree smallDb_chain2
    (by decide +kernel) nodes_type
  have hmem : (2, (24 : UInt16)) ∈ rows.map fun x => (x.1, x.2.1) := by
    have : (2, 24, Row.plain (.playlistTreeNode (namedRow 1 2 0 [80]))) ∈ rowsOf [(2, nodesPage)] := by
      unfold rowsOf
      simp only [List.flatMap_cons, List.flatMap_nil, List.append_nil, nodesPage_rows.1, nodesPage_rows.2]
      simp
    obtain ⟨y, hy, e1, e2, -⟩ := h3.mem_left this
    exact List.mem_map.2 ⟨y, hy, by rw [e1, e2]⟩
  have hmem : (1 + 1, (24 : UInt16)) ∈ (rows.map fun x => (x.1, x.2.1)).reverse ++ [] := by
    rw [List.append_nil, List.mem_reverse]
    exact hmem
  have hu : it.Uses PlaylistTreeNode [] [(2, 24, { noName with name := longName }), (2, 24, noName)] _ :=
    collect_then_use h2 (.assign _ hmem (.assign _ hmem (.stop _)))
  obtain ⟨-, d1, d2, g1, g2, -, g4⟩ := row_uses_survive_partial L M S smallFile_intact h1 hu (by
    intro n pg c hn hv hc x hx b hb a r' ha hr'
    rw [lastWritten_cons, lastWritten_cons] at hb
    have hnil : lastWritten ([] : List (Nat × UInt16 × PlaylistTreeNode)) n x.1 = none := rfl
    rw [hnil, Option.none_or] at hb
    by_cases hx' : 2 = n ∧ 24 = x.1
    · obtain ⟨rfl, hk⟩ := hx'
      rw [if_pos ⟨rfl, hk⟩] at hb
      simp only [Option.some_or, Option.some.injEq] at hb
      subst hb
      rw [smallDb_view2] at hv
      injection hv with hv
      subst hv
      rw [nodesPage_rows.1] at hc
      injection hc with hc
      subst hc
      rw [nodesPage_rows.2] at hx
      simp only [List.mem_cons, List.not_mem_nil, or_false] at hx
      rcases hx with rfl | rfl | rfl
      · cases hk
      · exact noName_takes_place hr'
      · cases hk
    · rw [if_neg hx', if_neg hx'] at hb
      cases hb)
  obtain ⟨pg1, pg2, e1, e2, e3⟩ := g4 2 nodesPage (by decide) smallDb_view2
  obtain ⟨-, e1⟩ := e1
  rw [nodesPage_rows.1] at e1
  obtain ⟨rows1, e4, e5⟩ := e1
  rw [nodesPage_rows.2] at e5
  obtain ⟨-, e3⟩ := e3
  rw [e4] at e3
  obtain ⟨c', e6, -, -, e7⟩ := e3
  refine ⟨it, _, d1, d2, pg2, c', h1, hu, g1, g2, e2, e6, ?_⟩
  have written : ∀ {k : UInt16} {r b : PlaylistTreeNode} {y z : UInt16 × Row},
      lastWritten [(2, 24, { noName with name := longName }), (2, 24, noName)] 2 k = some b →
      RowWritten [(2, 24, { noName with name := longName }), (2, 24, noName)] 2
        (k, .plain (.playlistTreeNode r)) y → z.1 = y.1 ∧ y.2.Resolved z.2 →
      z = (k, .plain (.playlistTreeNode b)) := by
    intro k r b y z hk hy hz
    obtain ⟨y1, y2⟩ := hy
    simp only at y1
    rw [hk] at y2
    rcases y2 with ⟨-, y2⟩ | ⟨y2, -⟩
    · have : y.2 = .plain (.playlistTreeNode b) := by
        simp only [RowVariant.fromRow] at y2
        split at y2
        · rename_i he
          injection y2 with y2
          rw [he, y2]
        · cases y2
      rw [this] at hz
      exact Prod.ext (hz.1.trans y1) hz.2
    · cases y2
  have kept : ∀ {k : UInt16} {r : PlaylistTreeNode} {y z : UInt16 × Row},
      lastWritten [(2, 24, { noName with name := longName }), (2, 24, noName)] 2 k = none →
      RowWritten [(2, 24, { noName with name := longName }), (2, 24, noName)] 2
        (k, .plain (.playlistTreeNode r)) y → z.1 = y.1 ∧ y.2.Resolved z.2 →
      z = (k, .plain (.playlistTreeNode r)) := by
    intro k r y z hk hy hz
    obtain ⟨y1, y2⟩ := hy
    simp only at y1
    rw [hk] at y2
    simp only at y2
    rw [y2] at hz
    exact Prod.ext (hz.1.trans y1) hz.2
  cases e5 with
  | cons r1 e5 =>
    cases e5 with
    | cons r2 e5 =>
      cases e5 with
      | cons r3 e5 =>
        cases e5
        simp only at e7
        generalize c'.rows = rs at e7
        cases e7 with
        | cons s1 e7 =>
          cases e7 with
          | cons s2 e7 =>
            cases e7 with
            | cons s3 e7 =>
              cases e7
              rw [kept rfl r1 s1, written (b := noName) rfl r2 s2, kept rfl r3 s3]

end Rekordcrate
