import Verif.Spec.Database
import Verif.Lemmas.Page

/-! # Helper lemmas about the page iterator and loading -/

namespace Rekordcrate

theorem PageIndex.offset_eq (i : PageIndex) (pageSize : UInt32) :
    i.offset pageSize = .ok (i.val.toNat * pageSize.toNat) := by
  have h1 := i.val.toNat_lt
  have h2 := pageSize.toNat_lt
  have : i.val.toNat * pageSize.toNat ≤ (2 ^ 32 - 1) * (2 ^ 32 - 1) :=
    Nat.mul_le_mul (by omega) (by omega)
  unfold offset
  rw [if_pos (by omega)]

theorem readPage_eq (io : Bytes) (i : PageIndex) (pageSize : UInt32) (db : DatabaseType) :
    readPage io i pageSize db =
      match Page.read pageSize.toNat db io (i.val.toNat * pageSize.toNat) with
      | .ok (pg, _) => .ok pg
      | .err e => .err e
      | .panic => .panic := by
  unfold readPage
  rw [i.offset_eq, Res.ok_bind]
  cases Page.read pageSize.toNat db io (i.val.toNat * pageSize.toNat) with
  | ok x => rfl
  | err _ => rfl
  | panic => rfl

namespace PageIterator

/-- What happens when a page is returned. -/
structure Yields (it : PageIterator) (slot : Nat) (it' : PageIterator) (i : PageIndex) (pg : Page) : Prop where
  next : it.nextPage = some i
  le : it.offset ≤ i.val.toNat
  place : slot = it.start + (i.val.toNat - it.offset)
  lt : i.val.toNat - it.offset < it.len
  after : it' = { it with
    start := slot + 1, len := it.len - (i.val.toNat - it.offset) - 1, offset := i.val.toNat + 1
    pages := it'.pages, nextPage := if i = it.lastPage then none else some pg.header.nextPage }
  page : (it.pages[slot]? = some (.loaded pg) ∧ it'.pages = it.pages) ∨
    (it.pages[slot]? = some .notLoaded ∧ readPage it.io i it.pageSize it.dbType = .ok pg ∧
      it'.pages = it.pages.set slot (.loaded pg))

theorem next_some {it it' : PageIterator} {slot : Nat} (h : it.next = (.ok (some slot), it')) :
    ∃ i pg, it.Yields slot it' i pg := by
  unfold next at h
  split at h
  · cases h
  · rename_i i hi
    split at h
    · cases h
    · simp only at h
      split at h
      · cases h
      · split at h
        · cases h
        · split at h
          · cases h
          · rename_i pg hp
            simp only [Prod.mk.injEq, Res.ok.injEq, Option.some.injEq] at h
            obtain ⟨rfl, rfl⟩ := h
            exact ⟨i, pg, hi, by omega, rfl, by omega, rfl, .inl ⟨hp, rfl⟩⟩
          · rename_i hp
            split at h
            · rename_i pg hr
              simp only [Prod.mk.injEq, Res.ok.injEq, Option.some.injEq] at h
              obtain ⟨rfl, rfl⟩ := h
              exact ⟨i, pg, hi, by omega, rfl, by omega, rfl, .inr ⟨hp, hr, rfl⟩⟩
            · cases h
            · cases h

theorem Yields.next_eq {it it' : PageIterator} {slot : Nat} {i : PageIndex} {pg : Page}
    (h : it.Yields slot it' i pg) : it.next = (.ok (some slot), it') := by
  have hs := h.place
  unfold PageIterator.next
  rw [h.next]
  have h1 := h.le
  have h2 := h.lt
  simp only
  rw [if_neg (by omega), if_neg (by omega), if_neg (by omega), ← hs]
  rcases h.page with ⟨hp, hq⟩ | ⟨hp, hr, hq⟩
  · rw [hp]
    simp only
    rw [h.after, hq]
  · rw [hp]
    simp only
    rw [hr]
    simp only
    rw [h.after, hq]

theorem Yields.loaded {it it' : PageIterator} {slot : Nat} {i : PageIndex} {pg : Page}
    (h : it.Yields slot it' i pg) : it'.pages[slot]? = some (.loaded pg) := by
  rcases h.page with ⟨hp, hq⟩ | ⟨hp, hr, hq⟩
  · rw [hq, hp]
  · rw [hq]
    have := (List.getElem?_eq_some_iff.1 hp).1
    rw [List.getElem?_set_self this]

/-- The iterator cannot return a page any more. -/
def Stuck (it : PageIterator) : Prop := ∃ i, it.nextPage = some i ∧ (i.val.toNat < it.offset ∨ it.len = 0)

theorem next_err {it it' : PageIterator} {e : Err} (h : it.next = (.err e, it')) :
    it'.Stuck ∧ it'.pages = it.pages := by
  unfold next at h
  split at h
  · cases h
  · rename_i i hi
    split at h
    · injection h with _ h
      subst h
      exact ⟨⟨i, hi, .inl (by assumption)⟩, rfl⟩
    · simp only at h
      split at h
      · injection h with _ h
        subst h
        exact ⟨⟨i, hi, .inr rfl⟩, rfl⟩
      · split at h
        · injection h with _ h
          subst h
          exact ⟨⟨i, hi, .inr rfl⟩, rfl⟩
        · split at h
          · cases h
          · cases h
          · split at h
            · cases h
            · injection h with _ h
              subst h
              exact ⟨⟨i, hi, .inl (by simp only; omega)⟩, rfl⟩
            · cases h

theorem Stuck.next {it : PageIterator} (h : it.Stuck) : ∃ e it', it.next = (.err e, it') := by
  obtain ⟨i, hi, h⟩ := h
  unfold PageIterator.next
  split
  · rename_i hn
    rw [hn] at hi
    cases hi
  · rename_i j hj
    rw [hj] at hi
    injection hi with hi
    subst hi
    split
    · exact ⟨_, _, rfl⟩
    · simp only
      split
      · exact ⟨_, _, rfl⟩
      · rw [if_pos (by omega)]
        exact ⟨_, _, rfl⟩

theorem Stuck.calls {it : PageIterator} (h : it.Stuck) (n : Nat) : ∀ r ∈ it.calls n, ∃ e, r = .err e := by
  induction n generalizing it with
  | zero => intro r hr; cases hr
  | succ n ih =>
    obtain ⟨e, it', he⟩ := h.next
    intro r hr
    simp only [PageIterator.calls, he, List.mem_cons] at hr
    rcases hr with rfl | hr
    · exact ⟨e, rfl⟩
    · exact ih (next_err he).1 r hr

theorem next_of_none {it : PageIterator} (h : it.nextPage = none) : it.next = (.ok none, it) := by
  unfold next
  rw [h]

theorem next_none {it it' : PageIterator} (h : it.next = (.ok none, it')) : it.nextPage = none ∧ it' = it := by
  cases hn : it.nextPage with
  | none =>
    rw [next_of_none hn] at h
    injection h with _ h
    exact ⟨rfl, h.symm⟩
  | some i =>
    unfold next at h
    rw [hn] at h
    simp only at h
    repeat' split at h
    all_goals cases h

/-- After a panic the vector is unchanged. -/
theorem next_panic {it it' : PageIterator} (hs : it.start + it.len ≤ it.pages.length)
    (h : it.next = (.panic, it')) :
    it'.pages = it.pages ∧ ∃ i, it.nextPage = some i ∧ it.offset ≤ i.val.toNat ∧
      i.val.toNat - it.offset < it.len ∧
      it.pages[it.start + (i.val.toNat - it.offset)]? = some .notLoaded ∧
      readPage it.io i it.pageSize it.dbType = .panic := by
  unfold next at h
  split at h
  · cases h
  · rename_i i hi
    split at h
    · cases h
    · simp only at h
      split at h
      · cases h
      · split at h
        · cases h
        · split at h
          · rename_i hn
            rw [List.getElem?_eq_none_iff] at hn
            omega
          · cases h
          · rename_i hp
            split at h
            · cases h
            · cases h
            · rename_i hr
              injection h with _ h
              subst h
              exact ⟨rfl, i, hi, by omega, by omega, hp, hr⟩

/-- The slice is part of the vector; the number of its first page is `offset`. -/
structure Ok (it : PageIterator) : Prop where
  within : it.start + it.len ≤ it.pages.length
  offset : it.offset = it.start + 1 ∨ it.len = 0

theorem Yields.ok {it it' : PageIterator} {slot : Nat} {i : PageIndex} {pg : Page}
    (h : it.Yields slot it' i pg) (hk : it.Ok) : it'.Ok ∧ slot + 1 = i.val.toNat := by
  have h1 := h.le
  have h2 := h.lt
  have h3 := h.place
  have h4 := hk.within
  have hlen : it'.pages.length = it.pages.length := by
    rcases h.page with ⟨_, hq⟩ | ⟨_, _, hq⟩
    · rw [hq]
    · rw [hq, List.length_set]
  have hoff : it.offset = it.start + 1 := by rcases hk.offset with h | h <;> omega
  refine ⟨⟨?_, ?_⟩, by omega⟩
  · rw [h.after]
    simp only
    rw [hlen]
    omega
  · rw [h.after]
    simp only
    omega

/-- Effect of one call on the vector: at most one entry changes, from not loaded to what the file holds. -/
theorem next_pages {it : PageIterator} (hk : it.Ok) :
    it.next.2.Ok ∧ it.next.2.io = it.io ∧ it.next.2.pageSize = it.pageSize ∧ it.next.2.dbType = it.dbType ∧
    it.next.2.lastPage = it.lastPage ∧
    (it.next.2.pages = it.pages ∨ ∃ slot pg i, i.val.toNat = slot + 1 ∧ it.pages[slot]? = some .notLoaded ∧
      readPage it.io i it.pageSize it.dbType = .ok pg ∧ it.next.2.pages = it.pages.set slot (.loaded pg)) := by
  have h := hk
  unfold next
  split
  · exact ⟨h, rfl, rfl, rfl, rfl, .inl rfl⟩
  · rename_i i hi
    split
    · exact ⟨h, rfl, rfl, rfl, rfl, .inl rfl⟩
    · simp only
      have := h.within
      split
      · exact ⟨⟨by simp only; omega, .inr rfl⟩, rfl, rfl, rfl, rfl, .inl rfl⟩
      · split
        · exact ⟨⟨by simp only; omega, .inr rfl⟩, rfl, rfl, rfl, rfl, .inl rfl⟩
        · have := h.offset
          split
          · exact ⟨⟨by simp only; omega, .inl (by simp only; omega)⟩, rfl, rfl, rfl, rfl, .inl rfl⟩
          · exact ⟨⟨by simp only; omega, .inl (by simp only; omega)⟩, rfl, rfl, rfl, rfl, .inl rfl⟩
          · split
            · rename_i hp _ pg hr
              refine ⟨⟨by simp only [List.length_set]; omega, .inl (by simp only; omega)⟩, rfl, rfl, rfl, rfl,
                .inr ⟨_, pg, i, by omega, hp, hr, rfl⟩⟩
            · exact ⟨⟨by simp only; omega, .inl (by simp only; omega)⟩, rfl, rfl, rfl, rfl, .inl rfl⟩
            · exact ⟨⟨by simp only; omega, .inl (by simp only; omega)⟩, rfl, rfl, rfl, rfl, .inl rfl⟩

end PageIterator

namespace Database

theorem pagesOf_ok (d : Database) (t : Table) : (d.pagesOf t).Ok := ⟨by simp [pagesOf], .inl rfl⟩

theorem loadPage_zero (d : Database) (i : PageIndex) (h : i.val.toNat = 0) : d.loadPage i = .panic := by
  unfold loadPage subU
  rw [h]
  rfl

theorem loadPage_eq (d : Database) (i : PageIndex) (h : 1 ≤ i.val.toNat) :
    d.loadPage i = match d.content.pages[i.val.toNat - 1]? with
      | none => .err (.pageNotPresent i.val.toNat)
      | some (.loaded pg) => .ok (d, pg)
      | some .notLoaded =>
        match Page.read d.content.header.pageSize.toNat d.dbType d.io
          (i.val.toNat * d.content.header.pageSize.toNat) with
        | .ok (pg, _) => .ok (d.setPage (i.val.toNat - 1) pg, pg)
        | .err e => .err e
        | .panic => .panic := by
  unfold loadPage subU
  rw [if_pos h, Res.ok_bind]
  cases d.content.pages[i.val.toNat - 1]? with
  | none => rfl
  | some x =>
    cases x with
    | loaded pg => rfl
    | notLoaded =>
      simp only
      rw [readPage_eq]
      cases Page.read d.content.header.pageSize.toNat d.dbType d.io
          (i.val.toNat * d.content.header.pageSize.toNat) with
      | ok x => rfl
      | err _ => rfl
      | panic => rfl

/-- Loading succeeds exactly if the view has a page, and gives that page. -/
theorem loadPage_view (d : Database) (i : PageIndex) (h : 1 ≤ i.val.toNat) :
    (∀ d' pg, d.loadPage i = .ok (d', pg) ↔ d.view i.val.toNat = .ok pg ∧
      d' = d.setPage (i.val.toNat - 1) pg) ∧
    (∀ e, d.loadPage i = .err e ↔ d.view i.val.toNat = .err e) ∧
    (d.loadPage i = .panic ↔ d.view i.val.toNat = .panic) := by
  rw [loadPage_eq d i h, view]
  cases hp : d.content.pages[i.val.toNat - 1]? with
  | none => simp
  | some x =>
    cases x with
    | loaded pg =>
      refine ⟨?_, by simp, by simp⟩
      intro d' pg'
      simp only [Res.ok.injEq, Prod.mk.injEq]
      have hself : d.setPage (i.val.toNat - 1) pg = d := by
        obtain ⟨hlt, he⟩ := List.getElem?_eq_some_iff.1 hp
        unfold setPage
        rw [← he, List.set_getElem_self]
      constructor
      · rintro ⟨rfl, rfl⟩
        exact ⟨rfl, hself.symm⟩
      · rintro ⟨rfl, rfl⟩
        exact ⟨hself.symm, rfl⟩
    | notLoaded =>
      simp only
      cases Page.read d.content.header.pageSize.toNat d.dbType d.io
          (i.val.toNat * d.content.header.pageSize.toNat) with
      | ok x =>
        refine ⟨?_, by simp, by simp⟩
        intro d' pg'
        simp only [Res.ok.injEq, Prod.mk.injEq]
        constructor
        · rintro ⟨rfl, rfl⟩
          exact ⟨rfl, rfl⟩
        · rintro ⟨rfl, rfl⟩
          exact ⟨rfl, rfl⟩
      | err _ => simp
      | panic => simp

theorem view_setPage (d : Database) {slot : Nat} (pg : Page) (h : slot < d.content.pages.length) {n : Nat}
    (hn : 1 ≤ n) : (d.setPage slot pg).view n = if n = slot + 1 then .ok pg else d.view n := by
  unfold view setPage
  simp only
  by_cases he : n = slot + 1
  · subst he
    rw [Nat.add_sub_cancel, List.getElem?_set_self h, if_pos rfl]
  · rw [List.getElem?_set_ne (by omega), if_neg he]

theorem view_lt {d : Database} {n : Nat} {pg : Page} (h : d.view n = .ok pg) : n - 1 < d.content.pages.length := by
  unfold view at h
  rcases Nat.lt_or_ge (n - 1) d.content.pages.length with hlt | hge
  · exact hlt
  · rw [List.getElem?_eq_none hge] at h
    cases h

/-- Filling in a page that the view has already does not change the view. -/
theorem view_setPage_self {d : Database} {slot : Nat} {pg : Page} (h : d.view (slot + 1) = .ok pg) {n : Nat}
    (hn : 1 ≤ n) : (d.setPage slot pg).view n = d.view n := by
  rw [view_setPage d pg (by have := view_lt h; omega) hn]
  split
  · rename_i he
    rw [he, h]
  · rfl

theorem view_after_next (d : Database) {it : PageIterator} (hk : it.Ok) (h1 : it.pages = d.content.pages)
    (h2 : it.io = d.io) (h3 : it.pageSize = d.content.header.pageSize) (h4 : it.dbType = d.dbType) {n : Nat}
    (hn : 1 ≤ n) : (d.after it.next.2).view n = d.view n := by
  obtain ⟨-, -, -, -, -, h⟩ := PageIterator.next_pages hk
  rcases h with h | ⟨slot, pg, i, hi, hp, hr, h⟩
  · unfold after view
    rw [h, h1]
  · have : d.after it.next.2 = d.setPage slot pg := by
      unfold after setPage
      rw [h, h1]
    rw [this]
    refine view_setPage_self ?_ hn
    unfold view
    rw [Nat.add_sub_cancel, ← h1, hp]
    rw [readPage_eq, h2, h3, h4, hi] at hr
    exact hr

theorem after_after (d : Database) (a b : PageIterator) : (d.after a).after b = d.after b := rfl

theorem view_after_calls (d : Database) (m : Nat) {it : PageIterator} (hk : it.Ok)
    (h1 : it.pages = d.content.pages) (h2 : it.io = d.io) (h3 : it.pageSize = d.content.header.pageSize)
    (h4 : it.dbType = d.dbType) {n : Nat} (hn : 1 ≤ n) :
    (d.after (PageIterator.afterCalls m it)).view n = d.view n := by
  induction m generalizing d it with
  | zero => unfold PageIterator.afterCalls after view; rw [h1]
  | succ m ih =>
    obtain ⟨a1, a2, a3, a4, -, -⟩ := PageIterator.next_pages hk
    have := ih (d.after it.next.2) a1 rfl (a2.trans h2) (a3.trans h3) (a4.trans h4)
    rw [after_after] at this
    rw [PageIterator.afterCalls, this]
    exact view_after_next d hk h1 h2 h3 h4 hn

end Database

end Rekordcrate
