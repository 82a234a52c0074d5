import Verif.Lemmas.Database

/-! # C28 to C34: iterating over pages and rows, loading pages -/

namespace Rekordcrate

open PageIterator

/-! ## C28: termination and order -/

theorem PageIterator.panic_stuck {it it' : PageIterator} (h : it.next = (.panic, it')) : it'.Stuck := by
  cases hn : it.nextPage with
  | none =>
    rw [next_of_none hn] at h
    cases h
  | some i =>
    unfold next at h
    rw [hn] at h
    simp only at h
    split at h
    · cases h
    · split at h
      · cases h
      · split at h
        · cases h
        · split at h
          · injection h with _ h
            subst h
            exact ⟨i, rfl, .inl (by simp only; omega)⟩
          · cases h
          · split at h
            · cases h
            · cases h
            · injection h with _ h
              subst h
              exact ⟨i, rfl, .inl (by simp only; omega)⟩

/-- No page comes any more. -/
def PageIterator.Finished (it : PageIterator) : Prop := it.nextPage = none ∨ it.Stuck

theorem PageIterator.Finished.yields {it : PageIterator} (h : it.Finished) (n : Nat) : yielded (it.calls n) = [] := by
  rcases h with h | h
  · induction n with
    | zero => rfl
    | succ n ih =>
      rw [PageIterator.calls, next_of_none h]
      exact ih
  · have := h.calls n
    unfold yielded
    rw [List.filterMap_eq_nil_iff]
    intro r hr
    obtain ⟨e, rfl⟩ := this r hr
    rfl

theorem PageIterator.not_page_finished {it : PageIterator} (h : ∀ s, it.next.1 ≠ .ok (some s)) :
    it.next.2.Finished := by
  cases hn : it.next with
  | mk r it' =>
    cases r with
    | ok o =>
      cases o with
      | none =>
        obtain ⟨h1, rfl⟩ := next_none hn
        exact .inl h1
      | some s => exact absurd (by rw [hn]) (h s)
    | err e => exact .inr (next_err hn).1
    | panic => exact .inr (panic_stuck hn)

/-- C28: whatever the page links say, the pages come in strictly increasing order, so each comes at most
once, and all of them are pages of the database. -/
theorem page_iteration_increasing (d : Database) (t : Table) (n : Nat) :
    (yielded ((d.pagesOf t).calls n)).Pairwise (· < ·) ∧
      ∀ s ∈ yielded ((d.pagesOf t).calls n), s < d.content.pages.length := by
  have key : ∀ (n : Nat) (it : PageIterator), it.Ok →
      (yielded (it.calls n)).Pairwise (· < ·) ∧
        ∀ s ∈ yielded (it.calls n), it.start ≤ s ∧ s < it.start + it.len := by
    intro n
    induction n with
    | zero => intro it _; exact ⟨List.Pairwise.nil, fun s hs => by cases hs⟩
    | succ n ih =>
      intro it hk
      by_cases hp : ∃ s, it.next.1 = .ok (some s)
      · obtain ⟨s, hs⟩ := hp
        have hn : it.next = (.ok (some s), it.next.2) := by rw [← hs]
        obtain ⟨i, pg, hy⟩ := next_some hn
        obtain ⟨i1, i2⟩ := ih _ (hy.ok hk).1
        have hy1 : yielded (it.calls (n + 1)) = s :: yielded (it.next.2.calls n) := by
          rw [PageIterator.calls, hs]
          rfl
        have e1 : it.next.2.start = s + 1 := by rw [hy.after]
        have e2 : it.next.2.len = it.len - (i.val.toNat - it.offset) - 1 := by rw [hy.after]
        have := hy.place
        have := hy.lt
        rw [hy1]
        refine ⟨List.pairwise_cons.2 ⟨fun x hx => ?_, i1⟩, fun x hx => ?_⟩
        · have := i2 x hx
          omega
        · rcases List.mem_cons.1 hx with rfl | hx
          · omega
          · have := i2 x hx
            omega
      · have hp' : ∀ s, it.next.1 ≠ .ok (some s) := fun s hs => hp ⟨s, hs⟩
        have hf := (not_page_finished hp').yields n
        have hy1 : yielded (it.calls (n + 1)) = [] := by
          rw [PageIterator.calls]
          cases hr : it.next.1 with
          | ok o =>
            cases o with
            | none => exact hf
            | some s => exact absurd hr (hp' s)
          | err e => exact hf
          | panic => exact hf
        rw [hy1]
        exact ⟨List.Pairwise.nil, fun s hs => by cases hs⟩
  obtain ⟨h1, h2⟩ := key n _ (d.pagesOf_ok t)
  refine ⟨h1, fun s hs => ?_⟩
  have := (h2 s hs).2
  simpa [Database.pagesOf] using this

theorem length_le_of_increasing {l : List Nat} (h : l.Pairwise (· < ·)) {lo hi : Nat}
    (hb : ∀ s ∈ l, lo ≤ s ∧ s < hi) : l.length ≤ hi - lo := by
  induction l generalizing lo with
  | nil => simp
  | cons a l ih =>
    obtain ⟨h1, h2⟩ := List.pairwise_cons.1 h
    have ha := hb a (List.mem_cons_self ..)
    have := ih h2 (lo := a + 1) fun s hs => ⟨h1 s hs, (hb s (List.mem_cons_of_mem _ hs)).2⟩
    rw [List.length_cons]
    omega

/-- C28: one of the first calls, at most one more than the database has pages, does not return a page. -/
theorem page_iteration_terminates (d : Database) (t : Table) :
    ∃ r ∈ (d.pagesOf t).calls (d.content.pages.length + 1), ∀ s, r ≠ .ok (some s) := by
  obtain ⟨h1, h2⟩ := page_iteration_increasing d t (d.content.pages.length + 1)
  have hle := length_le_of_increasing h1 (lo := 0) fun s hs => ⟨Nat.zero_le _, h2 s hs⟩
  have hlen : ∀ (n : Nat) (it : PageIterator), (it.calls n).length = n := by
    intro n
    induction n with
    | zero => intro it; rfl
    | succ n ih => intro it; rw [PageIterator.calls, List.length_cons, ih]
  have hall : ∀ l : List (Res (Option Nat)), (∀ r ∈ l, ∃ s, r = .ok (some s)) → (yielded l).length = l.length := by
    intro l
    induction l with
    | nil => intro _; rfl
    | cons a l ih =>
      intro h
      obtain ⟨s, rfl⟩ := h a (List.mem_cons_self ..)
      have := ih fun r hr => h r (List.mem_cons_of_mem _ hr)
      simp only [yielded, List.filterMap_cons, List.length_cons] at this ⊢
      rw [this]
  apply Classical.byContradiction
  intro hc
  have := hall ((d.pagesOf t).calls (d.content.pages.length + 1)) fun r hr => by
    apply Classical.byContradiction
    intro hn
    exact hc ⟨r, hr, fun s hs => hn ⟨s, hs⟩⟩
  rw [hlen] at this
  omega

/-- C28: a call that does not return a page is followed only by such calls. -/
theorem page_iteration_stops (it : PageIterator) (h : ∀ s, it.next.1 ≠ .ok (some s)) (n : Nat) :
    yielded (it.next.2.calls n) = [] := (not_page_finished h).yields n

/-! ## C30: errors are final -/

/-- C30: after an error every further call returns an error. -/
theorem page_iteration_error_final {it it' : PageIterator} {e : Err} (h : it.next = (.err e, it')) (n : Nat) :
    ∀ r ∈ it'.calls n, ∃ e', r = .err e' := (next_err h).1.calls n

/-! ## C29: the chain is followed -/

theorem Database.Chain.congr {d d' : Database} (h : ∀ n, 1 ≤ n → d'.view n = d.view n) {last n : Nat}
    {l : List (Nat × Page)} (hc : d.Chain last n l) : d'.Chain last n l := by
  induction hc with
  | last hn hv => exact .last hn ((h _ hn).trans hv)
  | link hn hv hne hlt _ ih => exact .link hn ((h _ hn).trans hv) hne hlt ih

theorem Database.Chain.first {d : Database} {last n : Nat} {l : List (Nat × Page)} (hc : d.Chain last n l) :
    1 ≤ n ∧ ∃ pg rest, l = (n, pg) :: rest ∧ d.view n = .ok pg := by
  cases hc with
  | last hn hv => exact ⟨hn, _, _, rfl, hv⟩
  | link hn hv _ _ _ => exact ⟨hn, _, _, rfl, hv⟩

/-- The iterator is at page `n` of the database. -/
structure PageIterator.At (it : PageIterator) (d : Database) (last n : Nat) : Prop where
  pages : it.pages = d.content.pages
  io : it.io = d.io
  size : it.pageSize = d.content.header.pageSize
  db : it.dbType = d.dbType
  slice : it.start + it.len = it.pages.length
  off : it.offset = it.start + 1
  le : it.offset ≤ n
  last : it.lastPage.val.toNat = last
  next : ∃ i, it.nextPage = some i ∧ i.val.toNat = n

theorem PageIterator.At.yields {it : PageIterator} {d : Database} {last n : Nat} (h : it.At d last n) {pg : Page}
    (hv : d.view n = .ok pg) :
    ∃ it', it.next = (.ok (some (n - 1)), it') ∧ it'.pages[n - 1]? = some (.loaded pg) ∧
      it'.pages = (d.setPage (n - 1) pg).content.pages ∧
      (n = last → it'.nextPage = none) ∧
      (n ≠ last → it'.At (d.after it') last pg.header.nextPage.val.toNat ∨
        ¬ n < pg.header.nextPage.val.toNat) := by
  obtain ⟨i, hi, hin⟩ := h.next
  have hlt := Database.view_lt hv
  have a1 := h.slice
  have a2 := h.off
  have a3 := h.le
  rw [h.pages] at a1
  have hslot : n - 1 = it.start + (i.val.toNat - it.offset) := by omega
  have hps : ∃ ps, ps = (d.setPage (n - 1) pg).content.pages := ⟨_, rfl⟩
  obtain ⟨ps, hps⟩ := hps
  have hlen : ps.length = it.pages.length := by rw [hps, h.pages]; simp [Database.setPage]
  have hy : it.Yields (n - 1)
      { it with
        start := n - 1 + 1, len := it.len - (i.val.toNat - it.offset) - 1, offset := i.val.toNat + 1
        pages := ps, nextPage := if i = it.lastPage then none else some pg.header.nextPage } i pg := by
    refine ⟨hi, by omega, hslot, by omega, rfl, ?_⟩
    simp only
    unfold Database.view at hv
    rw [h.pages]
    split at hv
    · rename_i hp
      injection hv with hv
      subst hv
      refine .inl ⟨hp, ?_⟩
      rw [hps]
      obtain ⟨hl, he⟩ := List.getElem?_eq_some_iff.1 hp
      unfold Database.setPage
      simp only
      rw [← he, List.set_getElem_self]
    · rename_i hp
      refine .inr ⟨hp, ?_, hps⟩
      rw [readPage_eq, h.io, h.size, h.db, hin]
      exact hv
    · cases hv
  refine ⟨_, hy.next_eq, hy.loaded, hps, ?_, ?_⟩
  · intro he
    simp only
    rw [if_pos]
    have h1 := h.last
    have : i.val = it.lastPage.val := UInt32.toNat_inj.1 (by omega)
    cases i
    cases hl : it.lastPage
    rw [hl] at this
    simp only at this
    rw [this]
  · intro hne
    by_cases hlt' : n < pg.header.nextPage.val.toNat
    · left
      have h1 := h.last
      refine ⟨rfl, h.io, h.size, h.db, by simp only; rw [hlen, h.pages]; omega, by simp only; omega,
        by simp only; omega, h1, pg.header.nextPage, ?_, rfl⟩
      simp only
      rw [if_neg]
      intro he
      rw [← he] at h1
      omega
    · exact .inr hlt'

/-- C29: if the chain from the first to the last page of a table is increasing and readable, iterating
gives exactly the pages of the chain, with their contents, and then ends.  Afterwards these pages are in
memory, and every page of the database looks the same as before. -/
theorem page_iteration_follows_chain {d : Database} {t : Table} {l : List (Nat × Page)}
    (hc : d.Chain t.lastPage.val.toNat t.firstPage.val.toNat l) :
    ∃ it', (d.pagesOf t).Runs l it' ∧
      (∀ x ∈ l, it'.pages[x.1 - 1]? = some (.loaded x.2)) ∧
      ∀ n, 1 ≤ n → (d.after it').view n = d.view n := by
  have key : ∀ {d0 : Database} {last n : Nat} {l : List (Nat × Page)}, d0.Chain last n l →
      ∀ {d : Database} {it : PageIterator}, (∀ m, 1 ≤ m → d.view m = d0.view m) → it.At d last n →
      ∃ it', it.Runs l it' ∧ (∀ x ∈ l, it'.pages[x.1 - 1]? = some (.loaded x.2)) ∧
        (∀ s, s + 1 < n → it'.pages[s]? = it.pages[s]?) ∧
        ∀ n, 1 ≤ n → (d.after it').view n = d.view n := by
    intro d0 last n l hc
    induction hc with
    | @last pg hn hv =>
      intro d it hd hit
      have hv := (hd _ hn).trans hv
      obtain ⟨it', h1, h2, h3, h4, -⟩ := hit.yields hv
      refine ⟨it', ?_, ?_, ?_, ?_⟩
      · have := Runs.step (slot := last - 1) h1 h2 (.done (next_of_none (h4 rfl)))
        rwa [show last - 1 + 1 = last by omega] at this
      · intro x hx
        simp only [List.mem_singleton] at hx
        subst hx
        exact h2
      · intro s hs
        rw [h3, hit.pages]
        unfold Database.setPage
        simp only
        rw [List.getElem?_set_ne (by omega)]
      · intro n hn'
        have : d.after it' = d.setPage (last - 1) pg := by unfold Database.after; rw [h3]; rfl
        rw [this]
        exact Database.view_setPage_self (by rw [show last - 1 + 1 = last by omega]; exact hv) hn'
    | @link n pg l hn hv hne hlt t ih =>
      intro d it hd hit
      have hv := (hd _ hn).trans hv
      obtain ⟨it', h1, h2, h3, -, h4⟩ := hit.yields hv
      have hview : ∀ m, 1 ≤ m → (d.after it').view m = d.view m := by
        intro m hm
        have : d.after it' = d.setPage (n - 1) pg := by unfold Database.after; rw [h3]; rfl
        rw [this]
        exact Database.view_setPage_self (by rw [show n - 1 + 1 = n by omega]; exact hv) hm
      have h4 := (h4 hne).resolve_right fun h => h hlt
      obtain ⟨it2, g1, g2, g3, g4⟩ := ih (fun m hm => (hview m hm).trans (hd m hm)) h4
      refine ⟨it2, ?_, ?_, ?_, ?_⟩
      · have := Runs.step (slot := n - 1) h1 h2 g1
        rwa [show n - 1 + 1 = n by omega] at this
      · intro x hx
        rcases List.mem_cons.1 hx with rfl | hx
        · rw [g3 _ (by simp only; omega)]
          exact h2
        · exact g2 x hx
      · intro s hs
        rw [g3 s (by omega), h3, hit.pages]
        unfold Database.setPage
        simp only
        rw [List.getElem?_set_ne (by omega)]
      · intro m hm
        have := g4 m hm
        rw [Database.after_after, hview m hm] at this
        exact this
  obtain ⟨it', h1, h2, -, h4⟩ := key hc (d := d) (it := d.pagesOf t) (fun _ _ => rfl)
    ⟨rfl, rfl, rfl, rfl, by simp [Database.pagesOf], rfl, (hc.first).1, rfl, _, rfl, rfl⟩
  exact ⟨it', h1, h2, h4⟩

end Rekordcrate
