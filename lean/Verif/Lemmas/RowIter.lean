import Verif.Lemmas.Database

/-! # Helper lemmas about the row iterator -/

namespace Rekordcrate

open Rd

theorem Row.read_fits {r : Row} {t : PageType} {img : Bytes} {p q : Nat}
    (h : Row.read t img p = .ok (r, q)) : r.Fits t := by
  cases t with
  | unknown c =>
    have h : (Pure.pure Row.unknown : Rd Row) img p = _ := h
    rw [pure_eq_ok] at h
    obtain ⟨rfl, rfl⟩ := h
    exact ⟨c, rfl⟩
  | plain t =>
    obtain ⟨_, q1, h1, h⟩ := bind_eq_ok.1 (show (PlainRow.read t >>= _ : Rd _) img p = _ from h)
    rw [pure_eq_ok] at h
    obtain ⟨rfl, rfl⟩ := h
    cases t
    all_goals
      obtain ⟨r, q2, h2, h⟩ := bind_eq_ok.1 (show (_ >>= _ : Rd _) img p = _ from h1)
      rw [pure_eq_ok] at h
      obtain ⟨rfl, rfl⟩ := h
      rfl
  | ext t =>
    obtain ⟨_, q1, h1, h⟩ := bind_eq_ok.1 (show (_ >>= _ : Rd _) img p = _ from h)
    rw [pure_eq_ok] at h
    obtain ⟨rfl, rfl⟩ := h
    cases t
    all_goals
      obtain ⟨r, q2, h2, h⟩ := bind_eq_ok.1 (show (_ >>= _ : Rd _) img p = _ from h1)
      rw [pure_eq_ok] at h
      obtain ⟨rfl, rfl⟩ := h
      rfl

/-- The rows of a page that was read have the type of the page. -/
theorem Page.read_rows_fit {pageSize : Nat} {db : DatabaseType} {img : Bytes} {p q : Nat} {pg : Page}
    (h : Page.read pageSize db img p = .ok (pg, q)) {c : DataPageContent} (hc : pg.content = .data c) :
    ∀ x ∈ c.rows, x.2.Fits pg.header.pageType := by
  obtain ⟨-, -, h⟩ := Page.read_eq_ok h
  rcases Page.content_read_inv h with ⟨-, d, hd, hr⟩ | ⟨-, d, hd, -⟩
  · rw [hc] at hd
    injection hd with hd
    subst hd
    obtain ⟨-, -, -, -, -, -, -, -, -, -, hrows⟩ := DataPageContent.read_inv hr
    intro x hx
    obtain ⟨_, hx⟩ := hrows x hx
    exact Row.read_fits hx
  · rw [hc] at hd
    cases hd

namespace RowIterator

variable {α : Type} [RowVariant α]

theorem next_cons_some {it : RowIterator} {k : UInt16} {r : Row} {rest : RowMap} {a : α}
    (h : it.rest = (k, r) :: rest) (ha : RowVariant.fromRow r = some a) :
    it.next α = (.ok (some (it.slot, k, a)), { it with rest }) := by
  rw [next.eq_def, h]
  simp only
  rw [ha]

theorem next_cons_none {it : RowIterator} {k : UInt16} {r : Row} {rest : RowMap}
    (h : it.rest = (k, r) :: rest) (ha : RowVariant.fromRow (α := α) r = none) :
    it.next α = (.panic, { it with rest }) := by
  rw [next.eq_def, h]
  simp only
  rw [ha]

theorem next_nil {it : RowIterator} (h : it.rest = []) :
    it.next α = match it.pages.next with
    | (.ok none, pages) => (.ok none, { it with pages })
    | (.err e, pages) => (.err e, { it with pages })
    | (.panic, pages) => (.panic, { it with pages })
    | (.ok (some slot), pages) =>
      next α { pages, slot, rest := (pages.pages.getD slot .notLoaded).rows } := by
  rw [next.eq_def, h]
  simp only
  split <;> rename_i h' <;> rw [h']

theorem Runs.of_next {it it0 it' : RowIterator} {l : List (Nat × UInt16 × α)} (h : it.next α = it0.next α)
    (hr : Runs α it0 l it') : Runs α it l it' := by
  cases hr with
  | done h1 => exact .done (h.trans h1)
  | step h1 t => exact .step (h.trans h1) t

theorem Runs.rest {pages : PageIterator} {slot : Nat} {it' : RowIterator} {l : List (Nat × UInt16 × α)}
    (hr : Runs α { pages, slot, rest := [] } l it') {rest : RowMap}
    (h : ∀ x ∈ rest, (RowVariant.fromRow (α := α) x.2).isSome = true) :
    ∃ l', Pointwise RowTyped (rest.map fun y => (slot + 1, y.1, y.2)) l' ∧
      Runs α { pages, slot, rest } (l' ++ l) it' := by
  induction rest with
  | nil => exact ⟨[], .nil, hr⟩
  | cons x rest ih =>
    obtain ⟨l', h1, h2⟩ := ih fun y hy => h y (List.mem_cons_of_mem _ hy)
    obtain ⟨a, ha⟩ := Option.isSome_iff_exists.1 (h x (List.mem_cons_self ..))
    refine ⟨(slot + 1, x.1, a) :: l', .cons ⟨rfl, rfl, ha⟩ h1, ?_⟩
    exact .step (next_cons_some (it := { pages, slot, rest := x :: rest }) rfl ha) h2

theorem _root_.Rekordcrate.Pointwise.append {α β : Type} {R : α → β → Prop} {a c : List α} {b d : List β} (h : Pointwise R a b)
    (h' : Pointwise R c d) : Pointwise R (a ++ c) (b ++ d) := by
  induction h with
  | nil => exact h'
  | cons h _ ih => exact .cons h ih

/-- The rows come from the pages the page iterator gives. -/
theorem of_pages {it it' : PageIterator} {l : List (Nat × Page)} (hr : it.Runs l it')
    (h : ∀ x ∈ rowsOf l, (RowVariant.fromRow (α := α) x.2.2).isSome = true) (s : Nat) :
    ∃ rows r', Pointwise RowTyped (rowsOf l) rows ∧ Runs α { pages := it, slot := s, rest := [] } rows r' ∧
      r'.pages = it' := by
  induction hr generalizing s with
  | @done it it' hn =>
    refine ⟨[], { pages := it', slot := s, rest := [] }, .nil, .done ?_, rfl⟩
    rw [next_nil rfl, hn]
  | @step it it1 it' slot pg l hn hp t ih =>
    have hro : rowsOf ((slot + 1, pg) :: l) =
        ((LazyPage.loaded pg).rows.map fun y => (slot + 1, y.1, y.2)) ++ rowsOf l := by
      unfold rowsOf LazyPage.rows PageContent.asData
      rw [List.flatMap_cons]
      simp only
      cases pg.content with
      | data c => rfl
      | index c => rfl
    rw [hro] at h ⊢
    obtain ⟨rows, r', h1, h2, h3⟩ := ih (fun x hx => h x (List.mem_append_right _ hx)) slot
    obtain ⟨l', h4, h5⟩ := h2.rest (rest := (LazyPage.loaded pg).rows) fun x hx =>
      h (slot + 1, x.1, x.2) (List.mem_append_left _ (List.mem_map.2 ⟨x, hx, rfl⟩))
    refine ⟨l' ++ rows, r', h4.append h1, h5.of_next ?_, h3⟩
    rw [next_nil rfl, hn]
    simp only
    rw [List.getD_eq_getElem?_getD, hp]
    rfl

/-- The state of a row iterator over a database. -/
structure Over (it : RowIterator) (d : Database) : Prop where
  ok : it.pages.Ok
  io : it.pages.io = d.io
  size : it.pages.pageSize = d.content.header.pageSize
  db : it.pages.dbType = d.dbType
  view : ∀ n, 1 ≤ n → (d.after it.pages).view n = d.view n
  rest : ∀ x ∈ it.rest, ∃ n pg c, 1 ≤ n ∧ d.view n = .ok pg ∧ pg.content = .data c ∧ x ∈ c.rows

theorem Over.pages_next {it : RowIterator} {d : Database} (h : it.Over d) {r : Res (Option Nat)}
    {pages : PageIterator} (hn : it.pages.next = (r, pages)) :
    pages.Ok ∧ pages.io = d.io ∧ pages.pageSize = d.content.header.pageSize ∧ pages.dbType = d.dbType ∧
      ∀ n, 1 ≤ n → (d.after pages).view n = d.view n := by
  obtain ⟨a1, a2, a3, a4, -, -⟩ := PageIterator.next_pages h.ok
  rw [hn] at a1 a2 a3 a4
  refine ⟨a1, a2.trans h.io, a3.trans h.size, a4.trans h.db, fun n h1 => ?_⟩
  have := Database.view_after_next (d.after it.pages) h.ok rfl h.io h.size h.db h1
  rw [hn, Database.after_after, h.view n h1] at this
  exact this

theorem Over.next {it : RowIterator} {d : Database} (h : it.Over d) :
    (it.next α).2.Over d ∧ ((it.next α).1 = .panic → RowPanicCause α d) := by
  generalize hm : it.pages.len = m
  induction m using Nat.strongRecOn generalizing it with
  | ind m ih =>
    cases hr : it.rest with
    | cons x rest =>
      obtain ⟨k, r⟩ := x
      have hrest : ∀ x ∈ rest, ∃ n pg c, 1 ≤ n ∧ d.view n = .ok pg ∧ pg.content = .data c ∧ x ∈ c.rows :=
        fun x hx => h.rest x (by rw [hr]; exact List.mem_cons_of_mem _ hx)
      cases ha : RowVariant.fromRow (α := α) r with
      | some a =>
        rw [next_cons_some hr ha]
        exact ⟨⟨h.ok, h.io, h.size, h.db, h.view, hrest⟩, fun hp => by cases hp⟩
      | none =>
        rw [next_cons_none hr ha]
        refine ⟨⟨h.ok, h.io, h.size, h.db, h.view, hrest⟩, fun _ => ?_⟩
        obtain ⟨n, pg, c, h1, h2, h3, h4⟩ := h.rest (k, r) (by rw [hr]; exact List.mem_cons_self ..)
        exact ⟨n, h1, .inr ⟨pg, c, _, h2, h3, h4, ha⟩⟩
    | nil =>
      rw [next_nil hr]
      cases hn : it.pages.next with
      | mk o pages =>
        obtain ⟨a1, a2, a3, a4, a5⟩ := h.pages_next hn
        cases o with
        | err e =>
          exact ⟨⟨a1, a2, a3, a4, a5, by simp only; rw [hr]; intro x hx; cases hx⟩, fun hp => by cases hp⟩
        | panic =>
          refine ⟨⟨a1, a2, a3, a4, a5, by simp only; rw [hr]; intro x hx; cases hx⟩, fun _ => ?_⟩
          obtain ⟨-, i, h1, h2, h3, h4, h5⟩ := PageIterator.next_panic h.ok.within hn
          have hoff : it.pages.offset = it.pages.start + 1 := by rcases h.ok.offset with h | h <;> omega
          refine ⟨i.val.toNat, by omega, .inl ?_⟩
          rw [← h.view _ (by omega)]
          unfold Database.view Database.after
          simp only
          rw [show i.val.toNat - 1 = it.pages.start + (i.val.toNat - it.pages.offset) by omega, h4]
          rw [readPage_eq, h.io, h.size, h.db] at h5
          exact h5
        | ok o =>
          cases o with
          | none =>
            exact ⟨⟨a1, a2, a3, a4, a5, by simp only; rw [hr]; intro x hx; cases hx⟩, fun hp => by cases hp⟩
          | some slot =>
            have hlt := PageIterator.next_len hn
            refine ih _ (by simp only; omega)
              (it := { pages, slot, rest := (pages.pages.getD slot .notLoaded).rows })
              ⟨a1, a2, a3, a4, a5, ?_⟩ rfl
            intro x hx
            simp only at hx
            obtain ⟨i, pg, hy⟩ := PageIterator.next_some hn
            rw [List.getD_eq_getElem?_getD, hy.loaded] at hx
            simp only [Option.getD_some, LazyPage.rows, PageContent.asData] at hx
            cases hc : pg.content with
            | index c => rw [hc] at hx; cases hx
            | data c =>
              rw [hc] at hx
              refine ⟨slot + 1, pg, c, by omega, ?_, hc, hx⟩
              rw [← a5 _ (by omega)]
              unfold Database.view Database.after
              simp only
              rw [Nat.add_sub_cancel, hy.loaded]

end RowIterator

end Rekordcrate
