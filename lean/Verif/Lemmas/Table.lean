import Verif.Spec.Table
import Verif.Lemmas.Dump
import Verif.Lemmas.Device

/-! # Lemmas about reading tables that may be damaged -/

namespace Rekordcrate

namespace RowIterator

variable {α β : Type} [RowVariant α]

theorem collect_congr (f : α → Res β) {it it0 : RowIterator} (h : it.next α = it0.next α) :
    it.collect α f = it0.collect α f := by
  rw [collect.eq_def, collect.eq_def α f it0, h]

theorem collect_rest (f : α → Res β) {pages : PageIterator} {slot : Nat} {r : Res Unit} {xs : List Row}
    (h : Visited f r xs (collect α f ⟨pages, slot, []⟩).1) (rest : RowMap) :
    Visited f r (rest.map (fun x => x.2) ++ xs) (collect α f ⟨pages, slot, rest⟩).1 ∧
      ((collect α f ⟨pages, slot, rest⟩).2.pages = pages ∨
        (collect α f ⟨pages, slot, rest⟩).2 = (collect α f ⟨pages, slot, []⟩).2 ∧
        ((collect α f ⟨pages, slot, rest⟩).1 ≠ .panic → (collect α f ⟨pages, slot, []⟩).1 ≠ .panic)) := by
  induction rest with
  | nil => exact ⟨h, .inr ⟨rfl, id⟩⟩
  | cons x rest ih =>
    obtain ⟨i1, i2⟩ := ih
    rw [collect.eq_def α f ⟨pages, slot, x :: rest⟩]
    cases ha : RowVariant.fromRow (α := α) x.2 with
    | none =>
      rw [next_cons_none (it := ⟨pages, slot, x :: rest⟩) rfl ha]
      exact ⟨.misfit ha, .inl rfl⟩
    | some a =>
      rw [next_cons_some (it := ⟨pages, slot, x :: rest⟩) rfl ha]
      simp only
      cases hf : f a with
      | err e => exact ⟨.refused ha hf, .inl rfl⟩
      | panic => exact ⟨.refusedPanic ha hf, .inl rfl⟩
      | ok y =>
        simp only
        generalize collect α f ⟨pages, slot, rest⟩ = q at i1 i2
        obtain ⟨o, it'⟩ := q
        cases o with
        | ok ys => exact ⟨.next ha hf i1, i2.imp id fun h => ⟨h.1, fun _ => h.2 (by simp)⟩⟩
        | err e => exact ⟨.nextFails ha hf i1, i2⟩
        | panic => exact ⟨.nextPanics ha hf i1, i2⟩

theorem rows_map (n : Nat) (pg : Page) (l : List (Nat × Page)) :
    (rowsOf ((n, pg) :: l)).map (fun x => x.2.2) =
      (LazyPage.loaded pg).rows.map (fun x => x.2) ++ (rowsOf l).map fun x => x.2.2 := by
  unfold rowsOf LazyPage.rows PageContent.asData
  rw [List.flatMap_cons, List.map_append]
  congr 1
  simp only
  cases pg.content with
  | data c => simp
  | index c => rfl

theorem collect_trail (f : α → Res β) {d : Database} {last lo n : Nat} {l : List (Nat × Page)} {r : Res Unit}
    (t : d.Trail last lo n l r) (hlo : 1 ≤ lo) :
    ∀ {d1 : Database} {it : PageIterator} (s : Nat), (∀ m, 1 ≤ m → d1.view m = d.view m) → it.Before d1 last lo n →
      Visited f r ((rowsOf l).map fun x => x.2.2) (collect α f ⟨it, s, []⟩).1 ∧
      ((collect α f ⟨it, s, []⟩).1 ≠ .panic →
        ∀ m, 1 ≤ m → (d1.after (collect α f ⟨it, s, []⟩).2.pages).view m = d1.view m) := by
  have fin : ∀ {d1 : Database} {it it' : PageIterator} {n s : Nat} {pg : Page} {xs : List Row} {r : Res Unit},
      it.next = (.ok (some (n - 1)), it') → it'.pages[n - 1]? = some (.loaded pg) →
      (∀ m, 1 ≤ m → (d1.after it').view m = d1.view m) →
      Visited f r xs (collect α f ⟨it', n - 1, []⟩).1 →
      ((collect α f ⟨it', n - 1, []⟩).1 ≠ .panic →
        ∀ m, 1 ≤ m → (d1.after (collect α f ⟨it', n - 1, []⟩).2.pages).view m = d1.view m) →
      Visited f r ((LazyPage.loaded pg).rows.map (fun x => x.2) ++ xs) (collect α f ⟨it, s, []⟩).1 ∧
      ((collect α f ⟨it, s, []⟩).1 ≠ .panic →
        ∀ m, 1 ≤ m → (d1.after (collect α f ⟨it, s, []⟩).2.pages).view m = d1.view m) := by
    intro d1 it it' n s pg xs r g1 g2 hview hv hw
    have hn : next α ⟨it, s, []⟩ = next α ⟨it', n - 1, (LazyPage.loaded pg).rows⟩ := by
      rw [next_nil rfl, g1]
      simp only
      rw [List.getD_eq_getElem?_getD, g2]
      rfl
    rw [collect_congr f hn]
    obtain ⟨h1, h2⟩ := collect_rest f hv (LazyPage.loaded pg).rows
    refine ⟨h1, fun hp m hm => ?_⟩
    rcases h2 with h2 | ⟨h2, h3⟩
    · rw [h2]; exact hview m hm
    · rw [h2]; exact hw (h3 hp) m hm
  induction t with
  | @last lo pg h1 h2 =>
    intro d1 it s hd hb
    have hv := (hd _ (by omega)).trans h2
    obtain ⟨it', g1, g2, g3, g4, -⟩ := hb.page h1 hv
    have hview : ∀ m, 1 ≤ m → (d1.after it').view m = d1.view m := by
      intro m hm
      rw [g3]
      exact Database.view_setPage_self (by rw [show last - 1 + 1 = last by omega]; exact hv) hm
    have hend : collect α f ⟨it', last - 1, []⟩ = (.ok [], ⟨it', last - 1, []⟩) := by
      rw [collect.eq_def, next_nil rfl, PageIterator.next_of_none (g4 rfl)]
    rw [rows_map]
    refine fin g1 g2 hview ?_ ?_
    · rw [hend]; exact .done rfl
    · rw [hend]; exact fun _ => hview
  | @link lo n pg l r h1 h2 h3 t ih =>
    intro d1 it s hd hb
    have hv := (hd _ (by omega)).trans h3
    obtain ⟨it', g1, g2, g3, -, g4⟩ := hb.page h1 hv
    have hview : ∀ m, 1 ≤ m → (d1.after it').view m = d1.view m := by
      intro m hm
      rw [g3]
      exact Database.view_setPage_self (by rw [show n - 1 + 1 = n by omega]; exact hv) hm
    obtain ⟨i1, i2⟩ := ih (by omega) (n - 1) (fun m hm => (hview m hm).trans (hd m hm)) (g4 h2)
    rw [rows_map]
    refine fin g1 g2 hview i1 fun hp m hm => ?_
    have := i2 hp m hm
    rwa [Database.after_after, hview m hm] at this
  | @back lo n h1 =>
    intro d1 it s hd hb
    rw [collect.eq_def, next_nil rfl, hb.back h1]
    simp only
    refine ⟨.fails rfl, fun _ m hm => ?_⟩
    unfold Database.after Database.view
    rw [hb.pages]
  | @fails lo n e h1 h2 =>
    intro d1 it s hd hb
    obtain ⟨it', g1, g2⟩ := hb.err h1 ((hd _ (by omega)).trans h2)
    rw [collect.eq_def, next_nil rfl, g1]
    simp only
    refine ⟨.fails rfl, fun _ m hm => ?_⟩
    unfold Database.after Database.view
    rw [g2, hb.pages]
  | @panics lo n h1 h2 =>
    intro d1 it s hd hb
    obtain ⟨it', g1⟩ := hb.panic h1 ((hd _ (by omega)).trans h2)
    rw [collect.eq_def, next_nil rfl, g1]
    simp only
    exact ⟨.panics rfl, fun h => absurd rfl h⟩

end RowIterator

theorem Visited.unique {α β : Type} [RowVariant α] {f : α → Res β} {r : Res Unit} {xs : List Row} {a b : Res (List β)}
    (h : Visited f r xs a) (h' : Visited f r xs b) : a = b := by
  induction h generalizing b with
  | done h => cases h' <;> simp_all
  | fails h => cases h' <;> simp_all
  | panics h => cases h' <;> simp_all
  | misfit h => cases h' <;> simp_all
  | refused h hf => cases h' <;> simp_all
  | refusedPanic h hf => cases h' <;> simp_all
  | next h hf _ ih =>
    cases h' with
    | next g gf t => rw [h] at g; injection g with g; subst g; rw [hf] at gf; injection gf with gf; have := ih t; simp_all
    | nextFails g gf t => have := ih t; simp_all
    | nextPanics g gf t => have := ih t; simp_all
    | _ => simp_all
  | nextFails h hf _ ih =>
    cases h' with
    | next g gf t => have := ih t; simp_all
    | nextFails g gf t => exact ih t
    | nextPanics g gf t => exact ih t
    | _ => simp_all
  | nextPanics h hf _ ih =>
    cases h' with
    | next g gf t => have := ih t; simp_all
    | nextFails g gf t => exact ih t
    | _ => simp_all

end Rekordcrate
