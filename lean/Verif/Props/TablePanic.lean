import Verif.Props.Table
import Verif.Props.RowPanic

/-! # C32: exactly when the rows of a table cannot be listed without a panic -/

namespace Rekordcrate

theorem Visited.panic_iff {α : Type} [RowVariant α] {r : Res Unit} {xs : List Row} :
    Visited (α := α) Res.ok r xs .panic ↔ (∃ x ∈ xs, RowVariant.fromRow (α := α) x = none) ∨ r = .panic := by
  induction xs with
  | nil =>
    constructor
    · intro h
      cases h with
      | panics h => exact .inr h
    · rintro (⟨x, hx, -⟩ | h)
      · cases hx
      · exact .panics h
  | cons x xs ih =>
    constructor
    · intro h
      cases h with
      | misfit h => exact .inl ⟨x, List.mem_cons_self .., h⟩
      | refusedPanic _ hf => cases hf
      | nextPanics _ _ t =>
        rcases ih.1 t with ⟨y, hy, h⟩ | h
        · exact .inl ⟨y, List.mem_cons_of_mem _ hy, h⟩
        · exact .inr h
    · intro h
      cases hx : RowVariant.fromRow (α := α) x with
      | none => exact .misfit hx
      | some a =>
        refine .nextPanics hx rfl (ih.2 ?_)
        rcases h with ⟨y, hy, h⟩ | h
        · rcases List.mem_cons.1 hy with rfl | hy
          · rw [hx] at h; cases h
          · exact .inl ⟨y, hy, h⟩
        · exact .inr h

/-- C32, exact: listing the rows of a table panics exactly if the table is there and, on the way from its first
page to its last, there is a row of another type or the way ends at a page that makes the page parser panic.
Which pages these are is `page_read_panic_iff`. -/
theorem all_rows_panic_iff {α : Type} [RowVariant α] (d : Database) :
    (d.allRows α).1 = .panic ↔ ∃ before t after l r, d.content.header.tables = before ++ t :: after ∧
      t.pageType = RowVariant.pageType α ∧ (∀ t' ∈ before, t'.pageType ≠ RowVariant.pageType α) ∧
      d.TrailOf t l r ∧ ((∃ x ∈ rowsOf l, RowVariant.fromRow (α := α) x.2.2 = none) ∨ r = .panic) := by
  have key : ∀ {xs : List (Nat × UInt16 × Row)} {r : Res Unit},
      Visited (α := α) Res.ok r (xs.map fun x => x.2.2) .panic ↔
        (∃ x ∈ xs, RowVariant.fromRow (α := α) x.2.2 = none) ∨ r = .panic := by
    intro xs r
    rw [Visited.panic_iff]
    refine or_congr ⟨?_, ?_⟩ Iff.rfl
    · rintro ⟨x, hx, h⟩
      obtain ⟨y, hy, rfl⟩ := List.mem_map.1 hx
      exact ⟨y, hy, h⟩
    · rintro ⟨y, hy, h⟩
      exact ⟨_, List.mem_map.2 ⟨y, hy, rfl⟩, h⟩
  have h := (collect_rows_table (α := α) d Res.ok).1
  unfold Database.allRows
  constructor
  · intro he
    rw [he] at h
    cases h with
    | @rows before after t l r _ ht hp hb hl hv => exact ⟨before, t, after, l, r, ht, hp, hb, hl, key.1 hv⟩
  · rintro ⟨before, t, after, l, r, ht, hp, hb, hl, h2⟩
    obtain ⟨out, -, hu⟩ := table_exists_unique (α := α) d Res.ok
    rw [hu _ h, hu _ (.rows ht hp hb hl (key.2 h2))]

/-- C32: a table of tracks whose chain leads to pages of genres is as described. -/
example : ((exampleDb .tracks 2 3).allRows Track).1 = .panic := by
  refine (all_rows_panic_iff _).2 ⟨[], ⟨.plain .tracks, 0, ⟨2⟩, ⟨3⟩⟩, [], [(2, exampleDbPage 2), (3, exampleDbPage 3)],
    .ok (), by decide +kernel, rfl, (fun t ht => by cases ht), ?_, .inl ?_⟩
  · refine .link (by decide) (by decide) (by decide +kernel) ?_
    rw [show (exampleDbPage 2).header.nextPage.val.toNat = 3 by decide +kernel]
    exact .last (by decide) (by decide +kernel)
  · have h : (rowsOf [(2, exampleDbPage 2), (3, exampleDbPage 3)]).any
        (fun x => (RowVariant.fromRow (α := Track) x.2.2).isNone) = true := by decide +kernel
    obtain ⟨x, h1, h2⟩ := List.any_eq_true.1 h
    exact ⟨x, h1, Option.isNone_iff_eq_none.1 h2⟩

end Rekordcrate
