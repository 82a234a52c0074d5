import Verif.Props.Page

/-! # C15, C18: exactly when allocating and inserting panics -/

namespace Rekordcrate

/-- C15, C18: on a well-formed page `allocate_row` panics exactly for sizes from 65529 on, and if there is room but
the counter of slots is at its maximum. -/
theorem allocate_row_panic_iff {cap : Nat} {pg : Page} {c : DataPageContent} (hw : pg.WellFormed cap c)
    (bytes : UInt16) :
    pg.allocateRow bytes = .panic ↔ 65529 ≤ bytes.toNat ∨
      roundUp4 bytes.toNat + 6 ≤ pg.header.freeSize.toNat ∧ pg.header.packedRowCounts.numRows.val = 8191 := by
  have hfree := pg.header.freeSize.toNat_lt
  have hlt := pg.header.packedRowCounts.numRows.isLt
  rcases Nat.lt_or_ge (roundUp4 bytes.toNat + 6) 65536 with hs | hs
  · have h1 : ¬ 65529 ≤ bytes.toNat := by unfold roundUp4 at hs; omega
    rcases Nat.lt_or_ge pg.header.freeSize.toNat (roundUp4 bytes.toNat + 6) with hb | hb
    · rw [Page.allocateRow_none hw.content hs hb]
      refine ⟨fun h => (by cases h), ?_⟩
      rintro (h | ⟨h, -⟩) <;> omega
    · rcases Nat.lt_or_ge pg.header.packedRowCounts.numRows.val 8191 with hn | hn
      · obtain ⟨pg1, slot, c1, h, -⟩ := Page.allocateRow_some hw hb hn
        rw [h]
        refine ⟨fun h => (by cases h), ?_⟩
        rintro (h | ⟨-, h⟩) <;> omega
      · exact ⟨fun _ => .inr ⟨hb, by omega⟩, fun _ => Page.allocateRow_counter hw hb (by omega)⟩
  · have h1 : 65529 ≤ bytes.toNat := by unfold roundUp4 at hs; omega
    exact ⟨fun _ => .inl h1, fun _ => Page.allocateRow_huge hw.content hs⟩

/-- C18: inserting into a slot that was handed out on a well-formed page panics exactly if the counter of rows is at
its maximum, or if there is a row at the end of the used part already (one that was put into an allocation of zero
bytes). -/
theorem insert_row_panic_iff {cap : Nat} {pg pg1 : Page} {c : DataPageContent} {bytes : UInt16} {slot : RowSlot}
    (hw : pg.WellFormed cap c) (h : pg.allocateRow bytes = .ok (pg1, some slot)) (row : Row) :
    pg1.insertRow slot row = .panic ↔
      pg.header.packedRowCounts.numRowsValid.val = 2047 ∨ ¬ c.EndFree pg.header := by
  obtain ⟨-, c1, ha⟩ := Page.allocateRow_some_inv hw h
  have hw1 := ha.wf cap hw
  have hlt := pg.header.packedRowCounts.numRowsValid.isLt
  rcases Nat.lt_or_ge pg.header.packedRowCounts.numRowsValid.val 2047 with hv | hv
  · rcases Classical.em (c.EndFree pg.header) with he | he
    · have he' : ∀ x ∈ c1.rows, x.1 ≠ slot.offset := by
        rw [ha.rows, ha.offset]
        exact he
      obtain ⟨pg2, c2, h2, -⟩ := Page.insertRow_ok hw1.content hw1.consistent ha.ready he'
        (by rw [ha.valid]; exact hv) row
      rw [h2]
      refine ⟨fun h => (by cases h), ?_⟩
      rintro (h | h)
      · omega
      · exact absurd he h
    · refine ⟨fun _ => .inr he, fun _ => Page.insertRow_occupied hw1.content ?_ row⟩
      rw [ha.rows, ha.offset]
      exact he
  · refine ⟨fun _ => .inl (by omega), fun _ => ?_⟩
    exact Page.insertRow_counter hw1.content (by rw [ha.valid]; omega) row

/-- C18: the end of the used part stays free as long as rows are only put into allocations of positive size. -/
theorem end_stays_free {cap : Nat} {pg pg' : Page} {c : DataPageContent} {as : List Allocation}
    (hw : pg.WellFormed cap c) (he : c.EndFree pg.header) (h : Page.History pg as pg')
    (hpos : ∀ a ∈ as, a.row ≠ none → 0 < a.size) :
    ∃ c', pg'.WellFormed cap c' ∧ c'.EndFree pg'.header := by
  obtain ⟨c', ha⟩ := Page.History.after h hw
  refine ⟨c', ha.wf, fun x hx hxe => ?_⟩
  rw [ha.rows] at hx
  rcases List.mem_append.1 hx with hx | hx
  · have h1 := hw.below x hx
    have h2 := he x hx
    have h3 := ha.grows
    rw [hxe] at h1
    rw [ne_eq, hxe, ← UInt16.toNat_inj] at h2
    omega
  · obtain ⟨a, ham, hrow, ho⟩ := Page.mem_insertedRows hx
    have h1 := ha.below a ham
    have h2 := Page.roundUp4_pos (hpos a ham (by rw [hrow]; simp))
    have h3 := pg'.header.usedSize.toNat_lt
    rw [ho, ← UInt16.toNat_inj, Page.ofNat_toNat (by omega)] at hxe
    omega

example : examplePage.allocateRow 65529 = .panic ∧ examplePage.allocateRow 65528 ≠ .panic := by
  have hw := fresh_page_well_formed 4056 ⟨7⟩ ⟨8⟩ (.plain .tracks) ⟨1, 2, 0, 0⟩
  refine ⟨(allocate_row_panic_iff hw _).2 (.inl (by decide)), fun h => ?_⟩
  rcases (allocate_row_panic_iff hw _).1 h with h | ⟨h, -⟩
  · exact absurd h (by decide)
  · exact absurd h (by decide)

/-- The end of the used part of a fresh page is free; with a row in an allocation of zero bytes it is not. -/
example : DataPageContent.EndFree ⟨⟨0, 0, 0, 0⟩, [], []⟩ (Page.fresh 4056 ⟨1⟩ ⟨2⟩ (.unknown 77) ⟨0, 0, 0, 0⟩).header ∧
    ∃ pg1 s1 pg2, (Page.fresh 4056 ⟨1⟩ ⟨2⟩ (.unknown 77) ⟨0, 0, 0, 0⟩).allocateRow 0 = .ok (pg1, some s1) ∧
      pg1.insertRow s1 .unknown = .ok pg2 ∧ ∀ c, pg2.content = .data c → ¬ c.EndFree pg2.header := by
  refine ⟨fun x hx => (by cases hx), _, _, _, rfl, rfl, fun c hc he => ?_⟩
  injection hc with hc
  subst hc
  exact he (0, .unknown) (List.mem_cons_self ..) rfl

end Rekordcrate
