import Verif.Lemmas.Alloc
import Verif.Lemmas.Layout
import Verif.Lemmas.NoPanic
import Verif.Props.Rows

/-! # Theorems about row groups and pages (C14 to C22) -/

namespace Rekordcrate

/-! ## C14: row groups -/

/-- C14: `slotsUsed`, the extent of a row group, is one more than the highest marked slot. -/
theorem slots_used_spec (g : RowGroup) :
    (∀ s, g.Present s → s < g.slotsUsed) ∧ (0 < g.slotsUsed → g.Present (g.slotsUsed - 1)) :=
  ⟨fun _ h => h.lt, g.slotsUsed_spec⟩

/-- C14: a row group is written into the bytes from its last used slot to its end `e`: no byte below is
touched.  Flags are in the bytes `e-4` and `e-3`, the unknown field in `e-2` and `e-1`, the offset of
slot `s` in the two bytes from `e-6-2s`.  It is read back, from any file that holds these bytes, as an
equal group (`PartialEq`) with the same marks and the same offsets in the used slots. -/
theorem row_group_roundtrip {g : RowGroup} (hl : g.rowOffsets.length = 16) {e : Nat} (he : 36 ≤ e) :
    ∃ ps, g.write e = .ok ((), e - 36, ps) ∧ PatchesWithin ps (e - 4 - 2 * g.slotsUsed) e ∧
      PatchesDisjoint ps ∧
      ∀ img, Contains img ps →
        U16At img (e - 4) g.rowPresenceFlags.toNat ∧ U16At img (e - 2) g.unknown.toNat ∧
        (∀ s, s < g.slotsUsed → U16At img (e - 6 - 2 * s) (g.slot s).toNat) ∧
        ∃ g', RowGroup.read img e = .ok (g', e - 36) ∧ g.Same g' ∧ g.eq g' = true := by
  refine ⟨_, RowGroup.write_ok hl he, RowGroup.patches_within hl he, RowGroup.patches_disjoint hl he, ?_⟩
  intro img hi
  obtain ⟨g', h1, h2, h3⟩ := RowGroup.read_of_contains hl he hi
  have hi' := hi
  unfold RowGroup.patches at hi'
  rw [Contains.cons_iff, Contains.cons_iff, Contains.cons_iff] at hi'
  obtain ⟨i1, i2, i3, -⟩ := hi'
  refine ⟨U16At.of_hasAt i2, U16At.of_hasAt i3, ?_, g', h1, h2, ?_⟩
  · intro s hs
    have hle := g.slotsUsed_le
    have hget : (g.rowOffsets.drop (16 - g.slotsUsed))[g.slotsUsed - 1 - s]? = some (g.slot s) := by
      rw [List.getElem?_drop, show 16 - g.slotsUsed + (g.slotsUsed - 1 - s) = 15 - s by omega]
      unfold RowGroup.slot
      rw [List.getD_eq_getElem?_getD, List.getElem?_eq_getElem (by omega)]
      rfl
    have := U16At.of_hasAt (hasAt_flatMap_encU16 i1 hget)
    rwa [show e - 4 - 2 * g.slotsUsed + 2 * (g.slotsUsed - 1 - s) = e - 6 - 2 * s by omega] at this
  · unfold RowGroup.eq
    rw [RowGroup.presentRowsOffsets_eq _ hl, RowGroup.presentRowsOffsets_eq _ h3, h2.present, h2.2.1]
    simp

/-- C14: in the file the group was written into. -/
theorem row_group_roundtrip_file {g : RowGroup} (hl : g.rowOffsets.length = 16) {e : Nat} (he : 36 ≤ e)
    (img : Bytes) :
    ∃ ps, g.write e = .ok ((), e - 36, ps) ∧
      (∀ i, i < e - 4 - 2 * g.slotsUsed → i < img.length → (applyPatches img ps)[i]? = img[i]?) ∧
      ∃ g', RowGroup.read (applyPatches img ps) e = .ok (g', e - 36) ∧ g.Same g' ∧ g.eq g' = true := by
  obtain ⟨ps, h1, h2, h3, h4⟩ := row_group_roundtrip hl he
  refine ⟨ps, h1, ?_, (h4 _ (contains_applyPatches h3)).2.2.2⟩
  intro i hi hlt
  refine applyPatches_of_not_covers hlt fun q hq hc => ?_
  have := h2 q hq
  unfold Patch.Covers at hc
  omega

/-- C14: a group that would start before the file is refused. -/
theorem row_group_needs_room (g : RowGroup) {e : Nat} (he : e < 36) : g.write e = .err .io :=
  RowGroup.write_err he

/-- C14: `present_rows_offsets` lists the offsets of the marked slots in slot order. -/
theorem present_rows_offsets_spec (g : RowGroup) (hl : g.rowOffsets.length = 16) :
    g.presentRowsOffsets = (List.range 16).filterMap fun s => if g.Present s then some (g.slot s) else none :=
  RowGroup.presentRowsOffsets_eq g hl

/-- Rows in slots 0, 1 and 4; slot 2 and 3 are unused. -/
def exampleGroup : RowGroup :=
  ⟨[0, 0, 0, 0, 0, 0, 0, 0, 0, 0, 0, 400, 300, 200, 100, 0], 0x13, 7⟩

example : exampleGroup.rowOffsets.length = 16 ∧ exampleGroup.slotsUsed = 5 ∧
    exampleGroup.present = [0, 100, 400] := by decide +kernel

/-! ## C15: when allocation succeeds -/

/-- C15 (for sizes up to 65528; the full property fails for larger ones, see
`allocate_row_huge_panics`): `allocate_row` returns nothing exactly for index pages and when the free
space is below the aligned size plus 6, and then the page is unchanged. -/
theorem allocate_row_none_partial (pg : Page) (bytes : UInt16) (hb : bytes.toNat ≤ 65528) :
    ((∃ pg', pg.allocateRow bytes = .ok (pg', none)) ↔
      (∃ c, pg.content = .index c) ∨ pg.header.freeSize.toNat < roundUp4 bytes.toNat + 6) ∧
    ∀ pg', pg.allocateRow bytes = .ok (pg', none) → pg' = pg := by
  have hs : roundUp4 bytes.toNat + 6 < 65536 := by unfold roundUp4; omega
  refine ⟨⟨?_, ?_⟩, fun pg' h => (Page.allocateRow_none_inv h).1⟩
  · rintro ⟨pg', h⟩
    rcases (Page.allocateRow_none_inv h).2 with h | h
    · exact Or.inl h
    · exact Or.inr h.2.1
  · intro h
    cases hc : pg.content with
    | index c => exact ⟨pg, by unfold Page.allocateRow; rw [hc]⟩
    | data c =>
      rcases h with ⟨c', h⟩ | h
      · rw [hc] at h; cases h
      · exact ⟨pg, Page.allocateRow_none hc hs h⟩

/-- C15, C18: sizes from 65529 on make `allocate_row` panic on every data page, although there is never
room for them: the sum of aligned size and 6 overflows. -/
theorem allocate_row_huge_panics (pg : Page) (c : DataPageContent) (hc : pg.content = .data c)
    (bytes : UInt16) (hb : 65529 ≤ bytes.toNat) : pg.allocateRow bytes = .panic :=
  Page.allocateRow_huge hc (by unfold roundUp4; omega)

/-! ## C16, C17: histories -/

/-- C16: on a well-formed page, after any sequence of allocations and insertions, the ranges handed out start at
multiples of four, lie between the old and the new used size and do not overlap; used size plus free size plus footer (4 bytes for each row group,
2 for each slot) is the same constant as before. -/
theorem allocations_apart {cap : Nat} {pg pg' : Page} {c : DataPageContent} {as : List Allocation}
    (hw : pg.WellFormed cap c) (h : Page.History pg as pg') :
    (∀ a ∈ as, 4 ∣ a.offset ∧ pg.header.usedSize.toNat ≤ a.offset ∧
      a.offset + a.size ≤ pg'.header.usedSize.toNat) ∧
    (as.Pairwise fun a b => a.offset + a.size ≤ b.offset) ∧
    ∃ c', pg'.content = .data c' ∧
      pg'.header.usedSize.toNat + pg'.header.freeSize.toNat + 4 * c'.rowGroups.length +
        2 * pg'.header.packedRowCounts.numRows.val =
      pg.header.usedSize.toNat + pg.header.freeSize.toNat + 4 * c.rowGroups.length +
        2 * pg.header.packedRowCounts.numRows.val := by
  obtain ⟨c', ha⟩ := Page.History.after h hw
  refine ⟨fun a hm => ⟨ha.aligned a hm, ha.above a hm, ?_⟩, ?_, c', ha.wf.content, ?_⟩
  · have := ha.below a hm
    have := Page.le_roundUp4 a.size
    omega
  · refine ha.apart.imp ?_
    intro a b hab
    have := Page.le_roundUp4 a.size
    omega
  · rw [ha.wf.space, hw.space]

/-- C17: after any sequence of allocations and insertions the page is well-formed again: the offsets
marked present are the keys of the row map, each once, and the valid row count is the number of rows.
The rows are the old ones followed by the inserted ones; an allocation without insertion adds none.  Of
the header only sizes and counters change. -/
theorem rows_and_groups_in_step {cap : Nat} {pg pg' : Page} {c : DataPageContent} {as : List Allocation}
    (hw : pg.WellFormed cap c) (h : Page.History pg as pg') :
    ∃ c', pg'.WellFormed cap c' ∧ c'.rows = c.rows ++ insertedRows as ∧
      c'.present.Perm (c'.rows.map Prod.fst) ∧
      pg'.header.packedRowCounts.numRowsValid.val = c'.rows.length ∧
      pg'.header.packedRowCounts.numRows.val = pg.header.packedRowCounts.numRows.val + as.length ∧
      c'.header = c.header ∧
      ∃ u f r, pg'.header = { pg.header with usedSize := u, freeSize := f, packedRowCounts := r } := by
  obtain ⟨c', ha⟩ := Page.History.after h hw
  exact ⟨c', ha.wf, ha.rows, ha.wf.once, ha.wf.consistent.valid, ha.numRows, ha.header, ha.same⟩

/-- C17: an allocation that is never completed leaves the rows as they are. -/
theorem dropped_allocation_keeps_rows {cap : Nat} {pg pg1 : Page} {c : DataPageContent} {slot : RowSlot}
    {bytes : UInt16} (hw : pg.WellFormed cap c) (h : pg.allocateRow bytes = .ok (pg1, some slot)) :
    ∃ c1, pg1.content = .data c1 ∧ c1.rows = c.rows ∧
      pg1.header.packedRowCounts.numRowsValid = pg.header.packedRowCounts.numRowsValid := by
  obtain ⟨-, c1, ha⟩ := Page.allocateRow_some_inv hw h
  exact ⟨c1, (ha.wf cap hw).content, ha.rows, ha.valid⟩

/-! ## C18: no panics -/

/-- C18 (the full property fails, see the theorems below): on a well-formed data page with fewer than
8191 slots and 2047 rows, and without a row at the end of the used part, `allocate_row` with a size up to 65528 does
not panic, and if it returns a slot, inserting any row there succeeds. -/
theorem allocation_no_panic_partial {cap : Nat} {pg : Page} {c : DataPageContent} (hw : pg.WellFormed cap c)
    (he : c.EndFree pg.header) {bytes : UInt16} (hb : bytes.toNat ≤ 65528)
    (hn : pg.header.packedRowCounts.numRows.val < 8191)
    (hv : pg.header.packedRowCounts.numRowsValid.val < 2047) :
    pg.allocateRow bytes = .ok (pg, none) ∨
      ∃ pg1 slot, pg.allocateRow bytes = .ok (pg1, some slot) ∧
        ∀ row, ∃ pg2, pg1.insertRow slot row = .ok pg2 := by
  rcases Nat.lt_or_ge pg.header.freeSize.toNat (roundUp4 bytes.toNat + 6) with h | h
  · exact Or.inl (Page.allocateRow_none hw.content (by unfold roundUp4; omega) h)
  · obtain ⟨pg1, slot, c1, h1, ha⟩ := Page.allocateRow_some hw h hn
    refine Or.inr ⟨pg1, slot, h1, fun row => ?_⟩
    have hw1 := ha.wf cap hw
    obtain ⟨pg2, c2, h2, -⟩ := Page.insertRow_ok hw1.content hw1.consistent ha.ready
      (by rw [ha.rows, ha.offset]; exact he) (by rw [ha.valid]; exact hv) row
    exact ⟨pg2, h2⟩

theorem RowGroup.present_length_le (g : RowGroup) : g.present.length ≤ g.slotsUsed := by
  unfold RowGroup.present
  have hle := g.slotsUsed_le
  have h16 : List.range 16 = List.range g.slotsUsed ++ (List.range (16 - g.slotsUsed)).map (g.slotsUsed + ·) := by
    rw [← List.range_add, show g.slotsUsed + (16 - g.slotsUsed) = 16 by omega]
  rw [h16, List.filterMap_append, List.length_append]
  have h2 : ((List.range (16 - g.slotsUsed)).map (g.slotsUsed + ·)).filterMap
      (fun s => if g.Present s then some (g.slot s) else none) = [] := by
    rw [List.filterMap_eq_nil_iff]
    intro s hs
    obtain ⟨t, -, rfl⟩ := List.mem_map.1 hs
    rw [if_neg]
    intro hp
    have := hp.lt
    omega
  rw [h2]
  have := List.length_filterMap_le (fun s => if g.Present s then some (g.slot s) else none)
    (List.range g.slotsUsed)
  simpa using this

theorem present_length_le {gs : List RowGroup} {b n : Nat}
    (h : ∀ k g s, gs[k]? = some g → g.Present s → 16 * (b + k) + s < n) :
    (gs.flatMap RowGroup.present).length ≤ n - 16 * b := by
  induction gs generalizing b with
  | nil => simp
  | cons g gs ih =>
    rw [List.flatMap_cons, List.length_append]
    have h1 := g.present_length_le
    have h2 := g.slotsUsed_le
    have h3 := ih (b := b + 1) fun k g s hk hs => by
      have := h (k + 1) g s (by simpa using hk) hs
      omega
    rcases Nat.eq_zero_or_pos g.slotsUsed with h0 | h0
    · omega
    · have := h 0 g _ rfl (g.slotsUsed_spec h0)
      omega

/-- C17: there are never more rows than slots. -/
theorem rows_le_slots {cap : Nat} {pg : Page} {c : DataPageContent} (hw : pg.WellFormed cap c) :
    pg.header.packedRowCounts.numRowsValid.val ≤ pg.header.packedRowCounts.numRows.val := by
  have h1 := present_length_le (b := 0) (n := pg.header.packedRowCounts.numRows.val) (gs := c.rowGroups)
    fun k g s hk hs => by have := hw.handedOut k g s hk hs; omega
  have h2 : c.present.length = c.rows.length := by rw [hw.once.length_eq, List.length_map]
  rw [hw.consistent.valid, ← h2]
  unfold DataPageContent.present
  omega

/-- C18 for pages of up to 4133 bytes (rekordbox uses 4096): the counters cannot overflow, so
allocating up to 65528 bytes and inserting never panics if no row is at the end of the used part. -/
theorem allocation_no_panic_small_page {cap : Nat} {pg : Page} {c : DataPageContent}
    (hw : pg.WellFormed cap c) (he : c.EndFree pg.header) (hcap : cap ≤ 4133 - 40) {bytes : UInt16} (hb : bytes.toNat ≤ 65528) :
    pg.allocateRow bytes = .ok (pg, none) ∨
      ∃ pg1 slot, pg.allocateRow bytes = .ok (pg1, some slot) ∧
        ∀ row, ∃ pg2, pg1.insertRow slot row = .ok pg2 := by
  have h1 := rows_le_slots hw
  have h2 := hw.space
  exact allocation_no_panic_partial hw he hb (by omega) (by omega)

/-! ## C19, C22: data pages -/

/-- C19, C22: a sound data page is written without failure; the writer ends one page size further;
nothing outside the page is written; the page is read back from the file, whatever was there before, with
the same header, row groups and rows. -/
theorem data_page_roundtrip {pageSize : Nat} {db : DatabaseType} {pg : Page} (hs : pg.Sound pageSize db)
    {c : DataPageContent} (hc : pg.content = .data c) (p : Nat) :
    ∃ ps, pg.write pageSize p = .ok ((), p + pageSize, ps) ∧ PatchesWithin ps p (p + pageSize) ∧
      Compatible ps ∧
      ∀ img, Contains img ps →
        ∃ pg' c', Page.read pageSize db img p = .ok (pg', p + pageSize) ∧ pg'.header = pg.header ∧
          pg'.content = .data c' ∧ c.ReadBack c' := by
  obtain ⟨hcons, hrows, hlaid⟩ := hs.data c hc
  obtain ⟨h40, h36⟩ := hlaid.groups_le
  have hflag : pg.header.pageFlags.isIndexPage = false := by
    cases hf : pg.header.pageFlags.isIndexPage with
    | false => rfl
    | true =>
      obtain ⟨c', h⟩ := hs.flag.1 hf
      rw [hc] at h; cases h
  obtain ⟨ps, hw⟩ := DataPageContent.write_ok hcons hrows (fun r h1 h2 p => row_writable h1 h2 p)
    (pageSize := pageSize) (p := p + 32) h40 (by omega)
  rw [show p + 32 + (pageSize - 32) = p + pageSize by omega] at hw
  obtain ⟨hcomp, hin⟩ := DataPageContent.write_layout hcons.sixteen hlaid hw
  have hin' : PatchesWithin ps (p + 32) (p + pageSize) := hin.mono (Nat.le_refl _) (by omega)
  have hh : PatchesWithin [⟨p, pg.header.enc⟩] p (p + 32) := by
    intro q hq
    rw [List.mem_singleton] at hq
    subst hq
    simp
  refine ⟨[⟨p, pg.header.enc⟩] ++ ps, Page.write_eq_ok.2 ⟨ps, by rw [hc]; exact hw, rfl⟩, ?_, ?_, ?_⟩
  · exact (hh.mono (Nat.le_refl _) (by omega)).append (hin'.mono (by omega) (Nat.le_refl _))
  · exact (Compatible.singleton _).append_ranges hcomp hh hin' (Or.inl (Nat.le_refl _))
  · intro img hi
    rw [Contains.append_iff, Contains.cons_iff] at hi
    obtain ⟨⟨hi1, -⟩, hi2⟩ := hi
    obtain ⟨c', hr, hb, -⟩ := DataPageContent.read_of_contains hcons
      (fun x hx => ⟨(hrows x hx).1, (hrows x hx).2.1⟩) hw hi2
    exact ⟨⟨pg.header, .data c'⟩, c', Page.read_of hs.type hi1 (Page.content_read_data hflag hr), rfl, rfl, hb⟩

/-! ## C21: index pages -/

/-- C21, C22: a sound index page is written without failure as exactly `pageSize` bytes: header, entries,
empty entries up to the last 20 bytes, zeros.  It is read back equal. -/
theorem index_page_roundtrip {pageSize : Nat} {db : DatabaseType} {pg : Page} (hs : pg.Sound pageSize db)
    {c : IndexPageContent} (hc : pg.content = .index c) (p : Nat) :
    ∃ ps, pg.write pageSize p = .ok ((), p + pageSize, ps) ∧ PatchesWithin ps p (p + pageSize) ∧
      Compatible ps ∧ (∀ i, p ≤ i → i < p + pageSize → ∃ q ∈ ps, q.Covers i) ∧
      ∀ img, Contains img ps →
        (∀ i e, c.entries[i]? = some e → U32At img (p + 60 + 4 * i) e.raw.toNat) ∧
        (∀ i, c.entries.length ≤ i → 80 + 4 * i < pageSize → U32At img (p + 60 + 4 * i) 0x1ffffff8) ∧
        (∀ i, i < 20 → img[p + pageSize - 20 + i]? = some 0) ∧
        ∃ q, Page.read pageSize db img p = .ok (pg, q) := by
  obtain ⟨⟨hn, hfit⟩, h4⟩ := hs.index c hc
  have hflag : pg.header.pageFlags.isIndexPage = true := hs.flag.2 ⟨c, hc⟩
  obtain ⟨k, hk⟩ : ∃ k, pageSize = 4 * k := h4
  have hle : c.header.numEntries.toNat ≤ (pageSize - 80) / 4 := by omega
  have hw := (IndexPageContent.write_eq_ok (c := c) (pageSize := pageSize) (p := p + 32)).2
    ⟨by omega, hle, rfl, rfl⟩
  have hlen : ((List.replicate ((pageSize - 80) / 4 - c.header.numEntries.toNat)
      IndexEntry.empty).flatMap IndexEntry.enc).length = pageSize - 80 - 4 * c.entries.length := by
    rw [IndexEntry.flatMap_length, List.length_replicate]; omega
  have hwp := Page.write_eq_ok.2 ⟨_, by rw [hc]; exact hw, rfl⟩
  rw [show p + 32 + 48 + 4 * c.entries.length + 4 * ((pageSize - 80) / 4 - c.header.numEntries.toNat) =
    p + pageSize by omega] at hwp
  refine ⟨_, hwp, ?_, ?_, ?_, ?_⟩
  · intro q hq
    simp only [List.mem_append, List.mem_cons, List.not_mem_nil, or_false] at hq
    rcases hq with rfl | rfl | rfl | rfl | rfl <;>
      simp only [PageHeader.enc_length, IndexPageHeader.enc_length, IndexEntry.flatMap_length, hlen,
        List.length_replicate] <;> omega
  · apply PatchesDisjoint.compatible
    unfold PatchesDisjoint DisjointRanges
    simp only [List.cons_append, List.nil_append, List.pairwise_cons, List.mem_cons, List.not_mem_nil, or_false,
      forall_eq_or_imp, forall_eq, IndexPageHeader.enc_length, PageHeader.enc_length, IndexEntry.flatMap_length,
      List.length_replicate, List.Pairwise.nil, and_true, false_imp_iff, implies_true]
    omega
  · intro i h1 h2
    simp only [List.cons_append, List.nil_append, List.mem_cons, List.not_mem_nil, or_false, exists_eq_or_imp,
      exists_eq_left, Patch.Covers, IndexPageHeader.enc_length, PageHeader.enc_length, IndexEntry.flatMap_length,
      List.length_replicate]
    omega
  · intro img hi
    rw [Contains.append_iff, Contains.cons_iff, Contains.cons_iff, Contains.cons_iff, Contains.cons_iff,
      Contains.cons_iff] at hi
    obtain ⟨⟨i0, -⟩, i1, i2, i3, i4, -⟩ := hi
    simp only at i0 i1 i2 i3 i4
    have entry : ∀ (l : List IndexEntry) (b i : Nat) (e : IndexEntry), HasAt img b (l.flatMap IndexEntry.enc) →
        l[i]? = some e → U32At img (b + 4 * i) e.raw.toNat := by
      intro l
      induction l with
      | nil => intro b i e _ h; simp at h
      | cons x l ih =>
        intro b i e hb he
        rw [List.flatMap_cons, HasAt.append_iff] at hb
        cases i with
        | zero => simp at he; subst he; exact U32At.of_hasAt hb.1
        | succ i =>
          have := ih (b + 4) i e (by simpa [IndexEntry.enc] using hb.2) (by simpa using he)
          rwa [show b + 4 + 4 * i = b + 4 * (i + 1) by omega] at this
    refine ⟨?_, ?_, ?_, ?_⟩
    · intro i e he
      have := entry _ _ i e i2 he
      rwa [show p + 32 + 28 + 4 * i = p + 60 + 4 * i by omega] at this
    · intro i hi1 hi2
      have := entry _ _ (i - c.entries.length) IndexEntry.empty i3 (by
        rw [List.getElem?_replicate, if_pos (by omega)])
      rwa [show p + 32 + 28 + 4 * c.entries.length + 4 * (i - c.entries.length) = p + 60 + 4 * i by omega] at this
    · intro i hi'
      have := i4 i (by simpa using hi')
      rw [List.getElem?_replicate, if_pos hi'] at this
      rw [← this]
      congr 1
      omega
    · have hr := IndexPageContent.read_of_contains hn i1 i2
      have hread := Page.read_of hs.type i0 (Page.content_read_index (pageSize := pageSize) hflag hr)
      rw [← hc] at hread
      exact ⟨_, hread⟩

/-! ## C19, C21, C22 together -/

/-- C19, C21, C22: any sound page is written without failure into its own bytes, and is read back from
the resulting file. -/
theorem page_roundtrip {pageSize : Nat} {db : DatabaseType} {pg : Page} (hs : pg.Sound pageSize db)
    (p : Nat) :
    ∃ ps, pg.write pageSize p = .ok ((), p + pageSize, ps) ∧ PatchesWithin ps p (p + pageSize) ∧
      Compatible ps ∧
      ∀ img, Contains img ps → ∃ pg' q, Page.read pageSize db img p = .ok (pg', q) ∧ pg.ReadBack pg' := by
  cases hc : pg.content with
  | data c =>
    obtain ⟨ps, h1, h2, h3, h4⟩ := data_page_roundtrip hs hc p
    refine ⟨ps, h1, h2, h3, fun img hi => ?_⟩
    obtain ⟨pg', c', h5, h6, h7, h8⟩ := h4 img hi
    exact ⟨pg', _, h5, h6, by rw [hc]; exact ⟨c', h7, h8⟩⟩
  | index c =>
    obtain ⟨ps, h1, h2, h3, -, h4⟩ := index_page_roundtrip hs hc p
    refine ⟨ps, h1, h2, h3, fun img hi => ?_⟩
    obtain ⟨-, -, -, q, h5⟩ := h4 img hi
    exact ⟨pg, q, h5, rfl, by rw [hc]⟩

/-- C22: writing a sound page into a file changes only bytes of the page. -/
theorem page_write_stays_inside {pageSize : Nat} {db : DatabaseType} {pg : Page} (hs : pg.Sound pageSize db)
    {p q : Nat} {ps : List Patch} (hw : pg.write pageSize p = .ok ((), q, ps)) (img : Bytes) {i : Nat}
    (hi : i < img.length) (ho : i < p ∨ p + pageSize ≤ i) : (applyPatches img ps)[i]? = img[i]? := by
  obtain ⟨ps', h1, h2, -⟩ := page_roundtrip hs p
  rw [hw] at h1
  simp only [Res.ok.injEq, Prod.mk.injEq, true_and] at h1
  obtain ⟨-, rfl⟩ := h1
  refine applyPatches_of_not_covers hi fun r hr hc => ?_
  have := h2 r hr
  unfold Patch.Covers at hc
  omega

/-! ## Rewriting a page that was read -/

theorem hasAt_replicate_entries {img : Bytes} {e : IndexEntry} {n b : Nat}
    (h : ∀ i, i < n → U32At img (b + 4 * i) e.raw.toNat) :
    HasAt img b ((List.replicate n e).flatMap IndexEntry.enc) := by
  induction n generalizing b with
  | zero => exact HasAt.nil _ _
  | succ n ih =>
    rw [List.replicate_succ, List.flatMap_cons, HasAt.append_iff]
    refine ⟨(h 0 (by omega)).hasAt, ?_⟩
    rw [show e.enc.length = 4 by simp [IndexEntry.enc]]
    refine ih fun i hi => ?_
    have := h (i + 1) (by omega)
    rwa [show b + 4 * (i + 1) = b + 4 + 4 * i by omega] at this

/-- C65: a page read from a file in canonical form is written back without failure, ending one page size
further, and the bytes it writes are those the file holds already. -/
theorem page_rewrite_contained {pageSize : Nat} {db : DatabaseType} {img : Bytes} {p q : Nat} {pg : Page}
    (h : Page.read pageSize db img p = .ok (pg, q)) (hc : pg.Canonical pageSize img p) :
    ∃ ps, pg.write pageSize p = .ok ((), p + pageSize, ps) ∧ Contains img ps := by
  obtain ⟨-, hh, hcont⟩ := Page.read_eq_ok h
  obtain ⟨hstr, hpad⟩ := hc
  rcases Page.content_read_inv hcont with ⟨-, c, hd, hr⟩ | ⟨-, c, hd, hr⟩
  · obtain ⟨h40, -, hb, h36, hg, -, h16, -, -, -, hrows⟩ := DataPageContent.read_inv hr
    have hstr' : ∀ x ∈ c.rows, ∀ y ∈ x.2.stringsAt (p + 40 + x.1.toNat), y.2.ExactAt img y.1 := by
      intro x hx y hy
      refine hstr y ?_
      unfold Page.stringsAt
      rw [hd]
      exact List.mem_flatMap.2 ⟨x, hx, hy⟩
    obtain ⟨rps, hw, hrc⟩ := DataPageContent.RowsWritten.of_contains (base := p + 32 + 8) (img := img)
      (rows := c.rows) fun x hx => by
        obtain ⟨q', hx'⟩ := hrows x hx
        obtain ⟨-, p', ps, h1, h2⟩ := Row.read_then_write hx' (hstr' x hx)
        exact ⟨p', ps, h1, h2⟩
    have hwrite := (DataPageContent.write_eq_ok h16 (pageSize := pageSize) (p := p + 32)).2
      ⟨h40, rfl, h36, rps, hw, rfl⟩
    rw [show p + 32 + (pageSize - 32) = p + pageSize by omega] at hwrite hg
    refine ⟨_, Page.write_eq_ok.2 ⟨_, by rw [hd]; exact hwrite, rfl⟩, ?_⟩
    rw [Contains.append_iff, Contains.append_iff, Contains.append_iff, Contains.cons_iff, Contains.cons_iff]
    exact ⟨⟨hh, Contains.nil⟩, ⟨hb, Contains.nil⟩, hg, hrc⟩
  · obtain ⟨hn, hb, he, -⟩ := IndexPageContent.read_inv hr
    unfold Page.Padded at hpad
    rw [hd] at hpad
    obtain ⟨hfit, ⟨k, hk⟩, hempty, hzero⟩ := hpad
    have hle : c.header.numEntries.toNat ≤ (pageSize - 80) / 4 := by omega
    have hw := (IndexPageContent.write_eq_ok (c := c) (pageSize := pageSize) (p := p + 32)).2
      ⟨by omega, hle, rfl, rfl⟩
    have hend : p + 32 + 48 + 4 * c.entries.length +
        4 * ((pageSize - 80) / 4 - c.header.numEntries.toNat) = p + pageSize := by omega
    rw [hend] at hw
    refine ⟨_, Page.write_eq_ok.2 ⟨_, by rw [hd]; exact hw, rfl⟩, ?_⟩
    rw [Contains.append_iff, Contains.cons_iff, Contains.cons_iff, Contains.cons_iff, Contains.cons_iff,
      Contains.cons_iff]
    refine ⟨⟨hh, Contains.nil⟩, hb, he, ?_, ?_, Contains.nil⟩
    · refine hasAt_replicate_entries fun i hi => ?_
      have := hempty (c.entries.length + i) (by omega) (by omega)
      rwa [show p + 60 + 4 * (c.entries.length + i) = p + 32 + 28 + 4 * c.entries.length + 4 * i by omega]
        at this
    · intro i hi
      have hi' : i < 20 := by simpa using hi
      have := hzero i hi'
      rw [List.getElem?_replicate, if_pos hi', ← this]
      congr 1
      simp only
      omega

/-- C65: so the file does not change. -/
theorem page_rewrite_identical {pageSize : Nat} {db : DatabaseType} {img : Bytes} {p q : Nat} {pg : Page}
    (h : Page.read pageSize db img p = .ok (pg, q)) (hc : pg.Canonical pageSize img p) :
    ∃ ps, pg.write pageSize p = .ok ((), p + pageSize, ps) ∧ applyPatches img ps = img := by
  obtain ⟨ps, h1, h2⟩ := page_rewrite_contained h hc
  exact ⟨ps, h1, applyPatches_of_contains h2⟩

/-! ## Page parser and panics -/

/-- C66 (the full property fails because the string parser panics, see `string_parser_panic_partial`):
with pages of at least 40 bytes, the page parser panics only on data pages, and only if a string of a row
makes the string parser panic: there is an offset `o` at which parsing a row of the page's type panics, and
a position from there on where the string parser panics. -/
theorem page_read_panic_partial {pageSize : Nat} {db : DatabaseType} {img : Bytes} (hp : 40 ≤ pageSize)
    {p : Nat} (h : Page.read pageSize db img p = .panic) :
    ∃ hd : PageHeader, HasAt img p hd.enc ∧ hd.pageFlags.isIndexPage = false ∧
      ∃ o : UInt16, Row.read hd.pageType img (p + 40 + o.toNat) = .panic ∧
        ∃ k, DString.read img (p + 40 + o.toNat + k) = .panic := by
  obtain ⟨hd, h1, h2, o, h3⟩ := Page.panic hp h
  exact ⟨hd, h1, h2, o, h3, Row.panicIf _ _ _ h3⟩

/-- C66: rows without strings never make the parser panic, so pages of these types are always parsed or
refused: playlist entries, history entries, menus, track tags, unknown types. -/
theorem page_read_no_panic_of_type {pageSize : Nat} {db : DatabaseType} {img : Bytes} (hp : 40 ≤ pageSize)
    {p : Nat} (ht : ∀ hd : PageHeader, HasAt img p hd.enc →
      hd.pageType ∈ [.plain .playlistEntries, .plain .historyEntries, .plain .menu, .ext .trackTag] ∨
        ∃ c, hd.pageType = .unknown c) : Page.read pageSize db img p ≠ .panic := by
  intro h
  obtain ⟨hd, h1, -, o, h3⟩ := Page.panic hp h
  have np : ∀ t : PageType, (t ∈ [.plain .playlistEntries, .plain .historyEntries, .plain .menu, .ext .trackTag] ∨
      ∃ c, t = .unknown c) → Rd.NP (Row.read t) := by
    rintro t (ht | ⟨c, rfl⟩)
    · simp only [List.mem_cons, List.not_mem_nil, or_false] at ht
      rcases ht with rfl | rfl | rfl | rfl
      · exact Rd.NP.bind (Rd.NP.bind (Rd.NP.bind Rd.NP.u32 fun _ => Rd.NP.bind Rd.NP.u32 fun _ =>
          Rd.NP.bind Rd.NP.u32 fun _ => Rd.NP.pure _) fun _ => Rd.NP.pure _) fun _ => Rd.NP.pure _
      · exact Rd.NP.bind (Rd.NP.bind (Rd.NP.bind Rd.NP.u32 fun _ => Rd.NP.bind Rd.NP.u32 fun _ =>
          Rd.NP.bind Rd.NP.u32 fun _ => Rd.NP.pure _) fun _ => Rd.NP.pure _) fun _ => Rd.NP.pure _
      · exact Rd.NP.bind (Rd.NP.bind (Rd.NP.bind Rd.NP.u16 fun _ => Rd.NP.bind Rd.NP.u16 fun _ =>
          Rd.NP.bind Rd.NP.u8 fun _ => Rd.NP.bind
            (Rd.NP.orElse (Rd.NP.magicEnum _) (Rd.NP.bind Rd.NP.u8 fun _ => Rd.NP.pure _)) fun _ =>
            Rd.NP.bind Rd.NP.u16 fun _ => Rd.NP.pure _) fun _ => Rd.NP.pure _) fun _ => Rd.NP.pure _
      · exact Rd.NP.bind (Rd.NP.bind (Rd.NP.bind (Rd.NP.magic _) fun _ => Rd.NP.bind Rd.NP.u32 fun _ =>
          Rd.NP.bind Rd.NP.u32 fun _ => Rd.NP.bind Rd.NP.u32 fun _ => Rd.NP.pure _) fun _ => Rd.NP.pure _)
          fun _ => Rd.NP.pure _
    · exact Rd.NP.pure _
  exact np _ (ht hd h1) _ _ h3

/-! ## C20: from allocation to the file and back -/

theorem Row.calculated_extent {r : Row} (hs : r.Storable) (hc : r.Calculated) {n : Nat}
    (hn : r.heapBytes = .ok n) : r.Coherent ∧ r.Extent n := by
  have hu : r ≠ .unknown := by rintro rfl; cases hn
  have key : ∀ p p' ps, r.write p = .ok ((), p', ps) → PatchesDisjoint ps ∧ PatchesWithin ps p (p + n) := by
    intro p p' ps h
    obtain ⟨m, h1, h2, h3, -⟩ := Row.heap_extent hu hc (fun v hv bs hb => (hs.1 v hv).heap hb) h
    rw [hn] at h1
    split at h1
    · injection h1 with h1
      subst h1
      exact ⟨h2, h3⟩
    · cases h1
  exact ⟨fun p p' ps h => (key p p' ps h).1.compatible, fun p p' ps h => (key p p' ps h).2⟩

theorem sumHeap_ge {x : Nat} {l : List (Res Nat)} {n : Nat} (h : sumHeap (.ok x :: l) = .ok n) : x ≤ n := by
  rw [sumHeap, Res.ok_bind] at h
  obtain ⟨s, -, h⟩ := Res.bind_eq_ok.1 h
  unfold addU16 at h
  split at h
  · injection h with h; omega
  · cases h

theorem Row.heapBytes_pos {r : Row} {n : Nat} (h : r.heapBytes = .ok n) : 0 < n := by
  cases r with
  | unknown => cases h
  | plain r => cases r <;> exact Nat.lt_of_lt_of_le (by decide) (sumHeap_ge h)
  | ext r => cases r <;> exact Nat.lt_of_lt_of_le (by decide) (sumHeap_ge h)

/-- The allocated sizes are large enough: each inserted row is storable, belongs on the page, is laid out
by the writer, and its `heap_bytes_required` is at most the size asked for. -/
def Allocation.Adequate (t : PageType) (a : Allocation) : Prop :=
  ∀ r, a.row = some r → r.Storable ∧ r.Fits t ∧ r.OffsetsFit ∧ r.Calculated ∧
    ∃ n, r.heapBytes = .ok n ∧ n ≤ a.size

/-- C20: start from a well-formed data page whose rows are packed below the used size; do any sequence of
allocations and insertions with adequate sizes.  The page can be stored, it has exactly the old and the inserted
rows, at their offsets, and its header differs only in the counters. -/
theorem allocated_page_sound {pageSize cap : Nat} {db : DatabaseType} {pg pg' : Page} {c : DataPageContent}
    {as : List Allocation} (hcap : 40 + cap = pageSize) (hw : pg.WellFormed cap c)
    (htype : pg.header.pageType.ValidFor db) (hflag : pg.header.pageFlags.isIndexPage = false)
    (hold : RowsStorable pg.header.pageType c.rows) (hpack : RowsPacked pg.header.usedSize.toNat c.rows)
    (h : Page.History pg as pg') (hnew : ∀ a ∈ as, a.Adequate pg.header.pageType) :
    pg'.Sound pageSize db ∧
      (∃ c', pg'.content = .data c' ∧ pg'.WellFormed cap c' ∧ c'.rows = c.rows ++ insertedRows as ∧
        RowsPacked pg'.header.usedSize.toNat c'.rows) ∧
      ∃ u f r, pg'.header = { pg.header with usedSize := u, freeSize := f, packedRowCounts := r } := by
  obtain ⟨c', ha⟩ := Page.History.after h hw
  obtain ⟨u, f, r, hhead⟩ := ha.same
  have htype' : pg'.header.pageType = pg.header.pageType := by rw [hhead]
  have hflag' : pg'.header.pageFlags = pg.header.pageFlags := by rw [hhead]
  have hpack' := ha.packed hpack fun a hm row hrow => by
    obtain ⟨h1, -, -, h4, n, hn, hle⟩ := hnew a hm row hrow
    obtain ⟨h5, h6⟩ := Row.calculated_extent h1 h4 hn
    exact ⟨h5, n, h6, Nat.le_trans hle (Page.le_roundUp4 _)⟩
  refine ⟨⟨by rw [htype']; exact htype, ?_, ?_, ?_⟩, ⟨c', ha.wf.content, ha.wf, ha.rows, hpack'⟩, u, f, r, hhead⟩
  · rw [hflag', hflag, ha.wf.content]
    simp
  · intro d hd
    rw [ha.wf.content] at hd
    injection hd with hd
    subst hd
    refine ⟨ha.wf.consistent, ?_, ha.wf.laidOut hcap hpack'⟩
    intro x hx
    rw [htype']
    rw [ha.rows] at hx
    rcases List.mem_append.1 hx with hx | hx
    · exact hold x hx
    · obtain ⟨a, hm, hrow, -⟩ := Page.mem_insertedRows hx
      obtain ⟨h1, h2, h3, -⟩ := hnew a hm _ hrow
      exact ⟨h1, h2, h3⟩
  · intro d hd
    rw [ha.wf.content] at hd
    cases hd

/-- C20: start from a well-formed data page whose rows are packed below the used size; do any sequence of
allocations and insertions with adequate sizes; write the page anywhere in any file.  The write succeeds,
and reading the page gives exactly the old and the inserted rows, at their offsets. -/
theorem allocated_rows_survive {pageSize cap : Nat} {db : DatabaseType} {pg pg' : Page} {c : DataPageContent}
    {as : List Allocation} (hcap : 40 + cap = pageSize) (hw : pg.WellFormed cap c)
    (htype : pg.header.pageType.ValidFor db) (hflag : pg.header.pageFlags.isIndexPage = false)
    (hold : RowsStorable pg.header.pageType c.rows) (hpack : RowsPacked pg.header.usedSize.toNat c.rows)
    (h : Page.History pg as pg') (hnew : ∀ a ∈ as, a.Adequate pg.header.pageType) (p : Nat) (img : Bytes) :
    ∃ ps, pg'.write pageSize p = .ok ((), p + pageSize, ps) ∧
      ∃ back cb, Page.read pageSize db (applyPatches img ps) p = .ok (back, p + pageSize) ∧
        back.header = pg'.header ∧ back.content = .data cb ∧
        Pointwise (fun x y => y.1 = x.1 ∧ x.2.Resolved y.2) (c.rows ++ insertedRows as) cb.rows := by
  obtain ⟨hsound, ⟨c', hc', -, hrows, -⟩, -⟩ := allocated_page_sound (db := db) hcap hw htype hflag hold hpack h hnew
  obtain ⟨ps, h1, -, h3, h4⟩ := data_page_roundtrip hsound hc' p
  obtain ⟨back, cb, h5, h6, h7, h8⟩ := h4 _ (h3.contains_applyPatches img)
  exact ⟨ps, h1, back, cb, h5, h6, h7, hrows ▸ h8.2.2⟩

/-- A fresh data page of `40 + cap` bytes. -/
def Page.fresh (cap : UInt16) (i next : PageIndex) (t : PageType) (d : DataPageHeader) : Page where
  header :=
    { pageIndex := i, pageType := t, nextPage := next, unknown1 := 1, unknown2 := 0
      packedRowCounts := ⟨0, 0⟩, pageFlags := .newDataPage, freeSize := cap, usedSize := 0 }
  content := .data ⟨d, [], []⟩

/-- C16 to C20: a fresh page is well-formed. -/
theorem fresh_page_well_formed (cap : UInt16) (i next : PageIndex) (t : PageType) (d : DataPageHeader) :
    (Page.fresh cap i next t d).WellFormed cap.toNat ⟨d, [], []⟩ where
  content := rfl
  consistent :=
    { groups := by simp [Page.fresh], sixteen := fun g hg => (by cases hg), sorted := List.Pairwise.nil
      offsets := fun o => by simp [DataPageContent.present], valid := rfl }
  once := List.Perm.refl _
  handedOut := fun k g s h _ => by simp at h
  space := by simp [Page.fresh]
  small := cap.toNat_lt
  aligned := ⟨0, rfl⟩
  below := fun x hx => (by cases hx)

/-- C20: starting from a fresh page, exactly the inserted rows are read back. -/
theorem inserted_rows_survive {db : DatabaseType} {cap : UInt16} {i next : PageIndex} {t : PageType}
    {d : DataPageHeader} {pg' : Page} {as : List Allocation} (htype : t.ValidFor db)
    (h : Page.History (Page.fresh cap i next t d) as pg') (hnew : ∀ a ∈ as, a.Adequate t) (p : Nat)
    (img : Bytes) :
    ∃ ps, pg'.write (40 + cap.toNat) p = .ok ((), p + (40 + cap.toNat), ps) ∧
      ∃ back cb q, Page.read (40 + cap.toNat) db (applyPatches img ps) p = .ok (back, q) ∧
        back.content = .data cb ∧
        Pointwise (fun x y => y.1 = x.1 ∧ x.2.Resolved y.2) (insertedRows as) cb.rows := by
  obtain ⟨ps, h1, back, cb, h2, -, h3, h4⟩ := allocated_rows_survive (db := db) rfl
    (fresh_page_well_formed cap i next t d) htype rfl (fun x hx => by cases hx)
    ⟨List.Pairwise.nil, fun x hx => (by cases hx), fun x hx => (by cases hx)⟩ h hnew p img
  exact ⟨ps, h1, back, cb, _, h2, h3, h4⟩

/-! ## C18: what goes wrong -/

/-- C18: two rows put into allocations of zero bytes collide: the second insertion panics. -/
theorem zero_sized_allocations_collide : ∃ pg c pg1 s1 pg2 pg3 s3, Page.WellFormed 4056 pg c ∧
    pg.allocateRow 0 = .ok (pg1, some s1) ∧ pg1.insertRow s1 .unknown = .ok pg2 ∧
    pg2.allocateRow 0 = .ok (pg3, some s3) ∧ pg3.insertRow s3 .unknown = .panic :=
  ⟨_, _, _, _, _, _, _,
    fresh_page_well_formed 4056 ⟨1⟩ ⟨2⟩ (.unknown 77) ⟨0, 0, 0, 0⟩, rfl, rfl, rfl, rfl⟩

/-- C18: the counter of valid rows has 11 bits.  There is a well-formed page (of the largest possible
size) with room for more rows on which an insertion panics. -/
theorem row_counter_overflows : ∃ pg c, Page.WellFormed 65495 pg c ∧
    ∃ pg1 slot, pg.allocateRow 4 = .ok (pg1, some slot) ∧ ∀ row, pg1.insertRow slot row = .panic := by
  have fill : ∀ n, n ≤ 2047 → ∃ pg c, Page.WellFormed 65495 pg c ∧
      pg.header.packedRowCounts.numRows.val = n ∧ pg.header.packedRowCounts.numRowsValid.val = n ∧
      pg.header.usedSize.toNat = 4 * n ∧ c.EndFree pg.header := by
    intro n
    induction n with
    | zero =>
      intro _
      exact ⟨_, _, fresh_page_well_formed 65495 ⟨1⟩ ⟨2⟩ (.unknown 77) ⟨0, 0, 0, 0⟩, rfl, rfl, rfl,
        fun x hx => (by cases hx)⟩
    | succ n ih =>
      intro hn
      obtain ⟨pg, c, hw, h1, h2, h3, hf⟩ := ih (by omega)
      have hs := hw.space
      have hg := hw.consistent.groups
      have h4 : roundUp4 (4 : UInt16).toNat = 4 := rfl
      obtain ⟨pg1, slot, c1, -, ha⟩ := Page.allocateRow_some hw (bytes := 4) (by omega) (by omega)
      have hw1 := ha.wf _ hw
      obtain ⟨pg2, c2, -, hi⟩ := Page.insertRow_ok hw1.content hw1.consistent ha.ready
        (by rw [ha.rows, ha.offset]; exact hf) (by rw [ha.valid]; omega) .unknown
      have hu := ha.used
      have ho : slot.offset.toNat = pg.header.usedSize.toNat := by rw [ha.offset]
      refine ⟨pg2, c2, hi.wf _ hw1 (by omega), ?_, ?_, ?_, ?_⟩
      · rw [hi.numRows, ha.numRows, h1]
      · rw [hi.valid, ha.valid, h2]
      · rw [hi.used, hu]; omega
      · intro x hx hxe
        rw [← UInt16.toNat_inj, hi.used, hu] at hxe
        rcases (hi.rows x).1 hx with rfl | hx
        · simp only at hxe
          omega
        · have := hw.below x (ha.rows ▸ hx)
          omega
  obtain ⟨pg, c, hw, h1, h2, h3, -⟩ := fill 2047 (Nat.le_refl _)
  have hs := hw.space
  have hg := hw.consistent.groups
  have h4 : roundUp4 (4 : UInt16).toNat = 4 := rfl
  obtain ⟨pg1, slot, c1, ha', ha⟩ := Page.allocateRow_some hw (bytes := 4) (by omega) (by omega)
  refine ⟨pg, c, hw, pg1, slot, ha', fun row => ?_⟩
  exact Page.insertRow_counter (ha.wf _ hw).content (by rw [ha.valid]; exact h2) row

/-! ## Concrete case -/

/-- A fresh tracks page of 4096 bytes. -/
def examplePage : Page := Page.fresh 4056 ⟨7⟩ ⟨8⟩ (.plain .tracks) ⟨1, 2, 0, 0⟩

/-- A history on the example page: a track, an abandoned allocation, another track, a request that is too
large. -/
theorem example_history : ∃ pg' o1 o2 o3, Page.History examplePage
    [⟨o1, 198, some (.plain (.track exampleTrack))⟩, ⟨o2, 33, none⟩,
      ⟨o3, 250, some (.plain (.track exampleTrack))⟩] pg' ∧ o1 = 0 ∧ o2 = 200 ∧ o3 = 236 ∧
    pg'.header.freeSize = 4056 - 488 - 4 - 6 := by
  refine ⟨_, _, _, _, Page.History.inserted 198 _ rfl rfl (Page.History.dropped 33 rfl
    (Page.History.inserted 250 _ rfl rfl (Page.History.full 4000 rfl (Page.History.done _)))), ?_⟩
  decide +kernel

/-- A history with a row in an allocation of zero bytes: the next allocation begins at the same offset. -/
example : ∃ pg' o1 o2, Page.History (Page.fresh 4056 ⟨1⟩ ⟨2⟩ (.unknown 77) ⟨0, 0, 0, 0⟩)
    [⟨o1, 0, some .unknown⟩, ⟨o2, 12, none⟩] pg' ∧ o1 = 0 ∧ o2 = 0 ∧ pg'.header.usedSize = 12 := by
  refine ⟨_, _, _, Page.History.inserted 0 _ rfl rfl (Page.History.dropped 12 rfl (Page.History.done _)), ?_⟩
  decide +kernel

theorem Placed.lt_of_small {pos : Nat} {vs : List DString} {os : List Nat} {e : Nat} (h : Placed pos vs os e)
    {n : Nat} (hv : vs.all (fun v => decide (v.docAlign ≤ n) &&
      (match v.enc with | .ok bs => decide (bs.length ≤ n) | _ => true)) = true) :
    ∀ o ∈ os, o < pos + vs.length * (2 * n) := by
  induction h with
  | nil => intro o ho; cases ho
  | @cons pos o e v vs os bs hle hlt hd he _ ih =>
    simp only [List.all_cons, Bool.and_eq_true, decide_eq_true_eq, he] at hv
    have hm : (vs.length + 1) * (2 * n) = vs.length * (2 * n) + 2 * n := by rw [Nat.succ_mul]
    intro x hx
    rw [List.length_cons, hm]
    rcases List.mem_cons.1 hx with rfl | hx
    · omega
    · have := ih hv.2 x hx
      omega

example : Allocation.Adequate (.plain .tracks) ⟨0, 198, some (.plain (.track exampleTrack))⟩ := by
  rintro r hr
  injection hr with hr
  subst hr
  refine ⟨exampleTrack_storable, rfl, ?_, rfl, 198, by decide +kernel, Nat.le_refl _⟩
  intro os e hp o ho
  exact Nat.lt_of_lt_of_le (hp.lt_of_small (n := 40) (by decide +kernel) o ho) (by decide +kernel)

end Rekordcrate
