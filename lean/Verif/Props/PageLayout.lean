import Verif.Props.Header
import Verif.Props.Layout
import Verif.Props.Page

/-! # C64: byte layout of pages; C66: pages that make the parser panic -/

namespace Rekordcrate

/-- C64: the fields of the page header, 32 bytes. -/
theorem page_header_layout {pg : Page} {pageSize p q : Nat} {ps : List Patch}
    (hw : pg.write pageSize p = .ok ((), q, ps)) {img : Bytes} (hi : Contains img ps) :
    U32At img p 0 ∧ U32At img (p + 4) pg.header.pageIndex.val.toNat ∧
    (∀ db c, pg.header.pageType = pageTypeOfCode db c → U32At img (p + 8) c.toNat) ∧
    U32At img (p + 12) pg.header.nextPage.val.toNat ∧ U32At img (p + 16) pg.header.unknown1.toNat ∧
    U32At img (p + 20) pg.header.unknown2.toNat ∧
    (∃ b0 b1 b2 : UInt8, ByteAt img (p + 24) b0 ∧ ByteAt img (p + 25) b1 ∧ ByteAt img (p + 26) b2 ∧
      b0.toNat + 256 * b1.toNat + 65536 * b2.toNat =
        pg.header.packedRowCounts.numRows.val + 8192 * pg.header.packedRowCounts.numRowsValid.val) ∧
    (∃ b : UInt8, ByteAt img (p + 27) b ∧ (b.toNat.testBit 6 = true ↔ pg.header.pageFlags.isIndexPage = true)) ∧
    U16At img (p + 28) pg.header.freeSize.toNat ∧ U16At img (p + 30) pg.header.usedSize.toNat := by
  obtain ⟨ps', -, rfl⟩ := Page.write_eq_ok.1 hw
  rw [Contains.append_iff, Contains.cons_iff] at hi
  have h := hi.1.1
  simp only [PageHeader.enc, HasAt.append_iff, PageIndex.enc, encU32_length, PageType.enc_length,
    PackedRowCounts.enc_length, PageFlags.enc_length, encU16_length] at h
  obtain ⟨h0, h1, h2, h3, h4, h5, h6, h7, h8, h9⟩ := h
  refine ⟨.of_hasAt h0, .of_hasAt h1, fun db c hc => ?_, .of_hasAt h3, .of_hasAt h4, .of_hasAt h5, ?_, ?_,
    .of_hasAt h8, .of_hasAt h9⟩
  · rw [hc, pageTypeOfCode_enc] at h2
    exact .of_hasAt h2
  · obtain ⟨b0, b1, b2, he, hv⟩ := packed_row_counts_layout pg.header.packedRowCounts
    rw [he] at h6
    exact ⟨b0, b1, b2, by simpa [ByteAt] using h6 0 (by simp), by simpa [ByteAt] using h6 1 (by simp),
      by simpa [ByteAt] using h6 2 (by simp), hv⟩
  · generalize pg.header.pageFlags = f at h7
    rcases f with ⟨f0, f1, f2, f3, f4, f5, f6, f7⟩
    have hb := h7 0 (by rw [PageFlags.enc_length]; omega)
    refine ⟨(PageFlags.enc ⟨f0, f1, f2, f3, f4, f5, f6, f7⟩)[0]'(by rw [PageFlags.enc_length]; omega), ?_, ?_⟩
    · unfold ByteAt
      rw [← List.getElem?_eq_getElem]
      exact hb
    · clear hb h7
      revert f0 f1 f2 f3 f4 f5 f6 f7
      decide +kernel

/-- C64: a data page: its header behind the page header, the rows in the heap at 40 plus their offset, the
row groups from the end of the page backwards, 36 bytes each. -/
theorem data_page_layout {pg : Page} {c : DataPageContent} (hc : pg.content = .data c)
    (hl : ∀ g ∈ c.rowGroups, g.rowOffsets.length = 16) {pageSize p q : Nat} {ps : List Patch}
    (hw : pg.write pageSize p = .ok ((), q, ps)) {img : Bytes} (hi : Contains img ps) :
    q = p + pageSize ∧
    U16At img (p + 32) c.header.unknown5.toNat ∧ U16At img (p + 34) c.header.unknownNotNumRowsLarge.toNat ∧
    U16At img (p + 36) c.header.unknown6.toNat ∧ U16At img (p + 38) c.header.unknown7.toNat ∧
    (∀ x ∈ c.rows, ∃ q' rps, x.2.write (p + 40 + x.1.toNat) = .ok ((), q', rps) ∧ Contains img rps) ∧
    ∀ k g, c.rowGroups[k]? = some g →
      U16At img (p + pageSize - 36 * k - 2) g.unknown.toNat ∧
      U16At img (p + pageSize - 36 * k - 4) g.rowPresenceFlags.toNat ∧
      ∀ s, s < g.slotsUsed → U16At img (p + pageSize - 36 * k - 6 - 2 * s) (g.slot s).toNat := by
  obtain ⟨ps', h1, rfl⟩ := Page.write_eq_ok.1 hw
  rw [hc] at h1
  obtain ⟨h40, rfl, hh, rps, hr, rfl⟩ := (DataPageContent.write_eq_ok hl).1 h1
  have hq : p + 32 + (pageSize - 32) = p + pageSize := by omega
  rw [hq] at hi hh ⊢
  rw [Contains.append_iff, Contains.append_iff, Contains.cons_iff, Contains.cons_iff, Contains.append_iff] at hi
  obtain ⟨-, ⟨hd, -⟩, hg, hrows⟩ := hi
  simp only [DataPageHeader.enc, HasAt.append_iff, encU16_length] at hd
  obtain ⟨d0, d1, d2, d3⟩ := hd
  refine ⟨rfl, .of_hasAt d0, .of_hasAt d1, .of_hasAt d2, .of_hasAt d3, ?_, ?_⟩
  · clear hg hh hw h1
    rw [show p + 32 + 8 = p + 40 by omega] at hr
    generalize c.rows = rows at hr ⊢
    induction hr with
    | nil => intro x hx; cases hx
    | cons h _ ih =>
      rw [Contains.append_iff] at hrows
      intro x hx
      rcases List.mem_cons.1 hx with rfl | hx
      · exact ⟨_, _, h, hrows.1⟩
      · exact ih hrows.2 x hx
  · have : ∀ (gs : List RowGroup) (e : Nat), (∀ g ∈ gs, g.rowOffsets.length = 16) → 36 * gs.length ≤ e →
        Contains img (RowGroup.allPatches e gs) → ∀ k g, gs[k]? = some g →
        U16At img (e - 36 * k - 2) g.unknown.toNat ∧ U16At img (e - 36 * k - 4) g.rowPresenceFlags.toNat ∧
        ∀ s, s < g.slotsUsed → U16At img (e - 36 * k - 6 - 2 * s) (g.slot s).toNat := by
      intro gs
      induction gs with
      | nil => intro e _ _ _ k g h; simp at h
      | cons g0 gs ih =>
        intro e hl he hc k g hk
        rw [RowGroup.allPatches, Contains.append_iff] at hc
        simp only [List.length_cons] at he
        cases k with
        | zero =>
          simp only [List.getElem?_cons_zero, Option.some.injEq] at hk
          subst hk
          obtain ⟨ps, w1, -, -, w2⟩ := row_group_roundtrip (hl g0 (List.mem_cons_self ..)) (e := e) (by omega)
          rw [RowGroup.write_ok (hl g0 (List.mem_cons_self ..)) (by omega)] at w1
          simp only [Res.ok.injEq, Prod.mk.injEq, true_and] at w1
          subst w1
          obtain ⟨a1, a2, a3, -⟩ := w2 img hc.1
          exact ⟨a2, a1, a3⟩
        | succ k =>
          have := ih (e - 36) (fun x hx => hl x (List.mem_cons_of_mem _ hx)) (by omega) hc.2 k g (by simpa using hk)
          rw [show e - 36 - 36 * k = e - 36 * (k + 1) by omega] at this
          exact this
    exact this _ _ hl hh hg

/-- C64: an index page: header, entries of 4 bytes, empty entries, 20 zeros. -/
theorem index_page_layout {pg : Page} {c : IndexPageContent} (hc : pg.content = .index c)
    {pageSize p q : Nat} {ps : List Patch} (hw : pg.write pageSize p = .ok ((), q, ps)) {img : Bytes}
    (hi : Contains img ps) :
    U16At img (p + 32) c.header.unknownA.toNat ∧ U16At img (p + 34) c.header.unknownB.toNat ∧
    U16At img (p + 36) 0x3ec ∧ U16At img (p + 38) c.header.nextOffset.toNat ∧
    U32At img (p + 40) c.header.pageIndex.val.toNat ∧ U32At img (p + 44) c.header.nextPage.val.toNat ∧
    U32At img (p + 48) 0x3ffffff ∧ U32At img (p + 52) 0 ∧ U16At img (p + 56) c.header.numEntries.toNat ∧
    U16At img (p + 58) c.header.firstEmpty.toNat ∧
    ∀ i e, c.entries[i]? = some e → HasAt img (p + 60 + 4 * i) e.enc := by
  obtain ⟨ps', h1, rfl⟩ := Page.write_eq_ok.1 hw
  rw [hc] at h1
  obtain ⟨h80, hle, rfl, rfl⟩ := IndexPageContent.write_eq_ok.1 h1
  simp only [Contains.append_iff, Contains.cons_iff] at hi
  obtain ⟨-, hd, he, -⟩ := hi
  simp only [IndexPageHeader.enc, HasAt.append_iff, PageIndex.enc, encU32_length, encU16_length, encU64_length] at hd
  obtain ⟨d0, d1, d2, d3, d4, d5, d6, d7, d8⟩ := hd
  have d6' : HasAt img (p + 48) (encU32 0x3ffffff ++ encU32 0) := d6
  rw [HasAt.append_iff] at d6'
  refine ⟨.of_hasAt d0, .of_hasAt d1, .of_hasAt d2, .of_hasAt d3, .of_hasAt d4, .of_hasAt d5,
    .of_hasAt d6'.1, .of_hasAt d6'.2, .of_hasAt d7, .of_hasAt d8, ?_⟩
  have : ∀ (es : List IndexEntry) (q : Nat), HasAt img q (es.flatMap IndexEntry.enc) → ∀ i e, es[i]? = some e →
      HasAt img (q + 4 * i) e.enc := by
    intro es
    induction es with
    | nil => intro q _ i t h; simp at h
    | cons a ts ih =>
      intro q hq i t ht
      rw [List.flatMap_cons, HasAt.append_iff, show a.enc.length = 4 from encU32_length _] at hq
      cases i with
      | zero => simp at ht; subst ht; exact hq.1
      | succ i =>
        have := ih (q + 4) hq.2 i t (by simpa using ht)
        rwa [show q + 4 * (i + 1) = q + 4 + 4 * i from by omega]
  exact this _ _ he

/-- C66: a page of 96 bytes that holds one genre, whose name starts with the byte 1. -/
def panickingPage : Bytes :=
  (Page.fresh 46 ⟨1⟩ ⟨2⟩ (.plain .genres) ⟨1, 0, 0, 0⟩).header.enc.take 24 ++ PackedRowCounts.enc ⟨1, 1⟩ ++
    [0x24, 0, 0, 8, 0] ++ [1, 0, 0, 0, 0, 0, 0, 0] ++ [7, 0, 0, 0, 1] ++ List.replicate 15 0 ++
    List.replicate 32 0 ++ [1, 0, 0, 0]

/-- C66: the full property is false: this page makes the parser panic. -/
theorem page_read_can_panic : Page.read 96 .plain panickingPage 0 = .panic := by decide +kernel

/-- C66: with the name's first byte changed, the page is parsed. -/
example : (match Page.read 96 .plain (panickingPage.set 44 3) 0 with
    | .ok (pg, q) => q == 96 && pg.header.packedRowCounts.numRows == 1
    | _ => false) = true := by decide +kernel

end Rekordcrate
