import Verif.Model.Compare
import Verif.Spec.Compare
import Verif.Props.Isolation

/-! # C85: comparing pages -/

namespace Rekordcrate

/-! ## What `==` means -/

/-- C85: row groups compare equal exactly if they list the same offsets in the same order and have the same unknown
field. -/
theorem row_group_eq_iff {g g' : RowGroup} (hl : g.rowOffsets.length = 16) (hl' : g'.rowOffsets.length = 16) :
    g.eq g' = true ↔ g'.unknown = g.unknown ∧ g'.present = g.present := by
  unfold RowGroup.eq
  rw [RowGroup.presentRowsOffsets_eq _ hl, RowGroup.presentRowsOffsets_eq _ hl']
  simp only [Bool.and_eq_true, beq_iff_eq, RowGroup.present]
  exact ⟨fun h => ⟨h.1.symm, h.2.symm⟩, fun h => ⟨h.1.symm, h.2.symm⟩⟩

theorem RowGroup.allEq_iff {gs gs' : List RowGroup} (hl : ∀ g ∈ gs, g.rowOffsets.length = 16)
    (hl' : ∀ g ∈ gs', g.rowOffsets.length = 16) :
    RowGroup.allEq gs gs' = true ↔ Pointwise RowGroup.Alike gs gs' := by
  induction gs generalizing gs' with
  | nil =>
    cases gs' with
    | nil => exact ⟨fun _ => Pointwise.nil, fun _ => rfl⟩
    | cons g' gs' => exact ⟨fun h => (by cases h), fun h => (by cases h)⟩
  | cons g gs ih =>
    cases gs' with
    | nil => exact ⟨fun h => (by cases h), fun h => (by cases h)⟩
    | cons g' gs' =>
      unfold RowGroup.allEq
      rw [Bool.and_eq_true, row_group_eq_iff (hl g (List.mem_cons_self ..)) (hl' g' (List.mem_cons_self ..)),
        ih (fun x hx => hl x (List.mem_cons_of_mem _ hx)) (fun x hx => hl' x (List.mem_cons_of_mem _ hx))]
      constructor
      · rintro ⟨h1, h2⟩; exact Pointwise.cons h1 h2
      · intro h; cases h with | cons h1 h2 => exact ⟨h1, h2⟩

/-- C85: pages compare equal exactly if they have the same headers, the same rows at the same offsets, and row groups
that list the same offsets in the same order; index pages if they are equal. -/
theorem page_eq_iff {pg pg' : Page} (hl : pg.Sixteen) (hl' : pg'.Sixteen) : pg.eq pg' = true ↔ pg.Alike pg' := by
  obtain ⟨h, c⟩ := pg
  obtain ⟨h', c'⟩ := pg'
  unfold Page.eq Page.Alike
  cases c with
  | index c =>
    cases c' with
    | index c' =>
      simp only [PageContent.eq, Bool.and_eq_true, beq_iff_eq, PageContent.index.injEq]
      exact ⟨fun h => ⟨h.1.symm, h.2.symm⟩, fun h => ⟨h.1.symm, h.2.symm⟩⟩
    | data c' => simp [PageContent.eq]
  | data c =>
    cases c' with
    | index c' => simp [PageContent.eq]
    | data c' =>
      simp only [PageContent.eq, DataPageContent.eq, Bool.and_eq_true, beq_iff_eq, PageContent.data.injEq,
        exists_eq_left']
      rw [RowGroup.allEq_iff (hl c rfl) (hl' c' rfl)]
      exact ⟨fun h => ⟨h.1.symm, h.2.1.symm, h.2.2.2.symm, h.2.2.1⟩,
        fun h => ⟨h.1.symm, h.2.1.symm, h.2.2.2, h.2.2.1.symm⟩⟩

theorem RowGroup.allEq_refl (gs : List RowGroup) : RowGroup.allEq gs gs = true := by
  induction gs with
  | nil => rfl
  | cons g gs ih => unfold RowGroup.allEq RowGroup.eq; rw [ih]; simp

theorem RowGroup.allEq_symm {gs gs' : List RowGroup} (h : RowGroup.allEq gs gs' = true) :
    RowGroup.allEq gs' gs = true := by
  induction gs generalizing gs' with
  | nil => cases gs' with
    | nil => rfl
    | cons _ _ => cases h
  | cons g gs ih => cases gs' with
    | nil => cases h
    | cons g' gs' =>
      unfold RowGroup.allEq RowGroup.eq at h ⊢
      simp only [Bool.and_eq_true, beq_iff_eq] at h ⊢
      exact ⟨⟨h.1.1.symm, h.1.2.symm⟩, ih h.2⟩

theorem RowGroup.allEq_trans {a b c : List RowGroup} (h : RowGroup.allEq a b = true) (h' : RowGroup.allEq b c = true) :
    RowGroup.allEq a c = true := by
  induction a generalizing b c with
  | nil => cases b with
    | nil => exact h'
    | cons _ _ => cases h
  | cons g gs ih => cases b with
    | nil => cases h
    | cons g' gs' => cases c with
      | nil => cases h'
      | cons g2 gs2 =>
        unfold RowGroup.allEq RowGroup.eq at h h' ⊢
        simp only [Bool.and_eq_true, beq_iff_eq] at h h' ⊢
        exact ⟨⟨h.1.1.trans h'.1.1, h.1.2.trans h'.1.2⟩, ih h.2 h'.2⟩

/-- C85: `==` on pages is an equivalence relation. -/
theorem page_eq_equivalence : Equivalence fun a b : Page => a.eq b = true where
  refl := by
    rintro ⟨h, _ | _⟩
    · simp [Page.eq, PageContent.eq, DataPageContent.eq, RowGroup.allEq_refl]
    · simp [Page.eq, PageContent.eq]
  symm := by
    rintro ⟨h, _ | _⟩ ⟨h', _ | _⟩ he
    · simp only [Page.eq, PageContent.eq, DataPageContent.eq, Bool.and_eq_true, beq_iff_eq] at he ⊢
      exact ⟨he.1.symm, he.2.1.symm, RowGroup.allEq_symm he.2.2.1, he.2.2.2.symm⟩
    · simp [Page.eq, PageContent.eq] at he
    · simp [Page.eq, PageContent.eq] at he
    · simp only [Page.eq, PageContent.eq, Bool.and_eq_true, beq_iff_eq] at he ⊢
      exact ⟨he.1.symm, he.2.symm⟩
  trans := by
    rintro ⟨h, _ | _⟩ ⟨h', _ | _⟩ ⟨h2, _ | _⟩ he he'
    all_goals first
      | (simp [Page.eq, PageContent.eq] at he; done)
      | (simp [Page.eq, PageContent.eq] at he'; done)
      | skip
    · simp only [Page.eq, PageContent.eq, DataPageContent.eq, Bool.and_eq_true, beq_iff_eq] at he he' ⊢
      exact ⟨he.1.trans he'.1, he.2.1.trans he'.2.1, RowGroup.allEq_trans he.2.2.1 he'.2.2.1, he.2.2.2.trans he'.2.2.2⟩
    · simp only [Page.eq, PageContent.eq, Bool.and_eq_true, beq_iff_eq] at he he' ⊢
      exact ⟨he.1.trans he'.1, he.2.trans he'.2⟩

/-! ## Written and read back -/

theorem Page.read_rows_known {pageSize : Nat} {db : DatabaseType} {img : Bytes} {p q : Nat} {pg : Page}
    {c : DataPageContent} (h : Page.read pageSize db img p = .ok (pg, q)) (hc : pg.content = .data c) :
    ∀ x ∈ c.rows, x.2.OffsetsKnown := by
  obtain ⟨-, -, hcont⟩ := Page.read_eq_ok h
  rcases Page.content_read_inv hcont with ⟨-, c', hd, hr⟩ | ⟨-, c', hd, -⟩
  · rw [hc] at hd
    injection hd with hd
    subst hd
    obtain ⟨-, -, -, -, -, -, -, -, -, -, hrows⟩ := DataPageContent.read_inv hr
    intro x hx
    obtain ⟨q', hx'⟩ := hrows x hx
    exact Row.read_known hx'
  · rw [hc] at hd; cases hd

/-- C85: a sound page, written and read back from any file that holds the written bytes, compares equal to the page
that was written exactly if no row left its offsets to the writer. -/
theorem page_readback_eq_iff {pageSize : Nat} {db : DatabaseType} {pg : Page} (hs : pg.Sound pageSize db) (p : Nat) :
    ∃ ps, pg.write pageSize p = .ok ((), p + pageSize, ps) ∧
      ∀ img, Contains img ps → ∃ pg' q, Page.read pageSize db img p = .ok (pg', q) ∧
        (pg.eq pg' = true ↔ ∀ c, pg.content = .data c → ∀ x ∈ c.rows, x.2.OffsetsKnown) := by
  obtain ⟨ps, h1, -, -, h2⟩ := page_roundtrip hs p
  refine ⟨ps, h1, fun img hi => ?_⟩
  obtain ⟨pg', q, h3, h4, h5⟩ := h2 img hi
  refine ⟨pg', q, h3, ?_⟩
  rw [page_eq_iff (fun c hc => (hs.data c hc).1.sixteen) (Page.read_sixteen h3)]
  unfold Page.Alike
  constructor
  · rintro ⟨-, h⟩ c hc
    rw [hc] at h
    obtain ⟨c', g1, -, g2, -⟩ := h
    rw [← g2]
    exact Page.read_rows_known h3 g1
  · intro h
    refine ⟨h4, ?_⟩
    cases hc : pg.content with
    | index c => rw [hc] at h5; exact h5
    | data c =>
      rw [hc] at h5
      obtain ⟨c', g1, g2, g3, g4⟩ := h5
      exact ⟨c', g1, g2, rows_resolved_eq g4 (h c hc), g3.mono fun a b _ hab => ⟨hab.2.1, hab.present⟩⟩

/-! ## Equal pages are interchangeable for editing -/

theorem RowGroup.present_mark_last {g g' : RowGroup} {s : Nat} (hs : s < 16) (hlt : ∀ t, g.Present t → t < s)
    (ho : g'.rowOffsets = g.rowOffsets) (hp : ∀ t, g'.Present t ↔ t = s ∨ g.Present t) :
    g'.present = g.present ++ [g.slot s] := by
  have hslot : ∀ t, g'.slot t = g.slot t := by intro t; unfold slot; rw [ho]
  have h16 : List.range 16 = (List.range s ++ [s]) ++ (List.range (15 - s)).map (s + 1 + ·) := by
    rw [← List.range_succ, ← List.range_add, show s + 1 + (15 - s) = 16 by omega]
  have key : ∀ f : RowGroup, (∀ t, f.Present t → t < s + 1) →
      ((List.range (15 - s)).map (s + 1 + ·)).filterMap (fun t => if f.Present t then some (f.slot t) else none) = [] := by
    intro f hf
    rw [List.filterMap_eq_nil_iff]
    intro t ht
    obtain ⟨u, -, rfl⟩ := List.mem_map.1 ht
    rw [if_neg]
    intro h
    have := hf _ h
    omega
  unfold present
  rw [h16, List.filterMap_append, List.filterMap_append, List.filterMap_append, List.filterMap_append,
    key g (fun t h => Nat.lt_succ_of_lt (hlt t h)),
    key g' (fun t h => by rcases (hp t).1 h with rfl | h; exact Nat.lt_succ_self _; exact Nat.lt_succ_of_lt (hlt t h))]
  have e1 : [s].filterMap (fun t => if g.Present t then some (g.slot t) else none) = [] := by
    simp only [List.filterMap_cons, List.filterMap_nil]
    rw [if_neg fun h => absurd (hlt s h) (Nat.lt_irrefl s)]
  have e2 : [s].filterMap (fun t => if g'.Present t then some (g'.slot t) else none) = [g.slot s] := by
    simp only [List.filterMap_cons, List.filterMap_nil]
    rw [if_pos ((hp s).2 (Or.inl rfl)), hslot]
  rw [e1, e2, List.append_nil, List.append_nil, List.append_nil]
  congr 1
  apply filterMap_congr'
  intro t ht
  have ht : t < s := by simpa using ht
  by_cases h : g.Present t
  · rw [if_pos h, if_pos ((hp t).2 (Or.inr h)), hslot]
  · rw [if_neg h, if_neg]
    intro h'
    rcases (hp t).1 h' with rfl | h'
    · omega
    · exact h h'

theorem Pointwise.get_left {α β : Type} {R : α → β → Prop} {as : List α} {bs : List β} (h : Pointwise R as bs) {i : Nat}
    {a : α} (ha : as[i]? = some a) : ∃ b, bs[i]? = some b ∧ R a b := by
  induction h generalizing i with
  | nil => cases ha
  | cons h t ih =>
    cases i with
    | zero => simp only [List.getElem?_cons_zero, Option.some.injEq] at ha; subst ha; exact ⟨_, rfl, h⟩
    | succ i => exact ih (by simpa using ha)

theorem Pointwise.set {α β : Type} {R : α → β → Prop} {as : List α} {bs : List β} (h : Pointwise R as bs) (i : Nat)
    {a : α} {b : β} (hab : R a b) : Pointwise R (as.set i a) (bs.set i b) := by
  induction h generalizing i with
  | nil => exact Pointwise.nil
  | cons h t ih =>
    cases i with
    | zero => exact Pointwise.cons hab t
    | succ i => exact Pointwise.cons h (ih i)

theorem RowGroup.insertOffset_alike {g g' g1 : RowGroup} (hl : g.rowOffsets.length = 16) (hl' : g'.rowOffsets.length = 16)
    (ha : g.Alike g') {s : Nat} (hs : s < 16) (hn : ¬ g.Present s) (hn' : ¬ g'.Present s) {o : UInt16}
    (h : g.insertOffset s o = .ok g1) : ∃ g1', g'.insertOffset s o = .ok g1' ∧ g1.Alike g1' := by
  have key : ∀ f : RowGroup, f.rowOffsets.length = 16 → ¬ f.Present s →
      ∃ f1, f.insertOffset s o = .ok f1 ∧ f1.unknown = f.unknown ∧ f1.present = f.present := by
    intro f hf hnf
    obtain ⟨f1, h1, -, h3, h4, -, h6⟩ := RowGroup.insertOffset_ok hf hs o
    have hp : ∀ t, f1.Present t ↔ f.Present t := by intro t; unfold RowGroup.Present; rw [h3]
    exact ⟨f1, h1, h4, RowGroup.present_congr (fun t _ => hp t) fun t ht hpt => h6 t ht fun e => hnf (e ▸ hpt)⟩
  obtain ⟨f1, e1, e2, e3⟩ := key g hl hn
  obtain ⟨f1', e1', e2', e3'⟩ := key g' hl' hn'
  rw [e1] at h
  injection h with h
  subst h
  exact ⟨f1', e1', by rw [e2, e2']; exact ha.1, by rw [e3, e3']; exact ha.2⟩

theorem Page.allocateRow_alike {cap : Nat} {pg pg' : Page} {c c' : DataPageContent} (hw : pg.WellFormed cap c)
    (hw' : pg'.WellFormed cap c') (hh : pg'.header = pg.header) (hch : c'.header = c.header) (hr : c'.rows = c.rows)
    (hg : Pointwise RowGroup.Alike c.rowGroups c'.rowGroups) {bytes : UInt16} {pg1 : Page} {slot : RowSlot}
    (h : pg.allocateRow bytes = .ok (pg1, some slot)) :
    ∃ pg1', pg'.allocateRow bytes = .ok (pg1', some slot) ∧ pg1.Alike pg1' ∧
      16 * slot.group + slot.subindex = pg.header.packedRowCounts.numRows.val := by
  have hN : pg.header.packedRowCounts.numRows.val < 8191 := by
    rcases Nat.lt_or_ge pg.header.packedRowCounts.numRows.val 8191 with hn | hn
    · exact hn
    · have := pg.header.packedRowCounts.numRows.isLt
      obtain ⟨hb, -⟩ := Page.allocateRow_some_inv hw h
      rw [Page.allocateRow_counter hw hb (by omega)] at h
      cases h
  obtain ⟨counts, hcounts, -, -, hlast⟩ := Page.incrementNumRows_ok hN
  have hlen := hg.length
  unfold Page.allocateRow at h ⊢
  rw [hw.content] at h
  rw [hw'.content, hh]
  simp only at h ⊢
  obtain ⟨b, hb, h⟩ := Res.bind_eq_ok.1 h
  obtain ⟨r, hr1, h⟩ := Res.bind_eq_ok.1 h
  obtain ⟨q, hq, h⟩ := Res.bind_eq_ok.1 h
  rw [hb, Res.ok_bind, hr1, Res.ok_bind, hq, Res.ok_bind]
  split at h
  · cases h
  · rename_i hlt
    rw [if_neg hlt]
    obtain ⟨u, hu, h⟩ := Res.bind_eq_ok.1 h
    obtain ⟨f, hf, h⟩ := Res.bind_eq_ok.1 h
    rw [hu, Res.ok_bind, hf, Res.ok_bind, hcounts, Res.ok_bind, hlast]
    rw [hcounts, Res.ok_bind, hlast] at h
    simp only at h ⊢
    have hdm : 16 * (pg.header.packedRowCounts.numRows.val / 16) + pg.header.packedRowCounts.numRows.val % 16 =
        pg.header.packedRowCounts.numRows.val := by omega
    have hm : pg.header.packedRowCounts.numRows.val % 16 < 16 := by omega
    have hout := hw.handedOut
    have hout' := hw'.handedOut
    rw [hh] at hout'
    generalize pg.header.packedRowCounts.numRows.val / 16 = G at *
    generalize pg.header.packedRowCounts.numRows.val % 16 = S at *
    have finish : ∀ (gs gs' : List RowGroup), Pointwise RowGroup.Alike gs gs' →
        (∀ g ∈ gs, g.rowOffsets.length = 16) → (∀ g ∈ gs', g.rowOffsets.length = 16) →
        (∀ g, gs[G]? = some g → ¬ g.Present S) → (∀ g, gs'[G]? = some g → ¬ g.Present S) →
        ∀ f1 : Nat, (match gs[G]? with
          | none => Res.panic
          | some grp => do
            let grp ← grp.insertOffset S pg.header.usedSize
            let free ← subU f1 2
            .ok
              (({ header := { pg.header with
                   usedSize := UInt16.ofNat u
                   freeSize := UInt16.ofNat free
                   packedRowCounts := counts }
                  content := .data { c with rowGroups := gs.set G grp } } : Page),
               some (⟨pg.header.usedSize, G, S⟩ : RowSlot))) = .ok (pg1, some slot) →
        ∃ pg1', (match gs'[G]? with
          | none => Res.panic
          | some grp => do
            let grp ← grp.insertOffset S pg.header.usedSize
            let free ← subU f1 2
            .ok
              (({ header := { pg.header with
                   usedSize := UInt16.ofNat u
                   freeSize := UInt16.ofNat free
                   packedRowCounts := counts }
                  content := .data { c' with rowGroups := gs'.set G grp } } : Page),
               some (⟨pg.header.usedSize, G, S⟩ : RowSlot))) = .ok (pg1', some slot) ∧ pg1.Alike pg1' ∧
          slot = ⟨pg.header.usedSize, G, S⟩ := by
      intro gs gs' hgs h16 h16' hnp hnp' f1 h
      split at h
      · cases h
      · rename_i grp hgrp
        obtain ⟨grp', hgrp', ha⟩ := hgs.get_left hgrp
        rw [hgrp']
        simp only
        obtain ⟨g1, hg1, h⟩ := Res.bind_eq_ok.1 h
        obtain ⟨f2, hf2, h⟩ := Res.bind_eq_ok.1 h
        obtain ⟨g1', hg1', ha'⟩ := RowGroup.insertOffset_alike (h16 _ (List.mem_of_getElem? hgrp))
          (h16' _ (List.mem_of_getElem? hgrp')) ha hm (hnp _ hgrp) (hnp' _ hgrp') hg1
        rw [hg1', Res.ok_bind, hf2, Res.ok_bind]
        simp only [Res.ok.injEq, Prod.mk.injEq, Option.some.injEq] at h
        obtain ⟨rfl, rfl⟩ := h
        exact ⟨_, rfl, ⟨rfl, _, rfl, hch, hr, hgs.set G ha'⟩, rfl⟩
    have e16 : ∀ gs : List RowGroup, (∀ g ∈ gs, g.rowOffsets.length = 16) →
        ∀ g ∈ gs ++ [RowGroup.empty], g.rowOffsets.length = 16 := by
      intro gs hgs g hg
      rcases List.mem_append.1 hg with hg | hg
      · exact hgs g hg
      · rw [List.mem_singleton] at hg; subst hg; rfl
    have enp : ∀ gs : List RowGroup, (∀ g, gs[G]? = some g → ¬ g.Present S) →
        ∀ g, (gs ++ [RowGroup.empty])[G]? = some g → ¬ g.Present S := by
      intro gs hgs g hg
      rw [List.getElem?_append] at hg
      split at hg
      · exact hgs g hg
      · cases hk : G - gs.length with
        | zero =>
          rw [hk] at hg
          simp only [List.getElem?_cons_zero, Option.some.injEq] at hg
          subst hg
          exact RowGroup.empty_not_present S
        | succ m => rw [hk] at hg; simp at hg
    have hnp : ∀ g, c.rowGroups[G]? = some g → ¬ g.Present S := fun g hg hp => by
      have := hout G g S hg hp; omega
    have hnp' : ∀ g, c'.rowGroups[G]? = some g → ¬ g.Present S := fun g hg hp => by
      have := hout' G g S hg hp; omega
    have conc : ∀ {P : Page → Prop}, (∃ pg1', P pg1' ∧ pg1.Alike pg1' ∧ slot = ⟨pg.header.usedSize, G, S⟩) →
        ∃ pg1', P pg1' ∧ pg1.Alike pg1' ∧ 16 * slot.group + slot.subindex = pg.header.packedRowCounts.numRows.val := by
      rintro P ⟨x, h1, h2, rfl⟩
      exact ⟨x, h1, h2, hdm⟩
    apply conc
    by_cases hlt2 : G < c.rowGroups.length
    · rw [if_pos hlt2, if_pos hlt2, Res.ok_bind] at h
      rw [if_pos (hlen ▸ hlt2), if_pos (hlen ▸ hlt2), Res.ok_bind]
      exact finish _ _ hg hw.consistent.sixteen hw'.consistent.sixteen hnp hnp' _ h
    · rw [if_neg hlt2, if_neg hlt2] at h
      rw [if_neg (hlen ▸ hlt2), if_neg (hlen ▸ hlt2)]
      obtain ⟨f1, hf1, h⟩ := Res.bind_eq_ok.1 h
      rw [hf1, Res.ok_bind]
      exact finish _ _ (hg.append (Pointwise.cons ⟨rfl, rfl⟩ Pointwise.nil)) (e16 _ hw.consistent.sixteen)
        (e16 _ hw'.consistent.sixteen) (enp _ hnp) (enp _ hnp') _ h

theorem Page.insertRow_alike {pg1 pg1' : Page} {c1 c1' : DataPageContent} {slot : RowSlot}
    (hc : pg1.content = .data c1) (hc' : pg1'.content = .data c1') (ha : pg1.Alike pg1') (hsub : slot.subindex < 16)
    (hg : ∃ g, c1.rowGroups[slot.group]? = some g ∧ g.slot slot.subindex = slot.offset ∧
      ∀ t, g.Present t → t < slot.subindex)
    (hg' : ∃ g, c1'.rowGroups[slot.group]? = some g ∧ g.slot slot.subindex = slot.offset ∧
      ∀ t, g.Present t → t < slot.subindex) {row : Row} {pg2 : Page} (h : pg1.insertRow slot row = .ok pg2) :
    ∃ pg2', pg1'.insertRow slot row = .ok pg2' ∧ pg2.Alike pg2' := by
  obtain ⟨hh, ha⟩ := ha
  rw [hc] at ha
  obtain ⟨c2, hc2, hch, hrows, hgs⟩ := ha
  rw [hc'] at hc2
  injection hc2 with hc2
  subst hc2
  obtain ⟨g, hg, hgo, hlt⟩ := hg
  obtain ⟨g', hg', hgo', hlt'⟩ := hg'
  have hal : g.Alike g' := by
    obtain ⟨x, h1, h2⟩ := hgs.get_left hg
    rw [hg'] at h1
    injection h1 with h1
    subst h1
    exact h2
  obtain ⟨m, hm, hmo, hmu, hmp⟩ := RowGroup.markOffsetPresent_ok (g := g) hsub
  obtain ⟨m', hm', hmo', hmu', hmp'⟩ := RowGroup.markOffsetPresent_ok (g := g') hsub
  have hmal : m.Alike m' := by
    refine ⟨by rw [hmu, hmu']; exact hal.1, ?_⟩
    rw [RowGroup.present_mark_last hsub hlt hmo hmp, RowGroup.present_mark_last hsub hlt' hmo' hmp', hgo, hgo', hal.2]
  unfold Page.insertRow at h ⊢
  rw [hc] at h
  rw [hc', hh]
  simp only at h ⊢
  rw [hrows]
  split at h
  · cases h
  · rename_i hget
    rw [hg] at h
    rw [hg']
    simp only at h ⊢
    rw [hm, Res.ok_bind] at h
    rw [hm', Res.ok_bind]
    obtain ⟨r, hr, h⟩ := Res.bind_eq_ok.1 h
    rw [hr, Res.ok_bind]
    injection h with h
    subst h
    exact ⟨_, rfl, rfl, _, rfl, hch, rfl, hgs.set _ hmal⟩

/-- C85: well-formed pages that compare equal are interchangeable for editing: any history of allocations and
insertions on the one is possible on the other, with the same offsets and slots, and the results compare equal. -/
theorem equal_pages_same_history {cap : Nat} {pg pg' pg2 : Page} {c c' : DataPageContent} {as : List Allocation}
    (hw : pg.WellFormed cap c) (hw' : pg'.WellFormed cap c') (he : pg.eq pg' = true) (h : Page.History pg as pg2) :
    ∃ pg2', Page.History pg' as pg2' ∧ pg2.eq pg2' = true := by
  have six : ∀ {p : Page} {x : DataPageContent}, p.WellFormed cap x → p.Sixteen := by
    intro p x hx d hd
    rw [hx.content] at hd
    injection hd with hd
    subst hd
    exact hx.consistent.sixteen
  have conv : ∀ {p p' : Page} {x x' : DataPageContent}, p.WellFormed cap x → p'.WellFormed cap x' →
      (p.eq p' = true ↔ p.Alike p') := fun hx hx' => page_eq_iff (six hx) (six hx')
  have parts : ∀ {p p' : Page} {x x' : DataPageContent}, p.WellFormed cap x → p'.WellFormed cap x' → p.Alike p' →
      p'.header = p.header ∧ x'.header = x.header ∧ x'.rows = x.rows ∧
        Pointwise RowGroup.Alike x.rowGroups x'.rowGroups := by
    intro p p' x x' hx hx' ⟨h1, h2⟩
    rw [hx.content] at h2
    obtain ⟨y, h3, h4, h5, h6⟩ := h2
    rw [hx'.content] at h3
    injection h3 with h3
    subst h3
    exact ⟨h1, h4, h5, h6⟩
  induction h generalizing pg' c c' with
  | done p => exact ⟨pg', .done _, he⟩
  | full bytes h1 t ih =>
    obtain ⟨rfl, hn⟩ := Page.allocateRow_none_inv h1
    obtain ⟨p1, -⟩ := parts hw hw' ((conv hw hw').1 he)
    have h1' : pg'.allocateRow bytes = .ok (pg', none) := by
      rcases hn with ⟨x, hx⟩ | ⟨-, hn, -⟩
      · rw [hw.content] at hx; cases hx
      · refine Page.allocateRow_none hw'.content ?_ (by rw [p1]; exact hn)
        rcases Nat.lt_or_ge (roundUp4 bytes.toNat + 6) 65536 with hs | hs
        · exact hs
        · rw [Page.allocateRow_huge hw.content hs] at h1; cases h1
    obtain ⟨pg2', g1, g2⟩ := ih hw hw' he
    exact ⟨pg2', .full bytes h1' g1, g2⟩
  | @dropped q q1 q2 as slot bytes h1 t ih =>
    obtain ⟨p1, p2, p3, p4⟩ := parts hw hw' ((conv hw hw').1 he)
    obtain ⟨q1', g1, g2, -⟩ := Page.allocateRow_alike hw hw' p1 p2 p3 p4 h1
    obtain ⟨-, d, hd⟩ := Page.allocateRow_some_inv hw h1
    obtain ⟨-, d', hd'⟩ := Page.allocateRow_some_inv hw' g1
    obtain ⟨pg2', g3, g4⟩ := ih (hd.wf cap hw) (hd'.wf cap hw') ((conv (hd.wf cap hw) (hd'.wf cap hw')).2 g2)
    exact ⟨pg2', .dropped bytes g1 g3, g4⟩
  | @inserted q q1 q3 q2 as slot bytes row h1 hi t ih =>
    obtain ⟨p1, p2, p3, p4⟩ := parts hw hw' ((conv hw hw').1 he)
    obtain ⟨q1', g1, g2, g3⟩ := Page.allocateRow_alike hw hw' p1 p2 p3 p4 h1
    obtain ⟨-, d, hd⟩ := Page.allocateRow_some_inv hw h1
    obtain ⟨-, d', hd'⟩ := Page.allocateRow_some_inv hw' g1
    have hw1 := hd.wf cap hw
    have hw1' := hd'.wf cap hw'
    have ready : ∀ {p : Page} {x : DataPageContent}, p.WellFormed cap x → Page.SlotReady p x slot →
        p.header.packedRowCounts.numRows.val = q.header.packedRowCounts.numRows.val + 1 →
        ∃ g, x.rowGroups[slot.group]? = some g ∧ g.slot slot.subindex = slot.offset ∧
          ∀ t, g.Present t → t < slot.subindex := by
      intro p x hx hr hn
      obtain ⟨g, e1, e2, e3⟩ := hr.group
      refine ⟨g, e1, e3, fun t ht => ?_⟩
      have := hx.handedOut _ _ _ e1 ht
      have hne : t ≠ slot.subindex := fun e => e2 (e ▸ ht)
      omega
    obtain ⟨q3', g4, g5⟩ := Page.insertRow_alike hw1.content hw1'.content g2 hd.ready.sub (ready hw1 hd.ready hd.numRows)
      (ready hw1' hd'.ready (by rw [hd'.numRows, p1])) hi
    obtain ⟨e, hins⟩ := Page.insertRow_inv hw1.content hw1.consistent hd.ready hi
    obtain ⟨e', hins'⟩ := Page.insertRow_inv hw1'.content hw1'.consistent hd'.ready g4
    have hw3 := hins.wf cap hw1 (by rw [hd.offset, hd.used]; omega)
    have hw3' := hins'.wf cap hw1' (by rw [hd'.offset, hd'.used]; omega)
    obtain ⟨pg2', g6, g7⟩ := ih hw3 hw3' ((conv hw3 hw3').2 g5)
    exact ⟨pg2', .inserted bytes row g1 g4 g6, g7⟩

/-! ## Equal pages, different bytes -/

/-- A page of 96 bytes with two slots.  Its row is in slot 0 (`flags = 1`), or in slot 1 (`flags = 2`). -/
def twoSlots (flags : UInt16) : Page where
  header :=
    { pageIndex := ⟨1⟩, pageType := .plain .genres, nextPage := ⟨2⟩, unknown1 := 1, unknown2 := 0
      packedRowCounts := ⟨2, 1⟩, pageFlags := .newDataPage, freeSize := 40, usedSize := 8 }
  content := .data ⟨⟨1, 0, 0, 0⟩, [⟨List.replicate 16 0, flags, 0⟩], [(0, exampleGenre)]⟩

theorem twoSlots_present {flags : UInt16} (h : flags = 1 ∨ flags = 2) :
    RowGroup.present ⟨List.replicate 16 0, flags, 0⟩ = [0] := by
  rcases h with rfl | rfl <;> decide +kernel

theorem twoSlots_consistent {flags : UInt16} (h : flags = 1 ∨ flags = 2) :
    DataPageContent.Consistent (twoSlots flags).header
      ⟨⟨1, 0, 0, 0⟩, [⟨List.replicate 16 0, flags, 0⟩], [(0, exampleGenre)]⟩ := by
  refine ⟨by show 1 = ((2 : Fin 8192).val + 15) / 16; decide, ?_, List.pairwise_singleton _ _, ?_, by rfl⟩
  · intro g hg
    simp only [List.mem_singleton] at hg
    subst hg
    rfl
  · intro o
    unfold DataPageContent.present
    simp only [List.flatMap_cons, List.flatMap_nil, twoSlots_present h]
    simp

theorem twoSlots_sound {flags : UInt16} (h : flags = 1 ∨ flags = 2) : (twoSlots flags).Sound 96 .plain := by
  refine ⟨⟨1, by rfl⟩, ?_, fun c hc => ?_, fun c hc => by cases hc⟩
  · constructor
    · intro hf
      exact absurd (show PageFlags.newDataPage.isIndexPage = true from hf) (by decide +kernel)
    · rintro ⟨c, hc⟩
      cases hc
  · injection hc with hc
    subst hc
    refine ⟨twoSlots_consistent h, ?_, List.pairwise_singleton _ _, ?_, ?_⟩
    · intro x hx
      simp only [List.mem_singleton] at hx
      subst hx
      refine ⟨⟨?_, trivial, trivial⟩, rfl, trivial⟩
      intro v hv
      simp only [exampleGenre, Row.strings, Genre.strings, List.mem_singleton] at hv
      subst hv
      show [0x41].length ≤ 126
      decide
    · intro x hx
      simp only [List.mem_singleton] at hx
      subst hx
      intro p p' ps h
      rw [exampleGenre_write] at h
      simp only [Res.ok.injEq, Prod.mk.injEq, true_and] at h
      obtain ⟨rfl, rfl⟩ := h
      exact Compatible.singleton _
    · refine ⟨8, ?_, by decide, ?_⟩
      · intro k g hk
        cases k with
        | zero =>
          simp only [List.getElem?_cons_zero, Option.some.injEq] at hk
          subst hk
          rcases h with rfl | rfl <;> decide +kernel
        | succ k => simp at hk
      · intro x hx
        simp only [List.mem_singleton] at hx
        subst hx
        exact ⟨6, exampleGenre_extent, by decide⟩

theorem twoSlots_well_formed {flags : UInt16} (h : flags = 1 ∨ flags = 2) : (twoSlots flags).WellFormed 56
    ⟨⟨1, 0, 0, 0⟩, [⟨List.replicate 16 0, flags, 0⟩], [(0, exampleGenre)]⟩ where
  content := rfl
  consistent := twoSlots_consistent h
  once := by
    unfold DataPageContent.present
    simp only [List.flatMap_cons, List.flatMap_nil, twoSlots_present h]
    exact List.Perm.refl _
  handedOut := by
    intro k g s hk hs
    cases k with
    | zero =>
      simp only [List.getElem?_cons_zero, Option.some.injEq] at hk
      subst hk
      have h1 := hs.lt
      have h2 : RowGroup.slotsUsed ⟨List.replicate 16 0, flags, 0⟩ ≤ 2 := by
        rcases h with rfl | rfl <;> decide +kernel
      show 16 * 0 + s < 2
      omega
    | succ k => simp at hk
  space := rfl
  small := by decide
  aligned := ⟨2, rfl⟩
  below := by
    intro x hx
    simp only [List.mem_singleton] at hx
    subst hx
    show (0 : UInt16).toNat ≤ (8 : UInt16).toNat
    decide

/-- C85: `==` does not determine the bytes: two sound, well-formed pages that compare equal and are written
differently.  The row is in slot 0 of the one and in slot 1 of the other. -/
theorem equal_pages_different_bytes : ∃ (pg pg' : Page) (c c' : DataPageContent) (img img' : Bytes),
    pg.Sound 96 .plain ∧ pg'.Sound 96 .plain ∧ pg.WellFormed 56 c ∧ pg'.WellFormed 56 c' ∧ pg.eq pg' = true ∧
      (∃ ps, pg.write 96 0 = .ok ((), 96, ps) ∧ img = applyPatches [] ps) ∧
      (∃ ps, pg'.write 96 0 = .ok ((), 96, ps) ∧ img' = applyPatches [] ps) ∧ img ≠ img' :=
  ⟨twoSlots 1, twoSlots 2, _, _, _, _, twoSlots_sound (.inl rfl), twoSlots_sound (.inr rfl),
    twoSlots_well_formed (.inl rfl), twoSlots_well_formed (.inr rfl), by decide +kernel, ⟨_, rfl, rfl⟩, ⟨_, rfl, rfl⟩,
    by decide +kernel⟩

/-- C85: the hypotheses of `equal_pages_same_history` are met by these pages with an insertion, a dropped allocation and
a request that is too large. -/
example : ∃ pg2 pg2' o1 o2,
    Page.History (twoSlots 1) [⟨o1, 6, some exampleGenre⟩, ⟨o2, 3, none⟩] pg2 ∧
    Page.History (twoSlots 2) [⟨o1, 6, some exampleGenre⟩, ⟨o2, 3, none⟩] pg2' ∧ pg2.eq pg2' = true ∧ pg2 ≠ pg2' := by
  refine ⟨_, _, _, _, Page.History.inserted 6 exampleGenre rfl rfl (Page.History.dropped 3 rfl
    (Page.History.full 4000 rfl (Page.History.done _))), Page.History.inserted 6 exampleGenre rfl rfl
    (Page.History.dropped 3 rfl (Page.History.full 4000 rfl (Page.History.done _))), ?_⟩
  decide +kernel

/-- C85: the page read back compares equal, as its row has no offsets. -/
example : ∀ c, (twoSlots 1).content = .data c → ∀ x ∈ c.rows, x.2.OffsetsKnown := by
  intro c hc x hx
  injection hc with hc
  subst hc
  simp only [List.mem_singleton] at hx
  subst hx
  trivial

end Rekordcrate
