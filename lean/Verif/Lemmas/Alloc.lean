import Verif.Lemmas.Page

/-! # Lemmas about `allocate_row` -/

namespace Rekordcrate

/-! ## Row group updates -/

namespace RowGroup

theorem insertOffset_ok {g : RowGroup} (hl : g.rowOffsets.length = 16) {s : Nat} (hs : s < 16) (o : UInt16) :
    ∃ g', g.insertOffset s o = .ok g' ∧ g'.rowOffsets.length = 16 ∧
      g'.rowPresenceFlags = g.rowPresenceFlags ∧ g'.unknown = g.unknown ∧ g'.slot s = o ∧
      ∀ t, t < 16 → t ≠ s → g'.slot t = g.slot t := by
  have hsub : subU 15 s = .ok (15 - s) := by unfold subU; rw [if_pos (by omega)]
  refine ⟨{ g with rowOffsets := g.rowOffsets.set (15 - s) o }, ?_, ?_, rfl, rfl, ?_, ?_⟩
  · unfold insertOffset
    rw [hsub, Res.ok_bind, if_pos (by omega)]
  · simp [hl]
  · unfold slot
    rw [List.getD_eq_getElem?_getD, List.getElem?_set_self (by omega)]
    rfl
  · intro t ht hne
    unfold slot
    rw [List.getD_eq_getElem?_getD, List.getD_eq_getElem?_getD, List.getElem?_set_ne (by omega)]

theorem present_congr {g g' : RowGroup} (h : ∀ t, t < 16 → (g'.Present t ↔ g.Present t))
    (hs : ∀ t, t < 16 → g.Present t → g'.slot t = g.slot t) : g'.present = g.present := by
  unfold present
  apply filterMap_congr'
  intro t ht
  have ht : t < 16 := by simpa using ht
  by_cases hp : g.Present t
  · rw [if_pos hp, if_pos ((h t ht).2 hp), hs t ht hp]
  · rw [if_neg hp, if_neg fun h' => hp ((h t ht).1 h')]

theorem testBit_mark (x : UInt16) {s : Nat} (hs : s < 16) (t : Nat) :
    (x ||| UInt16.ofNat (2 ^ s)).toNat.testBit t = true ↔ t = s ∨ x.toNat.testBit t = true := by
  rw [UInt16.toNat_or, Nat.testBit_or, UInt16.toNat_ofNat']
  have : 2 ^ s % 2 ^ 16 = 2 ^ s := Nat.mod_eq_of_lt (Nat.pow_lt_pow_right (by omega) hs)
  rw [this, Nat.testBit_two_pow]
  simp only [Bool.or_eq_true, decide_eq_true_eq]
  constructor
  · rintro (h | h)
    · exact Or.inr h
    · exact Or.inl h.symm
  · rintro (h | h)
    · exact Or.inr h.symm
    · exact Or.inl h

theorem markOffsetPresent_ok {g : RowGroup} {s : Nat} (hs : s < 16) :
    ∃ g', g.markOffsetPresent s = .ok g' ∧ g'.rowOffsets = g.rowOffsets ∧ g'.unknown = g.unknown ∧
      ∀ t, g'.Present t ↔ t = s ∨ g.Present t := by
  refine ⟨{ g with rowPresenceFlags := g.rowPresenceFlags ||| UInt16.ofNat (2 ^ s) }, ?_, rfl, rfl, ?_⟩
  · unfold markOffsetPresent; rw [if_pos hs]
  · intro t
    exact testBit_mark _ hs t

theorem filterMap_perm_one {β : Type} {l : List Nat} (hn : l.Nodup) {f f' : Nat → Option β} {s : Nat} {b : β}
    (hs : s ∈ l) (h0 : f s = none) (h1 : f' s = some b) (h2 : ∀ t ∈ l, t ≠ s → f' t = f t) :
    (l.filterMap f').Perm (b :: l.filterMap f) := by
  induction l with
  | nil => cases hs
  | cons a l ih =>
    obtain ⟨ha, hn'⟩ := List.nodup_cons.1 hn
    rw [List.filterMap_cons, List.filterMap_cons]
    by_cases he : a = s
    · subst he
      rw [h0, h1]
      have : l.filterMap f' = l.filterMap f :=
        filterMap_congr' fun t ht => h2 t (List.mem_cons_of_mem _ ht) fun h => ha (h ▸ ht)
      simp only [this]
      exact List.Perm.refl _
    · have hs' : s ∈ l := by
        rcases List.mem_cons.1 hs with h | h
        · exact absurd h.symm he
        · exact h
      rw [h2 a (List.mem_cons_self ..) he]
      have := ih hn' hs' fun t ht => h2 t (List.mem_cons_of_mem _ ht)
      cases f a with
      | none => exact this
      | some c => exact (List.Perm.cons c this).trans (List.Perm.swap b c _)

theorem present_mark {g g' : RowGroup} {s : Nat} (hs : s < 16) (hn : ¬ g.Present s)
    (ho : g'.rowOffsets = g.rowOffsets) (hp : ∀ t, g'.Present t ↔ t = s ∨ g.Present t) :
    g'.present.Perm (g.slot s :: g.present) := by
  have hslot : ∀ t, g'.slot t = g.slot t := by intro t; unfold slot; rw [ho]
  unfold present
  apply filterMap_perm_one List.nodup_range (s := s)
  · simpa using hs
  · rw [if_neg hn]
  · rw [if_pos ((hp s).2 (Or.inl rfl)), hslot]
  · intro t _ hne
    by_cases h : g.Present t
    · rw [if_pos h, if_pos ((hp t).2 (Or.inr h)), hslot]
    · rw [if_neg h, if_neg]
      intro h'
      rcases (hp t).1 h' with h' | h'
      · exact hne h'
      · exact h h'

theorem empty_present : empty.present = [] := by decide +kernel

theorem empty_not_present (s : Nat) : ¬ empty.Present s := by
  unfold Present empty
  simp

end RowGroup

/-! ## Lists with one changed element -/

theorem flatMap_set_eq {α β : Type} {l : List α} {k : Nat} {a a' : α} {f : α → List β} (h : l[k]? = some a)
    (he : f a' = f a) : (l.set k a').flatMap f = l.flatMap f := by
  induction l generalizing k with
  | nil => cases h
  | cons x l ih =>
    cases k with
    | zero =>
      simp only [List.getElem?_cons_zero, Option.some.injEq] at h
      subst h
      rw [List.set_cons_zero, List.flatMap_cons, List.flatMap_cons, he]
    | succ k =>
      rw [List.set_cons_succ, List.flatMap_cons, List.flatMap_cons, ih (by simpa using h)]

theorem flatMap_set_perm {α β : Type} {l : List α} {k : Nat} {a a' : α} {f : α → List β} {b : β}
    (h : l[k]? = some a) (he : (f a').Perm (b :: f a)) : ((l.set k a').flatMap f).Perm (b :: l.flatMap f) := by
  induction l generalizing k with
  | nil => cases h
  | cons x l ih =>
    cases k with
    | zero =>
      simp only [List.getElem?_cons_zero, Option.some.injEq] at h
      subst h
      rw [List.set_cons_zero, List.flatMap_cons, List.flatMap_cons, ← List.cons_append]
      exact he.append_right _
    | succ k =>
      rw [List.set_cons_succ, List.flatMap_cons, List.flatMap_cons]
      refine (List.Perm.append_left (f x) (ih (k := k) (by simpa using h))).trans ?_
      exact List.perm_middle

theorem mem_set_imp {α : Type} {l : List α} {k : Nat} {a x : α} (h : x ∈ l.set k a) : x ∈ l ∨ x = a :=
  List.mem_or_eq_of_mem_set h

theorem RowMap.insert_keys {m : RowMap} {k : UInt16} {v : Row} (h : ∀ x ∈ m, x.1 ≠ k) :
    ((RowMap.insert k v m).map Prod.fst).Perm (k :: m.map Prod.fst) ∧
      (RowMap.insert k v m).length = m.length + 1 := by
  induction m with
  | nil => exact ⟨List.Perm.refl _, rfl⟩
  | cons y m ih =>
    obtain ⟨k', v'⟩ := y
    obtain ⟨h1, h2⟩ := ih fun x hx => h x (List.mem_cons_of_mem _ hx)
    unfold RowMap.insert
    split
    · exact ⟨List.Perm.refl _, rfl⟩
    · split
      · rename_i heq
        exact absurd heq.symm (h (k', v') (List.mem_cons_self ..))
      · refine ⟨?_, by simp [h2]⟩
        rw [List.map_cons, List.map_cons]
        exact (List.Perm.cons k' h1).trans (List.Perm.swap k k' _)

/-! ## Allocation -/

namespace Page

theorem alignUp4_eq (n : Nat) (h : n < 65536) :
    alignUp4 n = if roundUp4 n < 65536 then .ok (roundUp4 n) else .panic := by
  unfold alignUp4 addU16 roundUp4
  split
  · rw [if_pos (by omega)]
    congr 1
    omega
  · split
    · rw [if_pos (by omega)]
      congr 1
      omega
    · rw [if_neg (by omega)]

/-- What `allocate_row` leaves behind for the closure. -/
structure SlotReady (pg : Page) (c : DataPageContent) (slot : RowSlot) : Prop where
  group : ∃ g, c.rowGroups[slot.group]? = some g ∧ ¬ g.Present slot.subindex ∧
    g.slot slot.subindex = slot.offset
  sub : slot.subindex < 16
  counted : 16 * slot.group + slot.subindex < pg.header.packedRowCounts.numRows.val

theorem ofNat_toNat {n : Nat} (h : n < 65536) : (UInt16.ofNat n).toNat = n := by
  rw [UInt16.toNat_ofNat']; exact Nat.mod_eq_of_lt h

/-- Everything about a successful allocation on a well-formed page. -/
structure Allocated (pg : Page) (c : DataPageContent) (bytes : UInt16) (pg1 : Page) (slot : RowSlot)
    (c1 : DataPageContent) : Prop where
  wf : ∀ cap, pg.WellFormed cap c → pg1.WellFormed cap c1
  ready : SlotReady pg1 c1 slot
  offset : slot.offset = pg.header.usedSize
  rows : c1.rows = c.rows
  header : c1.header = c.header
  used : pg1.header.usedSize.toNat = pg.header.usedSize.toNat + roundUp4 bytes.toNat
  numRows : pg1.header.packedRowCounts.numRows.val = pg.header.packedRowCounts.numRows.val + 1
  valid : pg1.header.packedRowCounts.numRowsValid = pg.header.packedRowCounts.numRowsValid
  same : ∃ u f r, pg1.header = { pg.header with usedSize := u, freeSize := f, packedRowCounts := r }

theorem incrementNumRows_ok {c : PackedRowCounts} (h : c.numRows.val < 8191) :
    ∃ c', c.incrementNumRows = .ok c' ∧ c'.numRows.val = c.numRows.val + 1 ∧
      c'.numRowsValid = c.numRowsValid ∧
      c'.lastRowIndex = some (c.numRows.val / 16, c.numRows.val % 16) := by
  have h' : c.numRows.val + 1 < 8192 := by omega
  refine ⟨⟨⟨c.numRows.val + 1, h'⟩, c.numRowsValid⟩, ?_, rfl, rfl, ?_⟩
  · unfold PackedRowCounts.incrementNumRows PackedRowCounts.setNumRows
    rw [dif_pos h']
  · have hg : PackedRowCounts.numRowGroups ⟨⟨c.numRows.val + 1, h'⟩, c.numRowsValid⟩ = c.numRows.val / 16 + 1 := by
      rw [PackedRowCounts.numRowGroups_eq]
      simp only
      omega
    simp [PackedRowCounts.lastRowIndex, hg]

theorem allocateRow_some {pg : Page} {c : DataPageContent} {cap : Nat} (hw : pg.WellFormed cap c)
    {bytes : UInt16} (hb : roundUp4 bytes.toNat + 6 ≤ pg.header.freeSize.toNat)
    (hn : pg.header.packedRowCounts.numRows.val < 8191) :
    ∃ pg1 slot c1, pg.allocateRow bytes = .ok (pg1, some slot) ∧ Allocated pg c bytes pg1 slot c1 := by
  have hfree := pg.header.freeSize.toNat_lt
  obtain ⟨counts, hcounts, hcn, hcv, hlast⟩ := incrementNumRows_ok hn
  have hsp := hw.space
  have hsm := hw.small
  have hgl := hw.consistent.groups
  generalize hN : pg.header.packedRowCounts.numRows.val = N at *
  -- the groups after a possible extension
  obtain ⟨groups, hgroups⟩ : ∃ groups, groups =
    (if N / 16 < c.rowGroups.length then c.rowGroups else c.rowGroups ++ [RowGroup.empty]) := ⟨_, rfl⟩
  have hglen : groups.length = N / 16 + 1 := by
    rw [hgroups]; split
    · omega
    · rw [List.length_append, hgl]; simp; omega
  have h16 : ∀ g ∈ groups, g.rowOffsets.length = 16 := by
    rw [hgroups]; split
    · exact hw.consistent.sixteen
    · intro g hg
      rcases List.mem_append.1 hg with hg | hg
      · exact hw.consistent.sixteen g hg
      · rw [List.mem_singleton] at hg; subst hg; rfl
  have hpres : groups.flatMap RowGroup.present = c.rowGroups.flatMap RowGroup.present := by
    rw [hgroups]; split
    · rfl
    · rw [List.flatMap_append, List.flatMap_cons, RowGroup.empty_present]; simp
  have hhanded : ∀ k g s, groups[k]? = some g → g.Present s → 16 * k + s < N := by
    intro k g s hk hs
    rw [hgroups] at hk
    split at hk
    · exact hN ▸ hw.handedOut k g s hk hs
    · rcases Nat.lt_or_ge k c.rowGroups.length with h | h
      · rw [List.getElem?_append_left h] at hk
        exact hN ▸ hw.handedOut k g s hk hs
      · rw [List.getElem?_append_right h] at hk
        have : g = RowGroup.empty := by
          cases hkk : k - c.rowGroups.length with
          | zero => rw [hkk] at hk; simpa using hk.symm
          | succ m => rw [hkk] at hk; simp at hk
        subst this
        exact absurd hs (RowGroup.empty_not_present s)
  obtain ⟨grp, hgrp⟩ : ∃ grp, groups[N / 16]? = some grp :=
    ⟨_, List.getElem?_eq_getElem (by omega)⟩
  obtain ⟨grp', hins, hl', hf', hu', hslot, hother⟩ :=
    RowGroup.insertOffset_ok (h16 grp (List.mem_of_getElem? hgrp)) (s := N % 16) (by omega) pg.header.usedSize
  have hnp : ¬ grp.Present (N % 16) := by
    intro h
    have := hhanded _ _ _ hgrp h
    omega
  have hpeq : ∀ t, grp'.Present t ↔ grp.Present t := by
    intro t; unfold RowGroup.Present; rw [hf']
  have hpresent' : grp'.present = grp.present := by
    apply RowGroup.present_congr (fun t _ => hpeq t)
    intro t ht hp
    exact hother t ht fun h => hnp (h ▸ hp)
  -- the numbers
  obtain ⟨extra, hextra⟩ : ∃ extra, extra = (if N / 16 < c.rowGroups.length then 0 else 4) := ⟨_, rfl⟩
  have hextra' : extra ≤ 4 := by rw [hextra]; split <;> omega
  have hex : 4 * groups.length = 4 * c.rowGroups.length + extra := by
    rw [hglen, hextra]; split <;> omega
  have hru : roundUp4 bytes.toNat < 65536 := by omega
  let pg1 : Page :=
    { header := { pg.header with
        usedSize := UInt16.ofNat (pg.header.usedSize.toNat + roundUp4 bytes.toNat)
        freeSize := UInt16.ofNat (pg.header.freeSize.toNat - roundUp4 bytes.toNat - extra - 2)
        packedRowCounts := counts }
      content := .data { c with rowGroups := groups.set (N / 16) grp' } }
  have hused : pg1.header.usedSize.toNat = pg.header.usedSize.toNat + roundUp4 bytes.toNat :=
    ofNat_toNat (by omega)
  have hfree' : pg1.header.freeSize.toNat = pg.header.freeSize.toNat - roundUp4 bytes.toNat - extra - 2 :=
    ofNat_toNat (by omega)
  refine ⟨pg1, ⟨pg.header.usedSize, N / 16, N % 16⟩, { c with rowGroups := groups.set (N / 16) grp' }, ?_, ?_⟩
  · unfold allocateRow
    rw [hw.content]
    simp only
    rw [alignUp4_eq _ bytes.toNat_lt, if_pos hru, Res.ok_bind]
    have a1 : addU16 (roundUp4 bytes.toNat) 4 = .ok (roundUp4 bytes.toNat + 4) := by
      unfold addU16; rw [if_pos (by omega)]
    have a2 : addU16 (roundUp4 bytes.toNat + 4) 2 = .ok (roundUp4 bytes.toNat + 6) := by
      unfold addU16; rw [if_pos (by omega)]
    rw [a1, Res.ok_bind, a2, Res.ok_bind, if_neg (by omega)]
    have a3 : addU16 pg.header.usedSize.toNat (roundUp4 bytes.toNat) =
        .ok (pg.header.usedSize.toNat + roundUp4 bytes.toNat) := by
      unfold addU16; rw [if_pos (by omega)]
    have a4 : subU pg.header.freeSize.toNat (roundUp4 bytes.toNat) =
        .ok (pg.header.freeSize.toNat - roundUp4 bytes.toNat) := by
      unfold subU; rw [if_pos (by omega)]
    rw [a3, Res.ok_bind, a4, Res.ok_bind, hcounts, Res.ok_bind, hlast]
    simp only
    have a5 : ∀ k : Nat → Res (Page × Option RowSlot),
        (if N / 16 < c.rowGroups.length then
          (Res.ok (pg.header.freeSize.toNat - roundUp4 bytes.toNat) : Res Nat) >>= k
        else subU (pg.header.freeSize.toNat - roundUp4 bytes.toNat) 4 >>= k) =
        k (pg.header.freeSize.toNat - roundUp4 bytes.toNat - extra) := by
      intro k
      rw [hextra]; split
      · rfl
      · unfold subU; rw [if_pos (by omega)]; rfl
    have a6 : subU (pg.header.freeSize.toNat - roundUp4 bytes.toNat - extra) 2 =
        .ok (pg.header.freeSize.toNat - roundUp4 bytes.toNat - extra - 2) := by
      unfold subU; rw [if_pos (by omega)]
    rw [a5, ← hgroups, hgrp]
    simp only
    rw [hins, Res.ok_bind, a6, Res.ok_bind]
  · refine
      { wf := ?_, ready := ?_, offset := rfl, rows := rfl, header := rfl, used := hused, numRows := ?_
        valid := hcv, same := ⟨_, _, _, rfl⟩ }
    · intro cap' hw'
      have hcap : cap' = cap := by
        have h1 := hw'.space; rw [hN] at h1
        omega
      subst hcap
      have honce : ((groups.set (N / 16) grp').flatMap RowGroup.present).Perm (c.rows.map Prod.fst) := by
        rw [flatMap_set_eq hgrp hpresent', hpres]
        exact hw.once
      refine
        { content := rfl
          consistent :=
            { groups := ?_, sixteen := ?_, sorted := hw.consistent.sorted
              offsets := fun o => honce.mem_iff, valid := ?_ }
          once := honce
          handedOut := ?_, space := ?_, small := hsm, aligned := ?_, below := ?_ }
      · simp only [pg1]
        rw [List.length_set, hglen, hcn]
        omega
      · intro g hg
        rcases mem_set_imp hg with hg | rfl
        · exact h16 g hg
        · exact hl'
      · simp only [pg1]; rw [hcv]; exact hw.consistent.valid
      · intro k g s hk hs
        show 16 * k + s < counts.numRows.val
        rw [hcn]
        simp only at hk
        by_cases hkn : k = N / 16
        · subst hkn
          rw [List.getElem?_set_self (by omega)] at hk
          injection hk with hk
          subst hk
          have := hhanded _ _ s hgrp ((hpeq s).1 hs)
          omega
        · rw [List.getElem?_set_ne (Ne.symm hkn)] at hk
          have := hhanded _ _ s hk hs
          omega
      · rw [hused, hfree']
        simp only [List.length_set]
        rw [show pg1.header.packedRowCounts.numRows.val = N + 1 from hcn, hex]
        omega
      · rw [hused]
        have h4 : 4 ∣ roundUp4 bytes.toNat := ⟨(bytes.toNat + 3) / 4, by unfold roundUp4; omega⟩
        exact Nat.dvd_add hw.aligned h4
      · intro x hx
        rw [hused]
        have := hw.below x hx
        omega
    · refine ⟨⟨grp', ?_, ?_, hslot⟩, by simp only; omega, ?_⟩
      · simp only
        exact List.getElem?_set_self (by omega)
      · simp only
        rw [hpeq]; exact hnp
      · show 16 * (N / 16) + N % 16 < counts.numRows.val
        rw [hcn]
        omega
    · show counts.numRows.val = _
      rw [hcn, hN]

theorem allocateRow_none {pg : Page} {c : DataPageContent} (hc : pg.content = .data c) {bytes : UInt16}
    (hs : roundUp4 bytes.toNat + 6 < 65536) (hb : pg.header.freeSize.toNat < roundUp4 bytes.toNat + 6) :
    pg.allocateRow bytes = .ok (pg, none) := by
  unfold allocateRow
  rw [hc]
  simp only
  rw [alignUp4_eq _ bytes.toNat_lt, if_pos (by omega), Res.ok_bind]
  have a1 : addU16 (roundUp4 bytes.toNat) 4 = .ok (roundUp4 bytes.toNat + 4) := by
    unfold addU16; rw [if_pos (by omega)]
  have a2 : addU16 (roundUp4 bytes.toNat + 4) 2 = .ok (roundUp4 bytes.toNat + 6) := by
    unfold addU16; rw [if_pos (by omega)]
  rw [a1, Res.ok_bind, a2, Res.ok_bind, if_pos hb]

theorem allocateRow_huge {pg : Page} {c : DataPageContent} (hc : pg.content = .data c) {bytes : UInt16}
    (hs : 65536 ≤ roundUp4 bytes.toNat + 6) : pg.allocateRow bytes = .panic := by
  unfold allocateRow
  rw [hc]
  simp only
  rw [alignUp4_eq _ bytes.toNat_lt]
  split
  · rw [Res.ok_bind]
    unfold addU16
    split
    · rw [Res.ok_bind, if_neg (by omega)]; rfl
    · rfl
  · rfl

theorem allocateRow_counter {pg : Page} {c : DataPageContent} {cap : Nat} (hw : pg.WellFormed cap c)
    {bytes : UInt16} (hb : roundUp4 bytes.toNat + 6 ≤ pg.header.freeSize.toNat)
    (hn : pg.header.packedRowCounts.numRows.val = 8191) : pg.allocateRow bytes = .panic := by
  have hfree := pg.header.freeSize.toNat_lt
  have hsp := hw.space
  have hsm := hw.small
  unfold allocateRow
  rw [hw.content]
  simp only
  rw [alignUp4_eq _ bytes.toNat_lt, if_pos (by omega), Res.ok_bind]
  have a1 : addU16 (roundUp4 bytes.toNat) 4 = .ok (roundUp4 bytes.toNat + 4) := by
    unfold addU16; rw [if_pos (by omega)]
  have a2 : addU16 (roundUp4 bytes.toNat + 4) 2 = .ok (roundUp4 bytes.toNat + 6) := by
    unfold addU16; rw [if_pos (by omega)]
  rw [a1, Res.ok_bind, a2, Res.ok_bind, if_neg (by omega)]
  have a3 : addU16 pg.header.usedSize.toNat (roundUp4 bytes.toNat) =
      .ok (pg.header.usedSize.toNat + roundUp4 bytes.toNat) := by
    unfold addU16; rw [if_pos (by omega)]
  have a4 : subU pg.header.freeSize.toNat (roundUp4 bytes.toNat) =
      .ok (pg.header.freeSize.toNat - roundUp4 bytes.toNat) := by
    unfold subU; rw [if_pos (by omega)]
  have a5 : pg.header.packedRowCounts.incrementNumRows = .panic := by
    unfold PackedRowCounts.incrementNumRows PackedRowCounts.setNumRows
    rw [dif_neg (by omega)]
  rw [a3, Res.ok_bind, a4, Res.ok_bind, a5]
  rfl

/-- A call that returns nothing leaves the page alone. -/
theorem allocateRow_none_inv {pg pg1 : Page} {bytes : UInt16} (h : pg.allocateRow bytes = .ok (pg1, none)) :
    pg1 = pg ∧ ((∃ c, pg.content = .index c) ∨
      ((∃ c, pg.content = .data c) ∧ pg.header.freeSize.toNat < roundUp4 bytes.toNat + 6 ∧
        roundUp4 bytes.toNat + 6 < 65536)) := by
  cases hc : pg.content with
  | index c =>
    unfold allocateRow at h
    rw [hc] at h
    simp only [Res.ok.injEq, Prod.mk.injEq, and_true] at h
    exact ⟨h.symm, Or.inl ⟨c, rfl⟩⟩
  | data c =>
    rcases Nat.lt_or_ge (roundUp4 bytes.toNat + 6) 65536 with hs | hs
    · rcases Nat.lt_or_ge pg.header.freeSize.toNat (roundUp4 bytes.toNat + 6) with hb | hb
      · rw [allocateRow_none hc hs hb] at h
        simp only [Res.ok.injEq, Prod.mk.injEq, and_true] at h
        exact ⟨h.symm, Or.inr ⟨⟨c, rfl⟩, hb, hs⟩⟩
      · exfalso
        unfold allocateRow at h
        rw [hc] at h
        simp only at h
        obtain ⟨a, ha, h⟩ := Res.bind_eq_ok.1 h
        rw [alignUp4_eq _ bytes.toNat_lt, if_pos (by omega)] at ha
        injection ha with ha
        subst ha
        obtain ⟨r, hr, h⟩ := Res.bind_eq_ok.1 h
        unfold addU16 at hr
        rw [if_pos (by omega)] at hr
        injection hr with hr
        subst hr
        obtain ⟨r, hr, h⟩ := Res.bind_eq_ok.1 h
        unfold addU16 at hr
        rw [if_pos (by omega)] at hr
        injection hr with hr
        subst hr
        rw [if_neg (by omega)] at h
        obtain ⟨_, -, h⟩ := Res.bind_eq_ok.1 h
        obtain ⟨_, -, h⟩ := Res.bind_eq_ok.1 h
        obtain ⟨_, -, h⟩ := Res.bind_eq_ok.1 h
        split at h
        · cases h
        · split at h
          all_goals
            obtain ⟨_, -, h⟩ := Res.bind_eq_ok.1 h
            split at h
            · cases h
            · obtain ⟨_, -, h⟩ := Res.bind_eq_ok.1 h
              obtain ⟨_, -, h⟩ := Res.bind_eq_ok.1 h
              simp at h
    · rw [allocateRow_huge hc hs] at h
      cases h

/-- Inversion of a successful allocation. -/
theorem allocateRow_some_inv {pg : Page} {c : DataPageContent} {cap : Nat} (hw : pg.WellFormed cap c)
    {bytes : UInt16} {pg1 : Page} {slot : RowSlot} (h : pg.allocateRow bytes = .ok (pg1, some slot)) :
    roundUp4 bytes.toNat + 6 ≤ pg.header.freeSize.toNat ∧ ∃ c1, Allocated pg c bytes pg1 slot c1 := by
  rcases Nat.lt_or_ge (roundUp4 bytes.toNat + 6) 65536 with hs | hs
  · rcases Nat.lt_or_ge pg.header.freeSize.toNat (roundUp4 bytes.toNat + 6) with hb | hb
    · rw [allocateRow_none hw.content hs hb] at h; cases h
    · rcases Nat.lt_or_ge pg.header.packedRowCounts.numRows.val 8191 with hn | hn
      · obtain ⟨pg1', slot', c1, h1, h2⟩ := allocateRow_some hw hb hn
        rw [h1] at h
        simp only [Res.ok.injEq, Prod.mk.injEq, Option.some.injEq] at h
        obtain ⟨rfl, rfl⟩ := h
        exact ⟨hb, c1, h2⟩
      · have := pg.header.packedRowCounts.numRows.isLt
        rw [allocateRow_counter hw hb (by omega)] at h
        cases h
  · rw [allocateRow_huge hw.content hs] at h; cases h

/-- Everything about a successful insertion. -/
structure Inserted (pg1 : Page) (c1 : DataPageContent) (slot : RowSlot) (row : Row) (pg2 : Page)
    (c2 : DataPageContent) : Prop where
  fresh : ∀ x ∈ c1.rows, x.1 ≠ slot.offset
  wf : ∀ cap, pg1.WellFormed cap c1 → slot.offset.toNat ≤ pg1.header.usedSize.toNat → pg2.WellFormed cap c2
  content : pg2.content = .data c2
  rows : ∀ x, x ∈ c2.rows ↔ x = (slot.offset, row) ∨ x ∈ c1.rows
  header : c2.header = c1.header
  used : pg2.header.usedSize = pg1.header.usedSize
  free : pg2.header.freeSize = pg1.header.freeSize
  numRows : pg2.header.packedRowCounts.numRows = pg1.header.packedRowCounts.numRows
  valid : pg2.header.packedRowCounts.numRowsValid.val = pg1.header.packedRowCounts.numRowsValid.val + 1
  same : ∃ r, pg2.header = { pg1.header with packedRowCounts := r }

theorem insertRow_ok {pg1 : Page} {c1 : DataPageContent} {slot : RowSlot} (hcont : pg1.content = .data c1)
    (hcons : c1.Consistent pg1.header) (hr : SlotReady pg1 c1 slot) (hfresh : ∀ x ∈ c1.rows, x.1 ≠ slot.offset)
    (hv : pg1.header.packedRowCounts.numRowsValid.val < 2047) (row : Row) :
    ∃ pg2 c2, pg1.insertRow slot row = .ok pg2 ∧ Inserted pg1 c1 slot row pg2 c2 := by
  obtain ⟨g, hg, hnp, hgs⟩ := hr.group
  obtain ⟨g', hmark, hoff, hunk, hpres⟩ := RowGroup.markOffsetPresent_ok (g := g) hr.sub
  have hklt : slot.group < c1.rowGroups.length := by
    rcases Nat.lt_or_ge slot.group c1.rowGroups.length with h | h
    · exact h
    · rw [List.getElem?_eq_none h] at hg; cases hg
  have hv' : pg1.header.packedRowCounts.numRowsValid.val + 1 < 2048 := by omega
  let counts : PackedRowCounts :=
    ⟨pg1.header.packedRowCounts.numRows, ⟨pg1.header.packedRowCounts.numRowsValid.val + 1, hv'⟩⟩
  have hcounts : pg1.header.packedRowCounts.incrementNumRowsValid = .ok counts := by
    unfold PackedRowCounts.incrementNumRowsValid PackedRowCounts.setNumRowsValid
    rw [dif_pos hv']
  have hget : RowMap.get? c1.rows slot.offset = none := RowMap.get?_eq_none.2 hfresh
  obtain ⟨hk1, hk2⟩ := RowMap.insert_keys (m := c1.rows) (k := slot.offset) (v := row) hfresh
  refine ⟨{ header := { pg1.header with packedRowCounts := counts }
            content := .data { c1 with
              rowGroups := c1.rowGroups.set slot.group g'
              rows := RowMap.insert slot.offset row c1.rows } },
    { c1 with
      rowGroups := c1.rowGroups.set slot.group g'
      rows := RowMap.insert slot.offset row c1.rows }, ?_, ?_⟩
  · unfold insertRow
    rw [hcont]
    simp only
    rw [hget]
    simp only
    rw [hg]
    simp only
    rw [hmark, Res.ok_bind, hcounts, Res.ok_bind]
  · refine
      { fresh := hfresh, wf := ?_, content := rfl, rows := ?_, header := rfl, used := rfl, free := rfl, numRows := rfl
        valid := rfl, same := ⟨_, rfl⟩ }
    · intro cap hw hlt
      have honce : ((c1.rowGroups.set slot.group g').flatMap RowGroup.present).Perm
          ((RowMap.insert slot.offset row c1.rows).map Prod.fst) := by
        refine (flatMap_set_perm hg (RowGroup.present_mark hr.sub hnp hoff hpres)).trans ?_
        rw [hgs]
        exact (List.Perm.cons _ hw.once).trans hk1.symm
      refine
        { content := rfl
          consistent :=
            { groups := ?_, sixteen := ?_, sorted := RowMap.sorted_insert hcons.sorted
              offsets := fun o => honce.mem_iff, valid := ?_ }
          once := honce
          handedOut := ?_, space := ?_, small := hw.small, aligned := hw.aligned, below := ?_ }
      · simp only [List.length_set]; exact hcons.groups
      · intro x hx
        rcases mem_set_imp hx with hx | rfl
        · exact hcons.sixteen x hx
        · rw [hoff]; exact hcons.sixteen g (List.mem_of_getElem? hg)
      · simp only [hk2, counts]
        rw [hcons.valid]
      · intro k x s hx hs
        show 16 * k + s < pg1.header.packedRowCounts.numRows.val
        simp only at hx
        by_cases hk : k = slot.group
        · subst hk
          rw [List.getElem?_set_self hklt] at hx
          injection hx with hx
          subst hx
          rcases (hpres s).1 hs with rfl | hs
          · exact hr.counted
          · exact hw.handedOut _ _ _ hg hs
        · rw [List.getElem?_set_ne (Ne.symm hk)] at hx
          exact hw.handedOut _ _ _ hx hs
      · simp only [List.length_set]; exact hw.space
      · intro x hx
        rcases (RowMap.mem_insert hcons.sorted).1 hx with rfl | hx
        · exact hlt
        · exact hw.below x hx.1
    · intro x
      rw [RowMap.mem_insert hcons.sorted]
      constructor
      · rintro (h | h)
        · exact Or.inl h
        · exact Or.inr h.1
      · rintro (h | h)
        · exact Or.inl h
        · exact Or.inr ⟨h, hfresh x h⟩

theorem insertRow_counter {pg1 : Page} {c1 : DataPageContent} {slot : RowSlot} (hcont : pg1.content = .data c1)
    (hv : pg1.header.packedRowCounts.numRowsValid.val = 2047) (row : Row) :
    pg1.insertRow slot row = .panic := by
  unfold insertRow
  rw [hcont]
  simp only
  split
  · rfl
  · split
    · rfl
    · have : pg1.header.packedRowCounts.incrementNumRowsValid = .panic := by
        unfold PackedRowCounts.incrementNumRowsValid PackedRowCounts.setNumRowsValid
        rw [dif_neg (by omega)]
      rw [this]
      unfold RowGroup.markOffsetPresent
      split <;> rfl

/-- A row that is there already. -/
theorem insertRow_occupied {pg1 : Page} {c1 : DataPageContent} {slot : RowSlot} (hcont : pg1.content = .data c1)
    (hx : ¬ ∀ x ∈ c1.rows, x.1 ≠ slot.offset) (row : Row) : pg1.insertRow slot row = .panic := by
  unfold insertRow
  rw [hcont]
  simp only
  split
  · rfl
  · rename_i h
    exact absurd (RowMap.get?_eq_none.1 h) hx

theorem insertRow_inv {pg1 pg2 : Page} {c1 : DataPageContent} {slot : RowSlot} {row : Row}
    (hcont : pg1.content = .data c1) (hcons : c1.Consistent pg1.header) (hr : SlotReady pg1 c1 slot)
    (h : pg1.insertRow slot row = .ok pg2) : ∃ c2, Inserted pg1 c1 slot row pg2 c2 := by
  rcases Classical.em (∀ x ∈ c1.rows, x.1 ≠ slot.offset) with hfresh | hfresh
  case inr =>
    rw [insertRow_occupied hcont hfresh row] at h
    cases h
  rcases Nat.lt_or_ge pg1.header.packedRowCounts.numRowsValid.val 2047 with hv | hv
  · obtain ⟨pg2', c2, h1, h2⟩ := insertRow_ok hcont hcons hr hfresh hv row
    rw [h1] at h
    injection h with h
    subst h
    exact ⟨c2, h2⟩
  · have := pg1.header.packedRowCounts.numRowsValid.isLt
    rw [insertRow_counter hcont (by omega) row] at h
    cases h

/-! ## Histories -/

theorem insert_last {m : RowMap} {k : UInt16} {v : Row} (h : ∀ x ∈ m, x.1.toNat < k.toNat) :
    RowMap.insert k v m = m ++ [(k, v)] := by
  induction m with
  | nil => rfl
  | cons y m ih =>
    obtain ⟨k', v'⟩ := y
    have h0 : k'.toNat < k.toNat := h (k', v') (List.mem_cons_self ..)
    unfold RowMap.insert
    rw [if_neg (by rw [UInt16.lt_iff_toNat_lt]; omega), if_neg (by rintro rfl; omega),
      ih fun x hx => h x (List.mem_cons_of_mem _ hx)]
    rfl

/-- What a history of calls does to a well-formed page. -/
structure After (cap : Nat) (pg : Page) (c : DataPageContent) (as : List Allocation) (pg' : Page)
    (c' : DataPageContent) : Prop where
  wf : pg'.WellFormed cap c'
  rows : c'.rows = c.rows ++ insertedRows as
  header : c'.header = c.header
  aligned : ∀ a ∈ as, 4 ∣ a.offset
  above : ∀ a ∈ as, pg.header.usedSize.toNat ≤ a.offset
  below : ∀ a ∈ as, a.offset + roundUp4 a.size ≤ pg'.header.usedSize.toNat
  apart : as.Pairwise fun a b => a.offset + roundUp4 a.size ≤ b.offset
  grows : pg.header.usedSize.toNat ≤ pg'.header.usedSize.toNat
  numRows : pg'.header.packedRowCounts.numRows.val = pg.header.packedRowCounts.numRows.val + as.length
  same : ∃ u f r, pg'.header = { pg.header with usedSize := u, freeSize := f, packedRowCounts := r }

theorem roundUp4_pos {n : Nat} (h : 0 < n) : 0 < roundUp4 n := by unfold roundUp4; omega

theorem le_roundUp4 (n : Nat) : n ≤ roundUp4 n := by unfold roundUp4; omega

theorem History.after {pg pg' : Page} {as : List Allocation} (h : Page.History pg as pg') {cap : Nat}
    {c : DataPageContent} (hw : pg.WellFormed cap c) :
    ∃ c', After cap pg c as pg' c' := by
  induction h generalizing c with
  | done pg =>
    exact ⟨c,
      { wf := hw, rows := by simp [insertedRows], header := rfl, aligned := fun a ha => (by cases ha)
        above := fun a ha => (by cases ha), below := fun a ha => (by cases ha), apart := List.Pairwise.nil
        grows := Nat.le_refl _, numRows := rfl, same := ⟨_, _, _, rfl⟩ }⟩
  | full bytes h t ih =>
    obtain ⟨rfl, -⟩ := allocateRow_none_inv h
    exact ih hw
  | @dropped pg pg1 pg' as slot bytes h t ih =>
    obtain ⟨-, c1, ha⟩ := allocateRow_some_inv hw h
    obtain ⟨c', hc'⟩ := ih (ha.wf cap hw)
    have hu := ha.used
    have ho : slot.offset.toNat = pg.header.usedSize.toNat := by rw [ha.offset]
    refine ⟨c',
      { wf := hc'.wf, rows := ?_, header := by rw [hc'.header, ha.header], aligned := ?_, above := ?_
        below := ?_, apart := ?_, grows := ?_, numRows := ?_, same := ?_ }⟩
    · rw [hc'.rows, ha.rows]; rfl
    · intro a hm
      rcases List.mem_cons.1 hm with rfl | hm
      · simp only; rw [ho]; exact hw.aligned
      · exact hc'.aligned a hm
    · intro a hm
      rcases List.mem_cons.1 hm with rfl | hm
      · simp only; omega
      · have := hc'.above a hm; omega
    · intro a hm
      rcases List.mem_cons.1 hm with rfl | hm
      · have := hc'.grows; simp only; omega
      · exact hc'.below a hm
    · refine List.pairwise_cons.2 ⟨fun b hb => ?_, hc'.apart⟩
      have := hc'.above b hb
      simp only; omega
    · have := hc'.grows; omega
    · rw [hc'.numRows, ha.numRows, List.length_cons]; omega
    · obtain ⟨u, f, r, h1⟩ := ha.same
      obtain ⟨u', f', r', h2⟩ := hc'.same
      exact ⟨u', f', r', by rw [h2, h1]⟩
  | @inserted pg pg1 pg2 pg' as slot bytes row h hi t ih =>
    obtain ⟨-, c1, ha⟩ := allocateRow_some_inv hw h
    have hw1 := ha.wf cap hw
    obtain ⟨c2, hin⟩ := insertRow_inv hw1.content hw1.consistent ha.ready hi
    have hu := ha.used
    have ho : slot.offset.toNat = pg.header.usedSize.toNat := by rw [ha.offset]
    have hw2 := hin.wf cap hw1 (by omega)
    obtain ⟨c', hc'⟩ := ih hw2
    have hu2 : pg2.header.usedSize.toNat = pg1.header.usedSize.toNat := by rw [hin.used]
    have hrows : c2.rows = c1.rows ++ [(slot.offset, row)] := by
      apply RowMap.Sorted.ext hw2.consistent.sorted
      · rw [← insert_last fun x hx => ?_]
        · exact RowMap.sorted_insert hw1.consistent.sorted
        · have h1 := hw.below x (ha.rows ▸ hx)
          have h2 := hin.fresh x hx
          rw [ne_eq, ← UInt16.toNat_inj] at h2
          omega
      · intro x
        rw [hin.rows, List.mem_append, List.mem_singleton]
        exact Or.comm
    refine ⟨c',
      { wf := hc'.wf, rows := ?_, header := by rw [hc'.header, hin.header, ha.header], aligned := ?_
        above := ?_, below := ?_, apart := ?_, grows := ?_, numRows := ?_, same := ?_ }⟩
    · rw [hc'.rows, hrows, ha.rows, List.append_assoc]
      congr 1
      show _ = insertedRows _
      unfold insertedRows
      rw [List.filterMap_cons]
      simp
    · intro a hm
      rcases List.mem_cons.1 hm with rfl | hm
      · simp only; rw [ho]; exact hw.aligned
      · exact hc'.aligned a hm
    · intro a hm
      rcases List.mem_cons.1 hm with rfl | hm
      · simp only; omega
      · have := hc'.above a hm; omega
    · intro a hm
      rcases List.mem_cons.1 hm with rfl | hm
      · have := hc'.grows; simp only; omega
      · exact hc'.below a hm
    · refine List.pairwise_cons.2 ⟨fun b hb => ?_, hc'.apart⟩
      have := hc'.above b hb
      simp only; omega
    · have := hc'.grows; omega
    · rw [hc'.numRows, hin.numRows, ha.numRows, List.length_cons]; omega
    · obtain ⟨u, f, r, h1⟩ := ha.same
      obtain ⟨r1, h1'⟩ := hin.same
      obtain ⟨u', f', r', h2⟩ := hc'.same
      exact ⟨u', f', r', by rw [h2, h1', h1]⟩

theorem mem_insertedRows {as : List Allocation} {x : UInt16 × Row} (hx : x ∈ insertedRows as) :
    ∃ a ∈ as, a.row = some x.2 ∧ x.1 = UInt16.ofNat a.offset := by
  unfold insertedRows at hx
  obtain ⟨a, ha, h⟩ := List.mem_filterMap.1 hx
  cases hr : a.row with
  | none => rw [hr] at h; cases h
  | some r =>
    rw [hr] at h
    simp only [Option.map_some, Option.some.injEq] at h
    subst h
    exact ⟨a, ha, hr, rfl⟩

/-- Rows that were packed stay so when rows that fit their space are added. -/
theorem After.packed {cap : Nat} {pg pg' : Page} {c c' : DataPageContent} {as : List Allocation}
    (h : After cap pg c as pg' c') (hp : RowsPacked pg.header.usedSize.toNat c.rows)
    (hr : ∀ a ∈ as, ∀ r, a.row = some r → r.Coherent ∧ ∃ n, r.Extent n ∧ n ≤ roundUp4 a.size) :
    RowsPacked pg'.header.usedSize.toNat c'.rows := by
  have hused := pg'.header.usedSize.toNat_lt
  have hoff : ∀ a ∈ as, (UInt16.ofNat a.offset).toNat = a.offset := by
    intro a ha
    have := h.below a ha
    exact ofNat_toNat (by omega)
  rw [h.rows]
  refine ⟨?_, ?_, ?_⟩
  · rw [List.pairwise_append]
    refine ⟨hp.apart, ?_, ?_⟩
    · unfold insertedRows
      rw [List.pairwise_filterMap]
      refine List.Pairwise.imp_of_mem ?_ h.apart
      intro a b ha hb hab x hx y hy
      cases hra : a.row with
      | none => rw [hra] at hx; cases hx
      | some ra =>
        cases hrb : b.row with
        | none => rw [hrb] at hy; cases hy
        | some rb =>
          rw [hra] at hx
          rw [hrb] at hy
          simp only [Option.map_some, Option.some.injEq] at hx hy
          subst hx hy
          obtain ⟨-, n, hn, hle⟩ := hr a ha ra hra
          refine ⟨n, hn, ?_⟩
          simp only
          rw [hoff a ha, hoff b hb]
          omega
    · intro x hx y hy
      obtain ⟨a, ha, -, hy1⟩ := mem_insertedRows hy
      obtain ⟨n, hn, hle⟩ := hp.within x hx
      refine ⟨n, hn, ?_⟩
      rw [hy1, hoff a ha]
      have := h.above a ha
      omega
  · intro x hx
    rcases List.mem_append.1 hx with hx | hx
    · exact hp.coherent x hx
    · obtain ⟨a, ha, hrow, -⟩ := mem_insertedRows hx
      exact (hr a ha _ hrow).1
  · intro x hx
    rcases List.mem_append.1 hx with hx | hx
    · obtain ⟨n, hn, hle⟩ := hp.within x hx
      exact ⟨n, hn, Nat.le_trans hle h.grows⟩
    · obtain ⟨a, ha, hrow, hx1⟩ := mem_insertedRows hx
      obtain ⟨-, n, hn, hle⟩ := hr a ha _ hrow
      refine ⟨n, hn, ?_⟩
      rw [hx1, hoff a ha]
      have := h.below a ha
      omega

theorem WellFormed.footer {cap : Nat} {pg : Page} {c : DataPageContent} (hw : pg.WellFormed cap c) :
    c.FooterWithin (4 * c.rowGroups.length + 2 * pg.header.packedRowCounts.numRows.val) := by
  intro k g hk
  have hlt : k < c.rowGroups.length := by
    rcases Nat.lt_or_ge k c.rowGroups.length with h | h
    · exact h
    · rw [List.getElem?_eq_none h] at hk; cases hk
  have hgl := hw.consistent.groups
  rcases Nat.eq_zero_or_pos g.slotsUsed with h | h
  · omega
  · have := hw.handedOut k g _ hk (g.slotsUsed_spec h)
    omega

/-- A well-formed page with packed rows has room for everything. -/
theorem WellFormed.laidOut {cap pageSize : Nat} {pg : Page} {c : DataPageContent} (hw : pg.WellFormed cap c)
    (hcap : 40 + cap = pageSize) (hp : RowsPacked pg.header.usedSize.toNat c.rows) : c.LaidOut pageSize := by
  have hsp := hw.space
  refine ⟨hp.apart, hp.coherent, _, hw.footer, by omega, ?_⟩
  intro x hx
  obtain ⟨n, hn, hle⟩ := hp.within x hx
  exact ⟨n, hn, by omega⟩

end Page

/-- A page that is laid out has all its row groups behind the start of the file. -/
theorem DataPageContent.LaidOut.groups_le {pageSize : Nat} {c : DataPageContent} (h : c.LaidOut pageSize) :
    40 ≤ pageSize ∧ 36 * c.rowGroups.length ≤ pageSize := by
  obtain ⟨f, hf, hle, -⟩ := h.fits
  refine ⟨by omega, ?_⟩
  cases hl : c.rowGroups.length with
  | zero => omega
  | succ n =>
    have := hf n (c.rowGroups[n]'(by omega)) (List.getElem?_eq_getElem (by omega))
    omega

end Rekordcrate
