import Verif.Spec.Page
import Verif.Lemmas.Io
import Verif.Lemmas.OffsetArray

/-! # Lemmas about row groups, row maps and compatible writes -/

namespace Rekordcrate
open Rd

/-! ## Pointwise -/

namespace Pointwise

variable {α β : Type} {R : α → β → Prop}

theorem length {as : List α} {bs : List β} (h : Pointwise R as bs) : as.length = bs.length := by
  induction h with
  | nil => rfl
  | cons _ _ ih => simp [ih]

theorem mono {S : α → β → Prop} {as : List α} {bs : List β} (h : Pointwise R as bs)
    (hi : ∀ a b, a ∈ as → R a b → S a b) : Pointwise S as bs := by
  induction h with
  | nil => exact .nil
  | cons hr _ ih =>
    exact .cons (hi _ _ (List.mem_cons_self ..) hr) (ih fun a b ha => hi a b (List.mem_cons_of_mem _ ha))

theorem flatMap_eq {γ : Type} {as : List α} {bs : List β} {f : α → List γ} {g : β → List γ}
    (h : Pointwise R as bs) (hi : ∀ a b, a ∈ as → R a b → g b = f a) : bs.flatMap g = as.flatMap f := by
  induction h with
  | nil => rfl
  | cons hr _ ih =>
    rw [List.flatMap_cons, List.flatMap_cons, hi _ _ (List.mem_cons_self ..) hr,
      ih fun a b ha => hi a b (List.mem_cons_of_mem _ ha)]

theorem map_eq {γ : Type} {as : List α} {bs : List β} {f : α → γ} {g : β → γ}
    (h : Pointwise R as bs) (hi : ∀ a b, R a b → g b = f a) : bs.map g = as.map f := by
  induction h with
  | nil => rfl
  | cons hr _ ih => rw [List.map_cons, List.map_cons, hi _ _ hr, ih]

theorem getElem? {as : List α} {bs : List β} (h : Pointwise R as bs) {i : Nat} {a : α} {b : β}
    (ha : as[i]? = some a) (hb : bs[i]? = some b) : R a b := by
  induction h generalizing i with
  | nil => simp at ha
  | cons hr _ ih =>
    cases i with
    | zero => simp at ha hb; subst ha hb; exact hr
    | succ i => exact ih (by simpa using ha) (by simpa using hb)

theorem refl_of {R : α → α → Prop} {as : List α} (h : ∀ a ∈ as, R a a) : Pointwise R as as := by
  induction as with
  | nil => exact .nil
  | cons a as ih =>
    exact .cons (h a (List.mem_cons_self ..)) (ih fun b hb => h b (List.mem_cons_of_mem _ hb))

end Pointwise

theorem filterMap_congr' {α β : Type} {f g : α → Option β} {l : List α} (h : ∀ a ∈ l, f a = g a) :
    l.filterMap f = l.filterMap g := by
  induction l with
  | nil => rfl
  | cons a l ih =>
    rw [List.filterMap_cons, List.filterMap_cons, h a (List.mem_cons_self ..),
      ih fun b hb => h b (List.mem_cons_of_mem _ hb)]

/-! ## Compatible writes -/

theorem PatchesWithin.mono {ps : List Patch} {lo hi lo' hi' : Nat} (h : PatchesWithin ps lo hi)
    (h1 : lo' ≤ lo) (h2 : hi ≤ hi') : PatchesWithin ps lo' hi' := by
  intro q hq
  have := h q hq
  omega

theorem PatchesWithin.append {ps qs : List Patch} {lo hi : Nat} (h : PatchesWithin ps lo hi)
    (h' : PatchesWithin qs lo hi) : PatchesWithin (ps ++ qs) lo hi := by
  intro q hq
  rcases List.mem_append.1 hq with hq | hq
  · exact h q hq
  · exact h' q hq

theorem PatchesWithin.nil {lo hi : Nat} : PatchesWithin [] lo hi := by intro q hq; cases hq

theorem PatchesDisjoint.compatible {ps : List Patch} (h : PatchesDisjoint ps) : Compatible ps :=
  ⟨applyPatches [] ps, contains_applyPatches h⟩

/-- Writes that some file holds are held by every file after writing them. -/
theorem Compatible.contains_applyPatches {ps : List Patch} (h : Compatible ps) (img : Bytes) :
    Contains (applyPatches img ps) ps := by
  obtain ⟨ref, href⟩ := h
  -- at every covered position the written file has the byte of the reference file
  have key : ∀ (qs : List Patch) (img : Bytes), (∀ q ∈ qs, HasAt ref q.off q.bytes) →
      (∀ i, (applyPatches img qs)[i]? = ref[i]? ∨ ((applyPatches img qs)[i]? = img[i]? ∨ img.length ≤ i) ∧
        ∀ q ∈ qs, ¬ q.Covers i) := by
    intro qs
    induction qs with
    | nil => intro img _ i; right; exact ⟨Or.inl rfl, fun q hq => by cases hq⟩
    | cons q qs ih =>
      intro img hq i
      rw [applyPatches_cons]
      rcases ih (q.apply img) (fun x hx => hq x (List.mem_cons_of_mem _ hx)) i with h | ⟨h, hn⟩
      · exact Or.inl h
      · by_cases hc : q.Covers i
        · left
          have hcov : (applyPatches (q.apply img) qs)[i]? = (q.apply img)[i]? := by
            rcases h with h | h
            · exact h
            · exfalso
              have hb : (q.apply img)[i]? = q.bytes[i - q.off]? := by
                rw [Patch.apply_getElem?, if_pos (show q.off ≤ i ∧ i < q.off + q.bytes.length from hc)]
              rw [List.getElem?_eq_none h] at hb
              have : q.bytes.length ≤ i - q.off := List.getElem?_eq_none_iff.1 hb.symm
              obtain ⟨h1, h2⟩ := hc
              omega
          rw [hcov, Patch.apply_getElem?, if_pos (show q.off ≤ i ∧ i < q.off + q.bytes.length from hc)]
          obtain ⟨h1, h2⟩ := hc
          have := hq q (List.mem_cons_self ..) (i - q.off) (by omega)
          rw [show q.off + (i - q.off) = i by omega] at this
          exact this.symm
        · right
          refine ⟨?_, ?_⟩
          · by_cases hi : i < img.length
            · left
              rw [applyPatches_of_not_covers (Nat.lt_of_lt_of_le hi (Patch.apply_length_le img q)) hn,
                Patch.apply_of_not_covers hi hc]
            · right; omega
          · intro x hx
            rcases List.mem_cons.1 hx with rfl | hx
            · exact hc
            · exact hn x hx
  intro q hq i hi
  rcases key ps img href (q.off + i) with h | ⟨-, h⟩
  · rw [h]; exact href q hq i hi
  · exact absurd ⟨by omega, by omega⟩ (h q hq)

/-- Writes into two disjoint ranges do not disturb each other. -/
theorem Compatible.append {ps qs : List Patch} (h : Compatible ps) (h' : Compatible qs)
    (hd : ∀ q ∈ ps, ∀ r ∈ qs, DisjointRanges q.off q.bytes.length r.off r.bytes.length) :
    Compatible (ps ++ qs) := by
  obtain ⟨img, hc⟩ := h
  refine ⟨applyPatches img qs, ?_⟩
  rw [Contains.append_iff]
  refine ⟨?_, h'.contains_applyPatches img⟩
  intro q hq
  exact hasAt_applyPatches_of_disjoint (hc q hq) (hd q hq)

theorem Compatible.append_ranges {ps qs : List Patch} {a b c d : Nat} (h : Compatible ps)
    (h' : Compatible qs) (hp : PatchesWithin ps a b) (hq : PatchesWithin qs c d) (hd : b ≤ c ∨ d ≤ a) :
    Compatible (ps ++ qs) := by
  refine h.append h' fun q hq' r hr => ?_
  have h1 := hp q hq'
  have h2 := hq r hr
  unfold DisjointRanges
  omega

theorem Compatible.nil : Compatible [] := ⟨[], Contains.nil⟩

theorem Compatible.singleton (q : Patch) : Compatible [q] :=
  PatchesDisjoint.compatible (List.pairwise_singleton _ _)

/-! ## Seeks -/

theorem Rd.seekBy_nat (k : Nat) (d : Bytes) (p : Nat) : Rd.seekBy (k : Int) d p = .ok ((), p + k) := by
  unfold Rd.seekBy
  rw [if_pos (by omega)]
  congr

theorem Rd.seekBy_neg {k : Nat} (d : Bytes) {p : Nat} (h : k ≤ p) :
    Rd.seekBy (-(k : Int)) d p = .ok ((), p - k) := by
  unfold Rd.seekBy
  rw [if_pos (by omega)]
  congr 2
  omega

theorem Rd.seekBy_neg_err {k : Nat} (d : Bytes) {p : Nat} (h : p < k) :
    Rd.seekBy (-(k : Int)) d p = .err .io := by
  unfold Rd.seekBy
  rw [if_neg (by omega)]

theorem Wr.seekBy_nat (k : Nat) (p : Nat) : Wr.seekBy (k : Int) p = .ok ((), p + k, []) := by
  unfold Wr.seekBy
  rw [if_pos (by omega)]
  congr

theorem Wr.seekBy_neg {k p : Nat} (h : k ≤ p) :
    Wr.seekBy (-(k : Int)) p = .ok ((), p - k, []) := by
  unfold Wr.seekBy
  rw [if_pos (by omega), show ((p : Int) + -(k : Int)).toNat = p - k by omega]

theorem Wr.seekBy_neg_err {k p : Nat} (h : p < k) : Wr.seekBy (-(k : Int)) p = .err .io := by
  unfold Wr.seekBy
  rw [if_neg (by omega)]

/-! ## Row groups -/

namespace RowGroup

theorem leadingZeros_le (x : UInt16) (n : Nat) : leadingZeros x n ≤ n := by
  induction n with
  | zero => exact Nat.le_refl _
  | succ n ih => unfold leadingZeros; split <;> omega

theorem leadingZeros_spec (x : UInt16) (n : Nat) :
    (∀ i, n - leadingZeros x n ≤ i → i < n → x.toNat.testBit i = false) ∧
    (leadingZeros x n < n → x.toNat.testBit (n - leadingZeros x n - 1) = true) := by
  induction n with
  | zero => exact ⟨fun i _ h => absurd h (by omega), fun h => absurd h (by simp [leadingZeros])⟩
  | succ n ih =>
    unfold leadingZeros
    split
    · rename_i h
      exact ⟨fun i h1 h2 => by omega, fun _ => by simpa using h⟩
    · rename_i h
      have hle := leadingZeros_le x n
      refine ⟨fun i h1 h2 => ?_, fun h2 => ?_⟩
      · rcases Nat.lt_or_ge i n with h3 | h3
        · exact ih.1 i (by omega) h3
        · have : i = n := by omega
          subst this
          simpa using h
      · have := ih.2 (by omega)
        rw [show n + 1 - (leadingZeros x n + 1) - 1 = n - leadingZeros x n - 1 by omega]
        exact this

theorem testBit_of_ge (x : UInt16) {i : Nat} (h : 16 ≤ i) : x.toNat.testBit i = false :=
  Nat.testBit_lt_two_pow (Nat.lt_of_lt_of_le x.toNat_lt (Nat.pow_le_pow_right (by omega) h))

theorem slotsUsed_eq (g : RowGroup) : g.slotsUsed = 16 - leadingZeros g.rowPresenceFlags 16 := by
  obtain ⟨h1, h2⟩ := leadingZeros_spec g.rowPresenceFlags 16
  have hle := leadingZeros_le g.rowPresenceFlags 16
  have hall : ∀ i, 16 - leadingZeros g.rowPresenceFlags 16 ≤ i → g.rowPresenceFlags.toNat.testBit i = false := by
    intro i hi
    rcases Nat.lt_or_ge i 16 with h | h
    · exact h1 i hi h
    · exact testBit_of_ge _ h
  unfold slotsUsed
  split
  · rename_i h0
    rcases Nat.lt_or_ge (leadingZeros g.rowPresenceFlags 16) 16 with h | h
    · have := h2 h
      rw [h0] at this
      simp at this
    · omega
  · rename_i h0
    have hne : g.rowPresenceFlags.toNat ≠ 0 := fun h => h0 (UInt16.toNat_inj.1 (by simpa using h))
    have hlt : g.rowPresenceFlags.toNat < 2 ^ (16 - leadingZeros g.rowPresenceFlags 16) :=
      Nat.lt_pow_two_of_testBit _ hall
    have hlz : leadingZeros g.rowPresenceFlags 16 < 16 := by
      rcases Nat.lt_or_ge (leadingZeros g.rowPresenceFlags 16) 16 with h | h
      · exact h
      · rw [show 16 - leadingZeros g.rowPresenceFlags 16 = 0 by omega] at hlt
        omega
    have hge : 2 ^ (16 - leadingZeros g.rowPresenceFlags 16 - 1) ≤ g.rowPresenceFlags.toNat :=
      Nat.ge_two_pow_of_testBit (h2 hlz)
    have a : g.rowPresenceFlags.toNat.log2 < 16 - leadingZeros g.rowPresenceFlags 16 :=
      (Nat.log2_lt hne).2 hlt
    have b : 16 - leadingZeros g.rowPresenceFlags 16 - 1 ≤ g.rowPresenceFlags.toNat.log2 :=
      (Nat.le_log2 hne).2 hge
    omega

theorem slotsUsed_le (g : RowGroup) : g.slotsUsed ≤ 16 := by rw [slotsUsed_eq]; omega

theorem Present.lt {g : RowGroup} {s : Nat} (h : g.Present s) : s < g.slotsUsed := by
  rw [slotsUsed_eq]
  rcases Nat.lt_or_ge s (16 - leadingZeros g.rowPresenceFlags 16) with h' | h'
  · exact h'
  · unfold Present at h
    rcases Nat.lt_or_ge s 16 with h2 | h2
    · rw [(leadingZeros_spec g.rowPresenceFlags 16).1 s h' h2] at h; cases h
    · rw [testBit_of_ge _ h2] at h; cases h

/-- The highest slot in use is present. -/
theorem slotsUsed_spec (g : RowGroup) (h : 0 < g.slotsUsed) : g.Present (g.slotsUsed - 1) := by
  rw [slotsUsed_eq] at h ⊢
  exact (leadingZeros_spec g.rowPresenceFlags 16).2 (by omega)

theorem presentFrom_eq (flags : UInt16) (i : Nat) (l : List UInt16) :
    presentFrom flags i l = (List.range l.length).filterMap fun s =>
      if flags.toNat.testBit (i + s) = true then some (l.getD s 0) else none := by
  induction l generalizing i with
  | nil => rfl
  | cons o os ih =>
    rw [presentFrom, List.length_cons, List.range_succ_eq_map, List.filterMap_cons, List.filterMap_map]
    have : (fun s => if flags.toNat.testBit (i + s) = true then some ((o :: os).getD s 0) else none) ∘ Nat.succ
        = fun s => if flags.toNat.testBit (i + 1 + s) = true then some (os.getD s 0) else none := by
      funext s
      simp [Nat.add_right_comm, Nat.add_assoc]
    rw [this, ← ih (i + 1)]
    simp only [Nat.add_zero, List.getD_cons_zero]
    split <;> simp

theorem presentRowsOffsets_eq (g : RowGroup) (h : g.rowOffsets.length = 16) :
    g.presentRowsOffsets = g.present := by
  unfold presentRowsOffsets present
  rw [presentFrom_eq, List.length_reverse, h]
  apply filterMap_congr'
  intro s hs
  have hs : s < 16 := by simpa using hs
  simp only [Nat.zero_add]
  have e : g.rowOffsets.reverse.getD s 0 = g.slot s := by
    unfold slot
    rw [List.getD_eq_getElem?_getD, List.getD_eq_getElem?_getD, List.getElem?_reverse (by omega), h]
  rw [e]
  rfl

theorem Same.refl (g : RowGroup) : g.Same g := ⟨rfl, rfl, fun _ _ => rfl⟩

theorem Same.present {g g' : RowGroup} (h : g.Same g') : g'.present = g.present := by
  obtain ⟨h1, -, h3⟩ := h
  unfold RowGroup.present
  apply filterMap_congr'
  intro s _
  by_cases hp : g.Present s
  · have hp' : g'.Present s := by unfold Present; rw [h1]; exact hp
    rw [if_pos hp, if_pos hp', h3 s hp.lt]
  · have hp' : ¬ g'.Present s := by unfold Present; rw [h1]; exact hp
    rw [if_neg hp, if_neg hp']

/-- The writes of one row group that ends at `e`. -/
def patches (e : Nat) (g : RowGroup) : List Patch :=
  [⟨e - 4 - 2 * g.slotsUsed, (g.rowOffsets.drop (16 - g.slotsUsed)).flatMap encU16⟩,
    ⟨e - 4, encU16 g.rowPresenceFlags⟩, ⟨e - 2, encU16 g.unknown⟩]

theorem write_ok {g : RowGroup} (hl : g.rowOffsets.length = 16) {e : Nat} (he : 36 ≤ e) :
    g.write e = .ok ((), e - 36, g.patches e) := by
  have hs := g.slotsUsed_eq
  have hle := leadingZeros_le g.rowPresenceFlags 16
  have hlen : ((g.rowOffsets.drop (16 - g.slotsUsed)).flatMap encU16).length = 2 * g.slotsUsed := by
    rw [flatMap_encU16_length, List.length_drop, hl]; omega
  unfold write
  unfold patches
  rw [show [⟨e - 4 - 2 * g.slotsUsed, (g.rowOffsets.drop (16 - g.slotsUsed)).flatMap encU16⟩,
    ⟨e - 4, encU16 g.rowPresenceFlags⟩, ⟨e - 2, encU16 g.unknown⟩] =
    ([] : List Patch) ++ ([⟨e - 4 - 2 * g.slotsUsed, (g.rowOffsets.drop (16 - g.slotsUsed)).flatMap encU16⟩] ++
      ([⟨e - 4, encU16 g.rowPresenceFlags⟩] ++ ([⟨e - 2, encU16 g.unknown⟩] ++ []))) from rfl]
  refine Wr.bind_of_ok (Wr.seekBy_neg (k := 36) he) ?_
  have hw : g.writeRowOffsets (e - 36) = .ok ((), e - 4,
      [] ++ [⟨e - 4 - 2 * g.slotsUsed, (g.rowOffsets.drop (16 - g.slotsUsed)).flatMap encU16⟩]) := by
    unfold writeRowOffsets
    refine Wr.bind_of_ok (Wr.seekBy_nat _ _) ?_
    rw [show leadingZeros g.rowPresenceFlags 16 = 16 - g.slotsUsed by omega]
    rw [Wr.emit_def, hlen]
    have := g.slotsUsed_le
    rw [show e - 36 + (16 - g.slotsUsed) * 2 = e - 4 - 2 * g.slotsUsed by omega]
    rw [show e - 4 - 2 * g.slotsUsed + 2 * g.slotsUsed = e - 4 by omega]
  refine Wr.bind_of_ok hw ?_
  refine Wr.bind_of_ok (Wr.emit_def _ _) ?_
  rw [encU16_length, show e - 4 + 2 = e - 2 by omega]
  refine Wr.bind_of_ok (Wr.emit_def _ _) ?_
  rw [encU16_length, show e - 2 + 2 = e by omega]
  exact Wr.seekBy_neg (k := 36) he

theorem write_err {g : RowGroup} {e : Nat} (he : e < 36) : g.write e = .err .io := by
  unfold write
  rw [Wr.bind_def, show Wr.seekBy (-36) e = .err .io from Wr.seekBy_neg_err (k := 36) he]

theorem patches_within {g : RowGroup} (hl : g.rowOffsets.length = 16) {e : Nat} (he : 36 ≤ e) :
    PatchesWithin (g.patches e) (e - 4 - 2 * g.slotsUsed) e := by
  have hlen : ((g.rowOffsets.drop (16 - g.slotsUsed)).flatMap encU16).length = 2 * g.slotsUsed := by
    rw [flatMap_encU16_length, List.length_drop, hl]
    have := g.slotsUsed_le; omega
  have hle := g.slotsUsed_le
  intro q hq
  simp only [patches, List.mem_cons, List.not_mem_nil, or_false] at hq
  rcases hq with rfl | rfl | rfl
  · simp only [hlen]; omega
  · simp only [encU16_length]; omega
  · simp only [encU16_length]; omega

theorem patches_disjoint {g : RowGroup} (hl : g.rowOffsets.length = 16) {e : Nat} (he : 36 ≤ e) :
    PatchesDisjoint (g.patches e) := by
  have hlen : ((g.rowOffsets.drop (16 - g.slotsUsed)).flatMap encU16).length = 2 * g.slotsUsed := by
    rw [flatMap_encU16_length, List.length_drop, hl]
    have := g.slotsUsed_le; omega
  have hle := g.slotsUsed_le
  unfold PatchesDisjoint patches
  simp only [List.pairwise_cons, List.mem_cons, List.not_mem_nil, or_false, forall_eq_or_imp, forall_eq,
    DisjointRanges, hlen, encU16_length]
  refine ⟨⟨?_, ?_⟩, ?_, ?_, ?_⟩
  · left; omega
  · left; omega
  · left; omega
  · intro a h; cases h
  · exact List.Pairwise.nil

/-- Reading 16 numbers. -/
theorem many_u16_of_bound {img : Bytes} {p : Nat} (n : Nat) (h : p + 2 * n ≤ img.length) :
    ∃ l, Rd.many Rd.u16 n img p = .ok (l, p + 2 * n) ∧ l.length = n ∧ HasAt img p (l.flatMap encU16) := by
  induction n generalizing p with
  | zero => exact ⟨[], rfl, rfl, HasAt.nil _ _⟩
  | succ n ih =>
    obtain ⟨l, h1, h2, h3⟩ := ih (p := p + 2) (by omega)
    have hb : Rd.bytes 2 img p = .ok ((img.drop p).take 2, p + 2) :=
      bytes_eq_ok.2 ⟨by simp; omega, hasAt_take_drop _ _ _, rfl⟩
    obtain ⟨x, hx⟩ : ∃ x, Rd.u16 img p = .ok (x, p + 2) := by
      unfold Rd.u16
      exact ⟨_, by rw [bind_of_ok hb]; rfl⟩
    obtain ⟨bs, hh, -, rfl⟩ := Inv.u16 _ _ _ _ hx
    refine ⟨x :: l, ?_, by simp [h2], ?_⟩
    · rw [Rd.many, bind_of_ok hx, bind_of_ok h1]
      simp only [pure_def]
      congr 2
      omega
    · rw [List.flatMap_cons, HasAt.append_iff]
      exact ⟨hh, by rw [encU16_length]; exact h3⟩

theorem flatMap_encU16_inj {l l' : List UInt16} (h : l.flatMap encU16 = l'.flatMap encU16) : l = l' := by
  induction l generalizing l' with
  | nil =>
    cases l' with
    | nil => rfl
    | cons b l' =>
      have := congrArg List.length h
      simp only [flatMap_encU16_length] at this
      simp at this
  | cons a l ih =>
    cases l' with
    | nil =>
      have := congrArg List.length h
      simp only [flatMap_encU16_length] at this
      simp at this
    | cons b l' =>
      rw [List.flatMap_cons, List.flatMap_cons] at h
      obtain ⟨h1, h2⟩ := List.append_inj h (by simp)
      have hx := RT.u16 a _ _ (hasAt_self (encU16 a))
      rw [h1, RT.u16 b _ _ (hasAt_self (encU16 b))] at hx
      simp only [Res.ok.injEq, Prod.mk.injEq] at hx
      rw [hx.1, ih h2]

theorem same_of_drop {g g' : RowGroup} (hl : g.rowOffsets.length = 16) (hl' : g'.rowOffsets.length = 16)
    (hf : g'.rowPresenceFlags = g.rowPresenceFlags) (hu : g'.unknown = g.unknown)
    (hd : g'.rowOffsets.drop (16 - g.slotsUsed) = g.rowOffsets.drop (16 - g.slotsUsed)) : g.Same g' := by
  refine ⟨hf, hu, fun s hs => ?_⟩
  have hle := g.slotsUsed_le
  have := congrArg (fun l => l[15 - s - (16 - g.slotsUsed)]?) hd
  simp only [List.getElem?_drop] at this
  rw [show 16 - g.slotsUsed + (15 - s - (16 - g.slotsUsed)) = 15 - s by omega] at this
  unfold slot
  rw [List.getD_eq_getElem?_getD, List.getD_eq_getElem?_getD, this]

theorem read_of_contains {g : RowGroup} (hl : g.rowOffsets.length = 16) {e : Nat} (he : 36 ≤ e)
    {img : Bytes} (h : Contains img (g.patches e)) :
    ∃ g', RowGroup.read img e = .ok (g', e - 36) ∧ g.Same g' ∧ g'.rowOffsets.length = 16 := by
  unfold patches at h
  rw [Contains.cons_iff, Contains.cons_iff, Contains.cons_iff] at h
  obtain ⟨h1, h2, h3, -⟩ := h
  simp only at h1 h2 h3
  have hle := g.slotsUsed_le
  have hb := h3.bound (by intro h0; have := congrArg List.length h0; simp at this)
  rw [encU16_length] at hb
  obtain ⟨l, hr, hll, hh⟩ := many_u16_of_bound (img := img) (p := e - 36) 16 (by omega)
  have hsplit : l = l.take (16 - g.slotsUsed) ++ l.drop (16 - g.slotsUsed) := (List.take_append_drop _ _).symm
  rw [hsplit, List.flatMap_append, HasAt.append_iff, flatMap_encU16_length, List.length_take, hll] at hh
  have hd : l.drop (16 - g.slotsUsed) = g.rowOffsets.drop (16 - g.slotsUsed) := by
    apply flatMap_encU16_inj
    have h4 := hh.2
    rw [show e - 36 + min (16 - g.slotsUsed) 16 * 2 = e - 4 - 2 * g.slotsUsed by omega] at h4
    refine h4.eq_of_length h1 ?_
    rw [flatMap_encU16_length, flatMap_encU16_length, List.length_drop, List.length_drop, hll, hl]
  refine ⟨⟨l, g.rowPresenceFlags, g.unknown⟩, ?_, ?_, hll⟩
  · unfold RowGroup.read
    rw [bind_of_ok (show Rd.seekBy (-36) img e = _ from Rd.seekBy_neg (k := 36) img he), bind_of_ok hr,
      show e - 36 + 2 * 16 = e - 4 by omega, bind_of_ok (RT.u16 _ _ _ h2), encU16_length,
      show e - 4 + 2 = e - 2 by omega, bind_of_ok (RT.u16 _ _ _ h3), encU16_length,
      show e - 2 + 2 = e by omega,
      bind_of_ok (show Rd.seekBy (-36) img e = _ from Rd.seekBy_neg (k := 36) img he)]
    rfl
  · exact same_of_drop hl hll rfl rfl hd

theorem read_inv {img : Bytes} {e q : Nat} {g : RowGroup} (h : RowGroup.read img e = .ok (g, q)) :
    36 ≤ e ∧ q = e - 36 ∧ g.rowOffsets.length = 16 ∧ Contains img (g.patches e) := by
  unfold RowGroup.read at h
  have he : 36 ≤ e := by
    rcases Nat.lt_or_ge e 36 with h' | h'
    · rw [bind_of_err (show Rd.seekBy (-36) img e = _ from Rd.seekBy_neg_err (k := 36) img h')] at h
      cases h
    · exact h'
  rw [bind_of_ok (show Rd.seekBy (-36) img e = _ from Rd.seekBy_neg (k := 36) img he)] at h
  obtain ⟨l, p1, h1, h⟩ := bind_eq_ok.1 h
  obtain ⟨bs, hb, rfl, rfl, hll⟩ := Inv.many Inv.u16 encU16 (fun a bs h => h) 16 _ _ _ _ h1
  rw [flatMap_encU16_length, hll, show e - 36 + 16 * 2 = e - 4 by omega] at h
  obtain ⟨f, p2, h2, h⟩ := bind_eq_ok.1 h
  obtain ⟨bs, hb2, rfl, rfl⟩ := Inv.u16 _ _ _ _ h2
  rw [encU16_length, show e - 4 + 2 = e - 2 by omega] at h
  obtain ⟨u, p3, h3, h⟩ := bind_eq_ok.1 h
  obtain ⟨bs, hb3, rfl, rfl⟩ := Inv.u16 _ _ _ _ h3
  rw [encU16_length, show e - 2 + 2 = e by omega,
    bind_of_ok (show Rd.seekBy (-36) img e = _ from Rd.seekBy_neg (k := 36) img he), pure_eq_ok] at h
  obtain ⟨rfl, rfl⟩ := h
  refine ⟨he, rfl, hll, ?_⟩
  unfold patches
  rw [Contains.cons_iff, Contains.cons_iff, Contains.cons_iff]
  refine ⟨?_, hb2, hb3, Contains.nil⟩
  have hle := (RowGroup.mk l f u).slotsUsed_le
  generalize (RowGroup.mk l f u).slotsUsed = k at hle
  simp only
  have hsplit : l = l.take (16 - k) ++ l.drop (16 - k) := (List.take_append_drop _ _).symm
  rw [hsplit, List.flatMap_append, HasAt.append_iff, flatMap_encU16_length, List.length_take, hll] at hb
  have h4 := hb.2
  rw [show e - 36 + min (16 - k) 16 * 2 = e - 4 - 2 * k by omega] at h4
  exact h4

theorem np : Rd.NP RowGroup.read :=
  Rd.NP.bind (Rd.NP.seekBy _) fun _ => Rd.NP.bind (Rd.NP.many Rd.NP.u16 _) fun _ => Rd.NP.bind Rd.NP.u16 fun _ =>
    Rd.NP.bind Rd.NP.u16 fun _ => Rd.NP.bind (Rd.NP.seekBy _) fun _ => Rd.NP.pure _

/-! ### Several groups, backwards from `e` -/

/-- The writes of the groups, the first one ending at `e`. -/
def allPatches : Nat → List RowGroup → List Patch
  | _, [] => []
  | e, g :: gs => g.patches e ++ allPatches (e - 36) gs

theorem writeAll_ok {gs : List RowGroup} (hl : ∀ g ∈ gs, g.rowOffsets.length = 16) {e : Nat}
    (he : 36 * gs.length ≤ e) :
    Wr.forEach RowGroup.write gs e = .ok ((), e - 36 * gs.length, allPatches e gs) := by
  induction gs generalizing e with
  | nil => rfl
  | cons g gs ih =>
    rw [List.length_cons] at he ⊢
    refine Wr.bind_of_ok (write_ok (hl g (List.mem_cons_self ..)) (by omega)) ?_
    rw [ih (fun x hx => hl x (List.mem_cons_of_mem _ hx)) (by omega)]
    rw [show e - 36 - 36 * gs.length = e - 36 * (gs.length + 1) by omega]

theorem writeAll_eq_ok {gs : List RowGroup} (hl : ∀ g ∈ gs, g.rowOffsets.length = 16) {e q : Nat}
    {ps : List Patch} (h : Wr.forEach RowGroup.write gs e = .ok ((), q, ps)) :
    36 * gs.length ≤ e ∧ q = e - 36 * gs.length ∧ ps = allPatches e gs := by
  have he : 36 * gs.length ≤ e := by
    induction gs generalizing e q ps with
    | nil => simp
    | cons g gs ih =>
      obtain ⟨_, p1, ps1, ps2, h1, h2, -⟩ := Wr.bind_eq_ok.1 h
      rcases Nat.lt_or_ge e 36 with h' | h'
      · rw [write_err h'] at h1; cases h1
      · rw [write_ok (hl g (List.mem_cons_self ..)) h'] at h1
        simp only [Res.ok.injEq, Prod.mk.injEq] at h1
        obtain ⟨-, rfl, -⟩ := h1
        have := ih (fun x hx => hl x (List.mem_cons_of_mem _ hx)) h2
        rw [List.length_cons]; omega
  rw [writeAll_ok hl he] at h
  simp only [Res.ok.injEq, Prod.mk.injEq] at h
  exact ⟨he, h.2.1.symm, h.2.2.symm⟩

theorem allPatches_within {gs : List RowGroup} (hl : ∀ g ∈ gs, g.rowOffsets.length = 16) {e lo : Nat}
    (he : 36 * gs.length ≤ e) (hf : ∀ k g, gs[k]? = some g → lo + 36 * k + 4 + 2 * g.slotsUsed ≤ e) :
    PatchesWithin (allPatches e gs) lo e := by
  induction gs generalizing e with
  | nil => exact PatchesWithin.nil
  | cons g gs ih =>
    rw [List.length_cons] at he
    have h0 := hf 0 g rfl
    refine PatchesWithin.append ((patches_within (hl g (List.mem_cons_self ..)) (by omega)).mono (by omega)
      (Nat.le_refl _)) ?_
    refine (ih (fun x hx => hl x (List.mem_cons_of_mem _ hx)) (by omega) fun k x hx => ?_).mono
      (Nat.le_refl _) (by omega)
    have := hf (k + 1) x (by simpa using hx)
    omega

theorem allPatches_compatible {gs : List RowGroup} (hl : ∀ g ∈ gs, g.rowOffsets.length = 16) {e : Nat}
    (he : 36 * gs.length ≤ e) : Compatible (allPatches e gs) := by
  induction gs generalizing e with
  | nil => exact Compatible.nil
  | cons g gs ih =>
    rw [List.length_cons] at he
    have hg := hl g (List.mem_cons_self ..)
    have hgs : ∀ x ∈ gs, x.rowOffsets.length = 16 := fun x hx => hl x (List.mem_cons_of_mem _ hx)
    have hle := g.slotsUsed_le
    refine (patches_disjoint hg (by omega)).compatible.append_ranges (ih hgs (by omega))
      (patches_within hg (by omega)) (c := 0) (d := e - 36) (allPatches_within hgs (by omega) ?_)
      (Or.inr (by omega))
    intro k x hx
    have hk : k < gs.length := by
      rcases Nat.lt_or_ge k gs.length with h | h
      · exact h
      · rw [List.getElem?_eq_none h] at hx; cases hx
    have := x.slotsUsed_le
    omega

theorem readAll_of_contains {gs : List RowGroup} (hl : ∀ g ∈ gs, g.rowOffsets.length = 16) {e : Nat}
    (he : 36 * gs.length ≤ e) {img : Bytes} (h : Contains img (allPatches e gs)) :
    ∃ gs', Rd.many RowGroup.read gs.length img e = .ok (gs', e - 36 * gs.length) ∧
      Pointwise Same gs gs' ∧ ∀ g ∈ gs', g.rowOffsets.length = 16 := by
  induction gs generalizing e with
  | nil => exact ⟨[], rfl, .nil, fun g hg => by cases hg⟩
  | cons g gs ih =>
    rw [List.length_cons] at he ⊢
    rw [allPatches, Contains.append_iff] at h
    obtain ⟨g', h1, h2, h2'⟩ := read_of_contains (hl g (List.mem_cons_self ..)) (by omega) h.1
    obtain ⟨gs', h3, h4, h4'⟩ := ih (fun x hx => hl x (List.mem_cons_of_mem _ hx)) (by omega) h.2
    refine ⟨g' :: gs', ?_, .cons h2 h4, ?_⟩
    · rw [Rd.many, bind_of_ok h1, bind_of_ok h3, show e - 36 - 36 * gs.length = e - 36 * (gs.length + 1) by omega]
      rfl
    · intro x hx
      rcases List.mem_cons.1 hx with rfl | hx
      · exact h2'
      · exact h4' x hx

theorem readAll_inv {n : Nat} {img : Bytes} {e q : Nat} {gs : List RowGroup}
    (h : Rd.many RowGroup.read n img e = .ok (gs, q)) :
    gs.length = n ∧ 36 * n ≤ e ∧ q = e - 36 * n ∧ (∀ g ∈ gs, g.rowOffsets.length = 16) ∧
      Contains img (allPatches e gs) := by
  induction n generalizing e gs with
  | zero =>
    rw [Rd.many, pure_eq_ok] at h
    obtain ⟨rfl, rfl⟩ := h
    exact ⟨rfl, by omega, rfl, (fun g hg => by cases hg), Contains.nil⟩
  | succ n ih =>
    rw [Rd.many] at h
    obtain ⟨g, p1, h1, h⟩ := bind_eq_ok.1 h
    obtain ⟨gs', p2, h2, h⟩ := bind_eq_ok.1 h
    rw [pure_eq_ok] at h
    obtain ⟨rfl, rfl⟩ := h
    obtain ⟨a1, rfl, a3, a4⟩ := read_inv h1
    obtain ⟨b1, b2, b3, b4, b5⟩ := ih h2
    refine ⟨by simp [b1], by omega, by omega, ?_, ?_⟩
    · intro x hx
      rcases List.mem_cons.1 hx with rfl | hx
      · exact a3
      · exact b4 x hx
    · rw [allPatches, Contains.append_iff]
      exact ⟨a4, b5⟩

end RowGroup

/-! ## Row maps -/

namespace RowMap

theorem mem_insert {k : UInt16} {v : Row} {m : RowMap} (hs : m.Sorted) {x : UInt16 × Row} :
    x ∈ insert k v m ↔ x = (k, v) ∨ (x ∈ m ∧ x.1 ≠ k) := by
  induction m with
  | nil => simp [insert]
  | cons y m ih =>
    obtain ⟨k', v'⟩ := y
    obtain ⟨h1, h2⟩ := List.pairwise_cons.1 hs
    unfold insert
    split
    · rename_i hlt
      have hall : ∀ y ∈ (k', v') :: m, y.1 ≠ k := by
        intro y hy
        rcases List.mem_cons.1 hy with rfl | hy
        · exact fun h => absurd (h ▸ hlt) (UInt16.lt_irrefl _)
        · have := UInt16.lt_trans hlt (h1 y hy)
          exact fun h => absurd (h ▸ this) (UInt16.lt_irrefl _)
      rw [List.mem_cons]
      constructor
      · rintro (h | h)
        · exact Or.inl h
        · exact Or.inr ⟨h, hall x h⟩
      · rintro (h | h)
        · exact Or.inl h
        · exact Or.inr h.1
    · split
      · rename_i hlt heq
        subst heq
        have hall : ∀ y ∈ m, y.1 ≠ k := fun y hy h => absurd (h ▸ h1 y hy) (UInt16.lt_irrefl _)
        rw [List.mem_cons, List.mem_cons]
        constructor
        · rintro (h | h)
          · exact Or.inl h
          · exact Or.inr ⟨Or.inr h, hall x h⟩
        · rintro (h | ⟨h | h, hne⟩)
          · exact Or.inl h
          · subst h; exact absurd rfl hne
          · exact Or.inr h
      · rename_i hlt heq
        rw [List.mem_cons, ih h2, List.mem_cons]
        constructor
        · rintro (h | h | h)
          · subst h; exact Or.inr ⟨Or.inl rfl, fun h => heq h.symm⟩
          · exact Or.inl h
          · exact Or.inr ⟨Or.inr h.1, h.2⟩
        · rintro (h | ⟨h | h, hne⟩)
          · exact Or.inr (Or.inl h)
          · exact Or.inl h
          · exact Or.inr (Or.inr ⟨h, hne⟩)

theorem sorted_insert {k : UInt16} {v : Row} {m : RowMap} (hs : m.Sorted) : Sorted (insert k v m) := by
  induction m with
  | nil => exact List.pairwise_singleton _ _
  | cons y m ih =>
    obtain ⟨k', v'⟩ := y
    have hs' := hs
    obtain ⟨h1, h2⟩ := List.pairwise_cons.1 hs
    unfold insert
    split
    · rename_i hlt
      refine List.pairwise_cons.2 ⟨?_, hs'⟩
      intro x hx
      rcases List.mem_cons.1 hx with rfl | hx
      · exact hlt
      · exact UInt16.lt_trans hlt (h1 x hx)
    · split
      · rename_i hlt heq
        subst heq
        exact List.pairwise_cons.2 ⟨h1, h2⟩
      · rename_i hlt heq
        refine List.pairwise_cons.2 ⟨?_, ih h2⟩
        intro x hx
        rcases (mem_insert h2).1 hx with rfl | hx
        · rcases Nat.lt_trichotomy k.toNat k'.toNat with h | h | h
          · exact absurd (UInt16.lt_iff_toNat_lt.2 h) hlt
          · exact absurd (UInt16.toNat_inj.1 h) heq
          · exact UInt16.lt_iff_toNat_lt.2 h
        · exact h1 x hx.1

theorem Sorted.inj {m : RowMap} (hs : m.Sorted) {x y : UInt16 × Row} (hx : x ∈ m) (hy : y ∈ m)
    (h : x.1 = y.1) : x = y := by
  induction m with
  | nil => cases hx
  | cons z m ih =>
    obtain ⟨h1, h2⟩ := List.pairwise_cons.1 hs
    rcases List.mem_cons.1 hx with ex | mx <;> rcases List.mem_cons.1 hy with ey | my
    · rw [ex, ey]
    · have := h1 y my
      rw [← ex, h] at this
      exact absurd this (UInt16.lt_irrefl _)
    · have := h1 x mx
      rw [← ey, h] at this
      exact absurd this (UInt16.lt_irrefl _)
    · exact ih h2 mx my

/-- Sorted maps with the same entries are equal. -/
theorem Sorted.ext {m m' : RowMap} (hs : m.Sorted) (hs' : m'.Sorted) (h : ∀ x, x ∈ m ↔ x ∈ m') :
    m = m' := by
  induction m generalizing m' with
  | nil =>
    cases m' with
    | nil => rfl
    | cons y m' => exact absurd ((h y).2 (List.mem_cons_self ..)) (by simp)
  | cons x m ih =>
    cases m' with
    | nil => exact absurd ((h x).1 (List.mem_cons_self ..)) (by simp)
    | cons y m' =>
      obtain ⟨h1, h2⟩ := List.pairwise_cons.1 hs
      obtain ⟨h1', h2'⟩ := List.pairwise_cons.1 hs'
      have hxy : x = y := by
        rcases List.mem_cons.1 ((h x).1 (List.mem_cons_self ..)) with h3 | h3
        · exact h3
        · rcases List.mem_cons.1 ((h y).2 (List.mem_cons_self ..)) with h4 | h4
          · exact h4.symm
          · exact absurd (UInt16.lt_trans (h1 y h4) (h1' x h3)) (UInt16.lt_irrefl _)
      subst hxy
      congr 1
      apply ih h2 h2'
      intro z
      have hz := h z
      rw [List.mem_cons, List.mem_cons] at hz
      constructor
      · intro hm
        rcases hz.1 (Or.inr hm) with rfl | h3
        · exact absurd (h1 z hm) (UInt16.lt_irrefl _)
        · exact h3
      · intro hm
        rcases hz.2 (Or.inr hm) with rfl | h3
        · exact absurd (h1' z hm) (UInt16.lt_irrefl _)
        · exact h3

theorem foldl_spec (l : List (UInt16 × Row)) {m : RowMap} (hs : m.Sorted)
    (hf : ∀ x ∈ l, ∀ y ∈ l, x.1 = y.1 → x = y) (hf' : ∀ x ∈ l, ∀ y ∈ m, x.1 = y.1 → x = y) :
    Sorted (l.foldl (fun m x => insert x.1 x.2 m) m) ∧
      ∀ x, x ∈ l.foldl (fun m x => insert x.1 x.2 m) m ↔ x ∈ m ∨ x ∈ l := by
  induction l generalizing m with
  | nil => exact ⟨hs, fun x => by simp⟩
  | cons a l ih =>
    have hmem : ∀ x, x ∈ insert a.1 a.2 m ↔ x = a ∨ x ∈ m := by
      intro x
      rw [mem_insert hs]
      constructor
      · rintro (h | h)
        · exact Or.inl h
        · exact Or.inr h.1
      · rintro (h | h)
        · exact Or.inl h
        · by_cases he : x.1 = a.1
          · exact Or.inl (hf' a (List.mem_cons_self ..) x h he.symm).symm
          · exact Or.inr ⟨h, he⟩
    obtain ⟨h1, h2⟩ := ih (m := insert a.1 a.2 m) (sorted_insert hs)
      (fun x hx y hy => hf x (List.mem_cons_of_mem _ hx) y (List.mem_cons_of_mem _ hy))
      (fun x hx y hy he => by
        rcases (hmem y).1 hy with rfl | hy
        · exact hf x (List.mem_cons_of_mem _ hx) y (List.mem_cons_self ..) he
        · exact hf' x (List.mem_cons_of_mem _ hx) y hy he)
    refine ⟨h1, fun x => ?_⟩
    rw [List.foldl_cons, h2 x, hmem x, List.mem_cons]
    constructor
    · rintro ((h | h) | h)
      · exact Or.inr (Or.inl h)
      · exact Or.inl h
      · exact Or.inr (Or.inr h)
    · rintro (h | h | h)
      · exact Or.inl (Or.inr h)
      · exact Or.inl (Or.inl h)
      · exact Or.inr h

theorem sorted_nil : Sorted [] := List.Pairwise.nil

/-- Collecting pairs that do not contradict each other: a map with exactly these pairs. -/
theorem ofList_spec {l : List (UInt16 × Row)} (hf : ∀ x ∈ l, ∀ y ∈ l, x.1 = y.1 → x = y) :
    Sorted (ofList l) ∧ ∀ x, x ∈ ofList l ↔ x ∈ l := by
  obtain ⟨h1, h2⟩ := foldl_spec l sorted_nil hf (fun _ _ y hy => by cases hy)
  exact ⟨h1, fun x => by rw [ofList, h2 x]; simp⟩

theorem get?_eq_none {m : RowMap} {k : UInt16} : get? m k = none ↔ ∀ x ∈ m, x.1 ≠ k := by
  unfold get?
  induction m with
  | nil => simp
  | cons y m ih =>
    rw [List.lookup_cons]
    by_cases h : k = y.1
    · subst h
      simp
    · have hb : (k == y.1) = false := by simpa using h
      rw [hb]
      simp only [ih, List.mem_cons, forall_eq_or_imp]
      exact ⟨fun h' => ⟨fun h2 => h h2.symm, h'⟩, fun h' => h'.2⟩

end RowMap

end Rekordcrate
