import Mathlib.RingTheory.Coprime.Lemmas
import Verif.Spec.Detect
import Verif.Props.Setting

/-! # C100: what the checksum of setting files detects -/

namespace Rekordcrate
open Polynomial

/-! ## Numbers and polynomials -/

theorem bytesNumber_lt (bs : Bytes) : bytesNumber bs < 2 ^ (8 * bs.length) := by
  induction bs with
  | nil => decide
  | cons b bs ih =>
    have hb := b.toNat_lt
    have e : (2 : Nat) ^ (8 * (b :: bs).length) = 256 * 256 ^ bs.length := by
      rw [List.length_cons, Nat.pow_mul, Nat.pow_succ, Nat.mul_comm]
    have e' : (2 : Nat) ^ (8 * bs.length) = 256 ^ bs.length := by rw [Nat.pow_mul]
    rw [e, bytesNumber]
    rw [e'] at ih
    have : b.toNat * 256 ^ bs.length ≤ 255 * 256 ^ bs.length := Nat.mul_le_mul_right _ (by omega)
    omega

theorem bytesNumber_append (a b : Bytes) :
    bytesNumber (a ++ b) = bytesNumber a * 256 ^ b.length + bytesNumber b := by
  induction a with
  | nil => simp [bytesNumber]
  | cons x a ih =>
    rw [List.cons_append, bytesNumber, bytesNumber, ih, List.length_append, Nat.pow_add]
    ring

theorem bytesNumber_inj {a b : Bytes} (hl : a.length = b.length) (h : bytesNumber a = bytesNumber b) : a = b := by
  induction a generalizing b with
  | nil =>
    cases b with
    | nil => rfl
    | cons y b => cases hl
  | cons x a ih =>
    cases b with
    | nil => cases hl
    | cons y b =>
      rw [List.length_cons, List.length_cons, Nat.add_right_cancel_iff] at hl
      have ha := bytesNumber_lt a
      have hb := bytesNumber_lt b
      rw [Nat.pow_mul] at ha hb
      rw [bytesNumber, bytesNumber, ← hl] at h
      rw [← hl] at hb
      have ha : bytesNumber a < 256 ^ a.length := ha
      have hb : bytesNumber b < 256 ^ a.length := hb
      have hxy : x.toNat = y.toNat := by
        have e1 : (x.toNat * 256 ^ a.length + bytesNumber a) / 256 ^ a.length = x.toNat := by
          rw [Nat.mul_comm, Nat.mul_add_div (by positivity), Nat.div_eq_of_lt ha, Nat.add_zero]
        have e2 : (y.toNat * 256 ^ a.length + bytesNumber b) / 256 ^ a.length = y.toNat := by
          rw [Nat.mul_comm, Nat.mul_add_div (by positivity), Nat.div_eq_of_lt hb, Nat.add_zero]
        rw [← e1, ← e2, h]
      rw [hxy, Nat.add_left_cancel_iff] at h
      rw [UInt8.toNat_inj.1 hxy, ih hl h]

theorem bitPoly_add_mul (m k a b : Nat) (hb : b < 2 ^ k) :
    bitPoly (m + k) (a * 2 ^ k + b) = bitPoly m a * X ^ k + bitPoly k b := by
  unfold bitPoly
  rw [Nat.add_comm m k, Finset.sum_range_add, add_comm, Finset.sum_mul]
  congr 1
  · refine Finset.sum_congr rfl fun i _ => ?_
    have e : (a * 2 ^ k + b).testBit (k + i) = a.testBit i := by
      rw [Nat.mul_comm, Nat.testBit_two_pow_mul_add _ hb, if_neg (by omega), Nat.add_sub_cancel_left]
    rw [e]
    split
    · rw [pow_add, mul_comm]
    · simp
  · refine Finset.sum_congr rfl fun i hi => ?_
    rw [Nat.mul_comm, Nat.testBit_two_pow_mul_add _ hb, if_pos (Finset.mem_range.1 hi)]

theorem bytesPoly_eq (bs : Bytes) : bytesPoly bs = bitPoly (8 * bs.length) (bytesNumber bs) := by
  induction bs with
  | nil => rw [bytesPoly, bytesNumber, bitPoly_zero]
  | cons b bs ih =>
    rw [bytesPoly, bytesNumber, ih, List.length_cons, Nat.mul_add, Nat.mul_one, Nat.add_comm,
      show (256 : Nat) = 2 ^ 8 from rfl, ← Nat.pow_mul, bitPoly_add_mul _ _ _ _ (bytesNumber_lt bs)]

/-- The difference of the polynomials has the changed bits as its terms. -/
theorem bytesPoly_changed {a b : Bytes} (hl : a.length = b.length) :
    bytesPoly a - bytesPoly b = ∑ i ∈ changedBits a b, X ^ i := by
  rw [sub_eq_add_neg, CharTwo.neg_eq, bytesPoly_eq, bytesPoly_eq, ← hl, ← bitPoly_xor, changedBits, Finset.sum_filter]
  rfl

/-! ## Sequences that carry their checksum -/

/-- The bytes with their checksum behind them are divided by the generator. -/
theorem crc_dvd {bs : Bytes} {c : UInt16} (h : IsCrc16Xmodem bs c) : crcPoly ∣ bytesPoly (bs ++ beEnc 2 c.toNat) := by
  have hc := c.toNat_lt
  have hn : bytesNumber (beEnc 2 c.toNat) = c.toNat := by
    unfold beEnc leEnc leEnc leEnc
    simp only [List.reverse_cons, List.reverse_nil, List.nil_append, List.cons_append, bytesNumber, List.length_cons,
      List.length_nil, UInt8.toNat_ofNat']
    omega
  have hlen : (beEnc 2 c.toNat).length = 2 := by simp [beEnc, leEnc]
  have e : bytesPoly (bs ++ beEnc 2 c.toNat) = bytesPoly bs * X ^ 16 + bitPoly 16 c.toNat := by
    rw [bytesPoly_eq, bytesNumber_append, hn, List.length_append, hlen, Nat.mul_add,
      show (256 : Nat) ^ 2 = 2 ^ (8 * 2) from rfl, bitPoly_add_mul _ _ _ _ hc, bytesPoly_eq]
  rw [e]
  unfold IsCrc16Xmodem at h
  rw [h, ← CharTwo.sub_eq_add]
  exact (modByMonic_eq_zero_iff_dvd crcPoly_monic).1 (by
    rw [sub_modByMonic, (modByMonic_eq_self_iff crcPoly_monic).2 (degree_modByMonic_lt _ crcPoly_monic), sub_self])

theorem crcPoly_coprime (k : Nat) : IsCoprime crcPoly (X ^ k) := by
  refine IsCoprime.pow_right ⟨1, -(X ^ 15 + X ^ 11 + X ^ 4), ?_⟩
  unfold crcPoly
  ring

theorem crc_small {e : (ZMod 2)[X]} (hd : e.degree < 16) (h : crcPoly ∣ e) : e = 0 := by
  have h1 : e %ₘ crcPoly = e := (modByMonic_eq_self_iff crcPoly_monic).2 (by rw [crcPoly_degree]; exact hd)
  rw [← h1]
  exact (modByMonic_eq_zero_iff_dvd crcPoly_monic).2 h

/-- The generator does not divide a polynomial of a smaller degree, shifted. -/
theorem crc_burst {e : (ZMod 2)[X]} {k : Nat} (hd : e.degree < 16) (h : crcPoly ∣ e * X ^ k) : e = 0 := by
  have h := (crcPoly_coprime k).dvd_of_dvd_mul_right h
  exact crc_small hd h

/-- An odd number of terms is not divided by the generator. -/
theorem crc_even {S : Finset Nat} (h : crcPoly ∣ ∑ i ∈ S, X ^ i) : Even S.card := by
  obtain ⟨q, hq⟩ := h
  have e := congrArg (eval 1) hq
  rw [eval_mul, eval_finsetSum] at e
  have h1 : eval 1 crcPoly = (0 : ZMod 2) := by
    unfold crcPoly
    simp
    decide
  rw [h1, zero_mul] at e
  simp only [eval_pow, eval_X, one_pow, Finset.sum_const, nsmul_eq_mul, mul_one] at e
  exact (ZMod.natCast_eq_zero_iff_even).1 e

/-- One bit step, on numbers. -/
def crcStep (s : Nat) : Nat := if 32768 ≤ s then (2 * s - 65536) ^^^ 0x1021 else 2 * s

/-- Computes the number before it is used; only for the speed of `crcApart_ok`. -/
def forced {α : Type} (n : Nat) (f : Nat → α) : α :=
  match n with
  | 0 => f 0
  | m + 1 => f (m + 1)

theorem forced_eq {α : Type} (n : Nat) (f : Nat → α) : forced n f = f n := by cases n <;> rfl

/-- `2 ^ k` bit steps. -/
def crcSteps : Nat → Nat → Nat
  | 0, s => crcStep s
  | k + 1, s => forced (crcSteps k s) (crcSteps k)

/-- None of the first `2 ^ k` values is 1. -/
def crcApart : Nat → Nat → Bool
  | 0, s => s != 1
  | k + 1, s => crcApart k s && forced (crcSteps k s) (crcApart k)

theorem crcSteps_eq (k s : Nat) : crcSteps k s = crcStep^[2 ^ k] s := by
  induction k generalizing s with
  | zero => rfl
  | succ k ih => rw [crcSteps, forced_eq, ih, ih, Nat.pow_succ, Nat.mul_two, Function.iterate_add_apply]

theorem crcApart_spec {k s : Nat} (h : crcApart k s = true) (d : Nat) (hd : d < 2 ^ k) : crcStep^[d] s ≠ 1 := by
  induction k generalizing s d with
  | zero =>
    have : d = 0 := by omega
    subst this
    simpa [crcApart] using h
  | succ k ih =>
    rw [crcApart, forced_eq, Bool.and_eq_true] at h
    by_cases hk : d < 2 ^ k
    · exact ih h.1 d hk
    · have := ih h.2 (d - 2 ^ k) (by rw [Nat.pow_succ] at hd; omega)
      rwa [crcSteps_eq, ← Function.iterate_add_apply, Nat.sub_add_cancel (by omega)] at this

theorem crcApart_ok : crcApart 14 2 = true := by decide +kernel

theorem crcStep_lt {s : Nat} (h : s < 65536) : crcStep s < 65536 := by
  unfold crcStep
  split
  · exact Nat.xor_lt_two_pow (n := 16) (by omega) (by decide)
  · omega

theorem crcStep_poly {s : Nat} (hs : s < 65536) : crcPoly ∣ X * bitPoly 16 s - bitPoly 16 (crcStep s) := by
  have h := crcBit_poly (UInt16.ofNat s)
  have e : (UInt16.ofNat s).toNat = s := by rw [UInt16.toNat_ofNat']; omega
  have e' : (crcBit (UInt16.ofNat s)).toNat = crcStep s := by
    have hsh : ((UInt16.ofNat s) <<< 1).toNat = 2 * s % 2 ^ 16 := by
      rw [UInt16.toNat_shiftLeft, e]; simp [Nat.shiftLeft_eq, Nat.mul_comm]
    unfold crcBit crcStep
    rw [e]
    by_cases h : 32768 ≤ s
    · rw [if_pos h, if_pos h, UInt16.toNat_xor, hsh, show 2 * s % 2 ^ 16 = 2 * s - 65536 by omega]
      rfl
    · rw [if_neg h, if_neg h, hsh, show 2 * s % 2 ^ 16 = 2 * s by omega]
  rw [e, e'] at h
  exact h

theorem crcSteps_poly (d : Nat) : crcStep^[d] 1 < 65536 ∧ crcPoly ∣ X ^ d - bitPoly 16 (crcStep^[d] 1) := by
  induction d with
  | zero =>
    refine ⟨by decide, ?_⟩
    have : bitPoly 16 1 = 1 := by
      unfold bitPoly
      simp [Finset.sum_range_succ, Nat.testBit]
    simp [this]
  | succ d ih =>
    rw [Function.iterate_succ_apply']
    refine ⟨crcStep_lt ih.1, ?_⟩
    have e : (X : (ZMod 2)[X]) ^ (d + 1) - bitPoly 16 (crcStep (crcStep^[d] 1)) =
        X * (X ^ d - bitPoly 16 (crcStep^[d] 1)) +
          (X * bitPoly 16 (crcStep^[d] 1) - bitPoly 16 (crcStep (crcStep^[d] 1))) := by
      rw [pow_succ]
      ring
    rw [e]
    exact dvd_add (ih.2.mul_left _) (crcStep_poly ih.1)

theorem bitPoly_inj {a b : Nat} (ha : a < 65536) (hb : b < 65536) (h : bitPoly 16 a = bitPoly 16 b) : a = b := by
  apply Nat.eq_of_testBit_eq
  intro i
  by_cases hi : i < 16
  · have := congrArg (fun q => q.coeff i) h
    simp only [bitPoly_coeff _ _ _ hi] at this
    cases h1 : a.testBit i <;> cases h2 : b.testBit i <;> simp [h1, h2] at this ⊢
  · have hp : (2 : Nat) ^ 16 ≤ 2 ^ i := Nat.pow_le_pow_right (by omega) (by omega)
    rw [Nat.testBit_lt_two_pow (by omega), Nat.testBit_lt_two_pow (by omega)]

/-- Two terms that are not far apart are not divided by the generator. -/
theorem crc_two {i j : Nat} (hij : i < j) (hj : j ≤ i + 16384) : ¬ crcPoly ∣ X ^ i + X ^ j := by
  intro h
  have e : (X : (ZMod 2)[X]) ^ i + X ^ j = (X ^ (j - i) + 1) * X ^ i := by
    rw [add_mul, one_mul, ← pow_add, Nat.sub_add_cancel (by omega), add_comm]
  rw [e] at h
  have h := (crcPoly_coprime i).dvd_of_dvd_mul_right h
  obtain ⟨hlt, h'⟩ := crcSteps_poly (j - i)
  have h1 : bitPoly 16 1 = 1 := by
    unfold bitPoly
    simp [Finset.sum_range_succ, Nat.testBit]
  have hsum : crcPoly ∣ bitPoly 16 (crcStep^[j - i] 1) - bitPoly 16 1 := by
    have := dvd_sub h h'
    have e2 : (X : (ZMod 2)[X]) ^ (j - i) + 1 - (X ^ (j - i) - bitPoly 16 (crcStep^[j - i] 1)) =
        bitPoly 16 (crcStep^[j - i] 1) - bitPoly 16 1 := by
      rw [h1, CharTwo.sub_eq_add (bitPoly 16 _) (1 : (ZMod 2)[X])]
      ring
    rwa [e2] at this
  have hz := crc_small (lt_of_le_of_lt (degree_sub_le _ _) (max_lt (bitPoly_degree 16 _) (bitPoly_degree 16 _))) hsum
  have h2 := bitPoly_inj hlt (by decide) (sub_eq_zero.1 hz)
  have hs := crcApart_spec crcApart_ok (j - i - 1) (by omega)
  rw [show j - i = (j - i - 1) + 1 by omega, Function.iterate_add_apply] at h2
  exact hs h2

/-! ## The theorems -/

/-- C100: if two sequences of the same length, of up to 2046 bytes, carry the right checksum behind them, then they
are the same, or they differ in at least four bits. -/
theorem crc_detects_three {a b : Bytes} {c e : UInt16} (ha : IsCrc16Xmodem a c) (hb : IsCrc16Xmodem b e)
    (hl : a.length = b.length) (hn : a.length ≤ 2046) (hne : a ≠ b ∨ c ≠ e) :
    4 ≤ (changedBits (a ++ beEnc 2 c.toNat) (b ++ beEnc 2 e.toNat)).card ∧
      Even (changedBits (a ++ beEnc 2 c.toNat) (b ++ beEnc 2 e.toNat)).card := by
  have hlen : ∀ n, (beEnc 2 n).length = 2 := fun n => by simp [beEnc, leEnc]
  have hab : a ≠ b := by
    rcases hne with h | h
    · exact h
    · rintro rfl
      exact h (isCrc_unique ha hb)
  have hl' : (a ++ beEnc 2 c.toNat).length = (b ++ beEnc 2 e.toNat).length := by simp [hl, hlen]
  have hd := dvd_sub (crc_dvd ha) (crc_dvd hb)
  rw [bytesPoly_changed hl'] at hd
  have hev := crc_even hd
  refine ⟨?_, hev⟩
  have h0 : (changedBits (a ++ beEnc 2 c.toNat) (b ++ beEnc 2 e.toNat)).card ≠ 0 := by
    intro h0
    rw [Finset.card_eq_zero] at h0
    have hx : bytesNumber (a ++ beEnc 2 c.toNat) = bytesNumber (b ++ beEnc 2 e.toNat) := by
      apply Nat.eq_of_testBit_eq
      intro i
      by_cases hi : i < 8 * (a ++ beEnc 2 c.toNat).length
      · have : i ∉ changedBits (a ++ beEnc 2 c.toNat) (b ++ beEnc 2 e.toNat) := by rw [h0]; simp
        rw [changedBits, Finset.mem_filter, Finset.mem_range, Nat.testBit_xor] at this
        have := fun h => this ⟨hi, h⟩
        revert this
        cases (bytesNumber (a ++ beEnc 2 c.toNat)).testBit i <;> cases (bytesNumber (b ++ beEnc 2 e.toNat)).testBit i <;> simp
      · have hp : (2 : Nat) ^ (8 * (a ++ beEnc 2 c.toNat).length) ≤ 2 ^ i := Nat.pow_le_pow_right (by omega) (by omega)
        have h1 := bytesNumber_lt (a ++ beEnc 2 c.toNat)
        have h2 := bytesNumber_lt (b ++ beEnc 2 e.toNat)
        rw [← hl'] at h2
        rw [Nat.testBit_lt_two_pow (by omega), Nat.testBit_lt_two_pow (by omega)]
    have := bytesNumber_inj hl' hx
    exact hab (List.append_inj this hl).1
  have h2 : (changedBits (a ++ beEnc 2 c.toNat) (b ++ beEnc 2 e.toNat)).card ≠ 2 := by
    intro h2
    obtain ⟨i, j, hij, hs⟩ := Finset.card_eq_two.1 h2
    have hr : ∀ k ∈ changedBits (a ++ beEnc 2 c.toNat) (b ++ beEnc 2 e.toNat), k < 16384 := by
      intro k hk
      rw [changedBits, Finset.mem_filter, Finset.mem_range, List.length_append, hlen] at hk
      omega
    rw [hs] at hr hd
    have hi := hr i (by simp)
    have hj := hr j (by simp)
    rw [Finset.sum_pair hij] at hd
    rcases Nat.lt_or_gt_of_ne hij with h | h
    · exact crc_two h (by omega) hd
    · rw [add_comm] at hd
      exact crc_two h (by omega) hd
  obtain ⟨r, hr⟩ := hev
  omega

/-- C100: two sequences of the same length, of any length, that differ only in a stretch of up to 16 bits do not have
the same checksum. -/
theorem crc_detects_burst {a b : Bytes} {c : UInt16} (ha : IsCrc16Xmodem a c) (hb : IsCrc16Xmodem b c)
    (hl : a.length = b.length) {k : Nat} (hk : ∀ i ∈ changedBits a b, k ≤ i ∧ i < k + 16) : a = b := by
  have hd : crcPoly ∣ (bytesPoly a - bytesPoly b) * X ^ 16 := by
    have h := dvd_sub (crc_dvd ha) (crc_dvd hb)
    have hlen : (beEnc 2 c.toNat).length = 2 := by simp [beEnc, leEnc]
    have e : ∀ v : Bytes, bytesPoly (v ++ beEnc 2 c.toNat) =
        bytesPoly v * X ^ 16 + bitPoly 16 (bytesNumber (beEnc 2 c.toNat)) := by
      intro v
      have := bytesNumber_lt (beEnc 2 c.toNat)
      rw [hlen] at this
      rw [bytesPoly_eq, bytesNumber_append, List.length_append, hlen, Nat.mul_add,
        show (256 : Nat) ^ 2 = 2 ^ (8 * 2) from rfl, bitPoly_add_mul _ _ _ _ this, bytesPoly_eq]
    rw [e, e, add_sub_add_right_eq_sub, ← sub_mul] at h
    exact h
  have hd := (crcPoly_coprime 16).dvd_of_dvd_mul_right hd
  rw [bytesPoly_changed hl] at hd
  have hs : ∑ i ∈ changedBits a b, (X : (ZMod 2)[X]) ^ i = (∑ i ∈ changedBits a b, X ^ (i - k)) * X ^ k := by
    rw [Finset.sum_mul]
    refine Finset.sum_congr rfl fun i hi => ?_
    rw [← pow_add, Nat.sub_add_cancel (hk i hi).1]
  rw [hs] at hd
  have hz := crc_burst (lt_of_le_of_lt (degree_sum_le _ _) (by
    rw [Finset.sup_lt_iff (by decide)]
    intro i hi
    rw [degree_X_pow]
    have := (hk i hi).2
    have := (hk i hi).1
    exact_mod_cast (show i - k < 16 by omega))) hd
  have hp : bytesPoly a - bytesPoly b = 0 := by rw [bytesPoly_changed hl, hs, hz, zero_mul]
  have hbit : bitPoly (8 * a.length) (bytesNumber a) = bitPoly (8 * a.length) (bytesNumber b) := by
    have := sub_eq_zero.1 hp
    rw [bytesPoly_eq, bytesPoly_eq, ← hl] at this
    exact this
  refine bytesNumber_inj hl ?_
  apply Nat.eq_of_testBit_eq
  intro i
  have h1 := bytesNumber_lt a
  have h2 := bytesNumber_lt b
  rw [← hl] at h2
  by_cases hi : i < 8 * a.length
  · have := congrArg (fun q => q.coeff i) hbit
    simp only [bitPoly_coeff _ _ _ hi] at this
    cases h3 : (bytesNumber a).testBit i <;> cases h4 : (bytesNumber b).testBit i <;> simp [h3, h4] at this ⊢
  · have hp : (2 : Nat) ^ (8 * a.length) ≤ 2 ^ i := Nat.pow_le_pow_right (by omega) (by omega)
    rw [Nat.testBit_lt_two_pow (by omega), Nat.testBit_lt_two_pow (by omega)]

/-! ## Setting files -/

theorem changedBits_card_append {a b c d : Bytes} (_h1 : a.length = b.length) (h2 : c.length = d.length) :
    (changedBits (a ++ c) (b ++ d)).card = (changedBits a b).card + (changedBits c d).card := by
  have hc := bytesNumber_lt c
  have hd := bytesNumber_lt d
  have e : ∀ i, (bytesNumber (a ++ c) ^^^ bytesNumber (b ++ d)).testBit i =
      if i < 8 * c.length then (bytesNumber c ^^^ bytesNumber d).testBit i
      else (bytesNumber a ^^^ bytesNumber b).testBit (i - 8 * c.length) := by
    intro i
    rw [bytesNumber_append, bytesNumber_append, Nat.testBit_xor, Nat.mul_comm, Nat.mul_comm (bytesNumber b),
      show (256 : Nat) = 2 ^ 8 from rfl, ← Nat.pow_mul, ← Nat.pow_mul, Nat.testBit_two_pow_mul_add _ hc,
      Nat.testBit_two_pow_mul_add _ hd, ← h2]
    split
    · rw [Nat.testBit_xor]
    · rw [Nat.testBit_xor]
  unfold changedBits
  rw [Finset.card_filter, Finset.card_filter, Finset.card_filter,
    show 8 * (a ++ c).length = 8 * c.length + 8 * a.length by rw [List.length_append]; omega, Finset.sum_range_add,
    Nat.add_comm]
  congr 1
  · refine Finset.sum_congr rfl fun i _ => ?_
    rw [(e _).trans (if_neg (by omega)), Nat.add_sub_cancel_left]
  · refine Finset.sum_congr rfl fun i hi => ?_
    rw [(e _).trans (if_pos (Finset.mem_range.1 hi))]

theorem changedBits_self (a : Bytes) : (changedBits a a).card = 0 := by
  simp [changedBits]

theorem changedBits_checksum (c e : UInt16) :
    (changedBits (encU16 c) (encU16 e)).card = (changedBits (beEnc 2 c.toNat) (beEnc 2 e.toNat)).card := by
  have h1 : ∀ x : UInt16, encU16 x = [UInt8.ofNat (x.toNat % 256)] ++ [UInt8.ofNat (x.toNat / 256 % 256)] := fun _ => rfl
  have h2 : ∀ x : UInt16, beEnc 2 x.toNat = [UInt8.ofNat (x.toNat / 256 % 256)] ++ [UInt8.ofNat (x.toNat % 256)] :=
    fun _ => rfl
  rw [h1, h1, h2, h2, changedBits_card_append (by simp) (by simp), changedBits_card_append (by simp) (by simp),
    Nat.add_comm]

/-- C100: a written setting file consists of bytes that are not checked (there are none in `DJMMYSETTING`), the checked
bytes, their checksum and two zero bytes.  Every change of one to three bits, or of an odd number of bits, in the
checked bytes and in the checksum, and every change of the checked bytes within a stretch of 16 bits, gives a file whose checksum is wrong. -/
theorem setting_corruption_detected {s : Setting} (hs : s.data.Proper) {bs : Bytes} (h : s.enc = .ok bs) :
    ∃ (before data : Bytes) (ck : UInt16), before.length = (if s.data.kind = .djmMySetting then 0 else 104) ∧
      bs = before ++ (data ++ (encU16 ck ++ [0, 0])) ∧ IsCrc16Xmodem data ck ∧
      ∀ (data' : Bytes) (ck' : UInt16), data'.length = data.length → (data' ≠ data ∨ ck' ≠ ck) →
        ((changedBits bs (before ++ (data' ++ (encU16 ck' ++ [0, 0])))).card ≤ 3 ∨
          Odd (changedBits bs (before ++ (data' ++ (encU16 ck' ++ [0, 0])))).card ∨
          ck' = ck ∧ ∃ k, ∀ i ∈ changedBits data data', k ≤ i ∧ i < k + 16) →
        ¬ IsCrc16Xmodem data' ck' := by
  obtain ⟨head, ck, h1, h2, h3⟩ := setting_checksum_is_crc hs h
  have hn := SettingData.enc_length hs
  have hsz : dataSize s.data.kind ≤ 52 := by cases s.data.kind <;> decide
  have key : ∀ before data : Bytes, data.length ≤ 2046 → bs = before ++ (data ++ (encU16 ck ++ [0, 0])) →
      IsCrc16Xmodem data ck →
      ∀ (data' : Bytes) (ck' : UInt16), data'.length = data.length → (data' ≠ data ∨ ck' ≠ ck) →
        ((changedBits bs (before ++ (data' ++ (encU16 ck' ++ [0, 0])))).card ≤ 3 ∨
          Odd (changedBits bs (before ++ (data' ++ (encU16 ck' ++ [0, 0])))).card ∨
          ck' = ck ∧ ∃ k, ∀ i ∈ changedBits data data', k ≤ i ∧ i < k + 16) →
        ¬ IsCrc16Xmodem data' ck' := by
    intro before data hle hb hc data' ck' hl hne hch hc'
    have hne' : data ≠ data' ∨ ck ≠ ck' := hne.imp Ne.symm Ne.symm
    have hd := crc_detects_three hc hc' hl.symm hle hne'
    have he : (changedBits bs (before ++ (data' ++ (encU16 ck' ++ [0, 0])))).card =
        (changedBits (data ++ beEnc 2 ck.toNat) (data' ++ beEnc 2 ck'.toNat)).card := by
      rw [hb, changedBits_card_append rfl (by simp [hl, encU16, leEnc]), changedBits_self, Nat.zero_add,
        changedBits_card_append hl.symm (by simp [encU16, leEnc]), changedBits_card_append (by simp [encU16, leEnc]) rfl,
        changedBits_self, Nat.add_zero, changedBits_checksum,
        ← changedBits_card_append hl.symm (by simp [beEnc, leEnc])]
    rcases hch with hch | hch | ⟨e, k, hk⟩
    · omega
    · rw [he] at hch
      exact Nat.not_even_iff_odd.2 hch hd.2
    · subst e
      have := crc_detects_burst hc hc' hl.symm hk
      rcases hne' with h | h
      · exact h this
      · exact h rfl
  by_cases hk : s.data.kind = .djmMySetting
  · rw [if_pos hk] at h3 ⊢
    refine ⟨[], head ++ s.data.enc, ck, rfl, by rw [h2]; simp, h3, key _ _ ?_ (by rw [h2]; simp) h3⟩
    rw [List.length_append, h1, hn]
    omega
  · rw [if_neg hk] at h3 ⊢
    exact ⟨head, s.data.enc, ck, h1, h2, h3, key _ _ (by omega) h2 h3⟩

/-! ## Concrete cases -/

/-- The checksum of the check value, and one with a changed digit. -/
example : IsCrc16Xmodem [0x31, 0x32, 0x33] 0x9752 ∧ ¬ IsCrc16Xmodem [0x31, 0x32, 0x37] 0x9752 := by
  have h : IsCrc16Xmodem [0x31, 0x32, 0x33] 0x9752 := by
    have := crc16_isCrc [0x31, 0x32, 0x33]
    rwa [show crc16 [0x31, 0x32, 0x33] = 0x9752 by decide +kernel] at this
  refine ⟨h, fun h' => ?_⟩
  have := crc_detects_burst h h' rfl (k := 0) (by decide +kernel)
  cases this

/-- Four changed bits can go unnoticed: the generator itself. -/
example : IsCrc16Xmodem [0, 0, 0] 0 ∧ IsCrc16Xmodem [0x01, 0x10, 0x21] 0 ∧
    (changedBits [0, 0, 0] [0x01, 0x10, 0x21]).card = 4 := by
  refine ⟨?_, ?_, by decide +kernel⟩
  · exact crc16_isCrc [0, 0, 0]
  · have := crc16_isCrc [0x01, 0x10, 0x21]
    rwa [show crc16 [0x01, 0x10, 0x21] = 0 by decide +kernel] at this

/-- The default settings meet the hypotheses. -/
example : ∃ bs, Setting.defaultMySetting.enc = .ok bs ∧ Setting.defaultMySetting.data.Proper :=
  ⟨_, (setting_roundtrip default_settings_proper.2.2.1).choose_spec.1, default_settings_proper.2.2.1.2.2.2⟩

end Rekordcrate
