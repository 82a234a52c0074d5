import Mathlib.Tactic.Ring
import Mathlib.Algebra.CharP.Two
import Mathlib.Tactic.ComputeDegree
import Verif.Spec.Crc
import Verif.Model.Setting

/-! # The CRC register computes the polynomial remainder -/

namespace Rekordcrate
open Polynomial

theorem bitPoly_xor (k a b : Nat) : bitPoly k (a ^^^ b) = bitPoly k a + bitPoly k b := by
  unfold bitPoly
  rw [← Finset.sum_add_distrib]
  refine Finset.sum_congr rfl fun i _ => ?_
  rw [Nat.testBit_xor]
  have h2 : (X ^ i : (ZMod 2)[X]) + X ^ i = 0 := CharTwo.add_self_eq_zero _
  cases a.testBit i <;> cases b.testBit i <;> simp [h2]

theorem bitPoly_shift (k a : Nat) :
    bitPoly (k + 1) (2 * a) = X * bitPoly k a := by
  unfold bitPoly
  rw [Finset.sum_range_succ', Finset.mul_sum]
  have h0 : (2 * a).testBit 0 = false := by simp
  rw [h0]
  simp only [Bool.false_eq_true, if_false, add_zero]
  refine Finset.sum_congr rfl fun i _ => ?_
  have : (2 * a).testBit (i + 1) = a.testBit i := by
    rw [Nat.testBit_succ, Nat.mul_div_cancel_left _ (by omega)]
  rw [this]
  split <;> ring

theorem bitPoly_succ (k a : Nat) :
    bitPoly (k + 1) a = bitPoly k a + if a.testBit k then X ^ k else 0 := by
  unfold bitPoly; rw [Finset.sum_range_succ]

theorem bitPoly_congr {k a b : Nat} (h : ∀ i < k, a.testBit i = b.testBit i) :
    bitPoly k a = bitPoly k b := by
  unfold bitPoly
  refine Finset.sum_congr rfl fun i hi => ?_
  rw [h i (Finset.mem_range.1 hi)]

theorem bitPoly_mod (k a : Nat) : bitPoly k (a % 2 ^ k) = bitPoly k a :=
  bitPoly_congr fun i hi => by simp [Nat.testBit_mod_two_pow, hi]

theorem bitPoly_zero (k : Nat) : bitPoly k 0 = 0 := by simp [bitPoly]

theorem bitPoly_degree (k a : Nat) : (bitPoly k a).degree < k := by
  unfold bitPoly
  refine lt_of_le_of_lt (degree_sum_le _ _) ?_
  rw [Finset.sup_lt_iff (by exact WithBot.bot_lt_coe k)]
  intro i hi
  split
  · rw [degree_X_pow]; exact_mod_cast Finset.mem_range.1 hi
  · simp

theorem crcPoly_monic : crcPoly.Monic := by
  unfold crcPoly
  monicity!

theorem crcPoly_degree : crcPoly.degree = 16 := by
  unfold crcPoly
  compute_degree!

theorem bitPoly_1021 : bitPoly 16 0x1021 = X ^ 12 + X ^ 5 + 1 := by
  unfold bitPoly
  simp [Finset.sum_range_succ, Nat.testBit]
  ring

/-- One bit step multiplies by `X` modulo the generator. -/
theorem crcBit_poly (s : UInt16) :
    crcPoly ∣ X * bitPoly 16 s.toNat - bitPoly 16 (crcBit s).toNat := by
  have hlt := s.toNat_lt
  have hs : (s <<< 1).toNat = 2 * s.toNat % 2 ^ 16 := by
    rw [UInt16.toNat_shiftLeft]; simp [Nat.shiftLeft_eq, Nat.mul_comm]
  have hsh : bitPoly 16 (s <<< 1).toNat = X * bitPoly 16 s.toNat -
      if s.toNat.testBit 15 then X ^ 16 else 0 := by
    rw [hs, bitPoly_mod]
    have h1 := bitPoly_shift 16 s.toNat
    rw [bitPoly_succ] at h1
    have h2 : (2 * s.toNat).testBit 16 = s.toNat.testBit 15 := by
      rw [Nat.testBit_succ, Nat.mul_div_cancel_left _ (by omega)]
    rw [h2] at h1
    rw [← h1]; ring
  have h15 : s.toNat.testBit 15 = decide (0x8000 ≤ s.toNat) := by
    rw [Nat.testBit_eq_decide_div_mod_eq]
    congr 1
    simp only [eq_iff_iff]
    constructor <;> intro h <;> omega
  unfold crcBit
  split
  · rename_i h
    rw [UInt16.toNat_xor, bitPoly_xor, hsh, h15]
    have : (0x1021 : UInt16).toNat = 0x1021 := rfl
    rw [this, bitPoly_1021]
    simp only [ge_iff_le] at h
    simp only [h, decide_true, if_true]
    refine ⟨1, ?_⟩
    unfold crcPoly
    have e : ∀ q : (ZMod 2)[X], -q = q := fun q => CharTwo.neg_eq q
    have : X * bitPoly 16 s.toNat - (X * bitPoly 16 s.toNat - X ^ 16 + (X ^ 12 + X ^ 5 + 1)) =
        X ^ 16 + -(X ^ 12 + X ^ 5 + 1) := by ring
    rw [this, e]; ring
  · rename_i h
    rw [hsh, h15]
    simp only [ge_iff_le] at h
    simp [h]

theorem dvd_step {p a b c : (ZMod 2)[X]} (h1 : p ∣ X * a - b) (h2 : p ∣ X * b - c) :
    p ∣ X ^ 2 * a - c := by
  have : X ^ 2 * a - c = X * (X * a - b) + (X * b - c) := by ring
  rw [this]; exact dvd_add (h1.mul_left _) h2

theorem dvd_steps {p a b c : (ZMod 2)[X]} {m n : Nat} (h1 : p ∣ X ^ m * a - b)
    (h2 : p ∣ X ^ n * b - c) : p ∣ X ^ (m + n) * a - c := by
  have : X ^ (m + n) * a - c = X ^ n * (X ^ m * a - b) + (X ^ n * b - c) := by ring
  rw [this]; exact dvd_add (h1.mul_left _) h2

theorem crcBit_poly' (s : UInt16) :
    crcPoly ∣ X ^ 1 * bitPoly 16 s.toNat - bitPoly 16 (crcBit s).toNat := by
  rw [pow_one]; exact crcBit_poly s

theorem bitPoly_byte_shift (b : UInt8) :
    bitPoly 16 (b.toUInt16 <<< 8).toNat = X ^ 8 * bitPoly 8 b.toNat := by
  have hb := b.toNat_lt
  have h : (b.toUInt16 <<< 8).toNat = 2 * (2 * (2 * (2 * (2 * (2 * (2 * (2 * b.toNat))))))) := by
    rw [UInt16.toNat_shiftLeft]
    simp [Nat.shiftLeft_eq]
    omega
  rw [h]
  simp only [bitPoly_shift]
  ring

theorem crcByte_poly (s : UInt16) (b : UInt8) :
    crcPoly ∣ X ^ 8 * bitPoly 16 s.toNat + X ^ 16 * bitPoly 8 b.toNat -
      bitPoly 16 (crcByte s b).toNat := by
  have h0 : X ^ 8 * bitPoly 16 s.toNat + X ^ 16 * bitPoly 8 b.toNat =
      X ^ 8 * bitPoly 16 (s ^^^ (b.toUInt16 <<< 8)).toNat := by
    rw [UInt16.toNat_xor, bitPoly_xor, bitPoly_byte_shift]; ring
  rw [h0]
  unfold crcByte
  generalize s ^^^ (b.toUInt16 <<< 8) = t
  exact dvd_steps (m := 7) (n := 1) (dvd_steps (m := 6) (n := 1) (dvd_steps (m := 5) (n := 1)
    (dvd_steps (m := 4) (n := 1) (dvd_steps (m := 3) (n := 1) (dvd_steps (m := 2) (n := 1)
    (dvd_steps (m := 1) (n := 1) (crcBit_poly' _) (crcBit_poly' _)) (crcBit_poly' _))
    (crcBit_poly' _)) (crcBit_poly' _)) (crcBit_poly' _)) (crcBit_poly' _)) (crcBit_poly' _)

theorem crc_fold_poly (bs : Bytes) (s : UInt16) :
    crcPoly ∣ X ^ (8 * bs.length) * bitPoly 16 s.toNat + X ^ 16 * bytesPoly bs -
      bitPoly 16 (bs.foldl crcByte s).toNat := by
  induction bs generalizing s with
  | nil => simp [bytesPoly]
  | cons b bs ih =>
    rw [List.foldl_cons, List.length_cons, bytesPoly]
    have h1 := ih (crcByte s b)
    have h2 := (crcByte_poly s b).mul_left (X ^ (8 * bs.length))
    have := dvd_add h1 h2
    refine this.trans (dvd_of_eq ?_)
    ring

theorem crc16_isCrc (bs : Bytes) : IsCrc16Xmodem bs (crc16 bs) := by
  have h := crc_fold_poly bs 0
  have h0 : bitPoly 16 (0 : UInt16).toNat = 0 := bitPoly_zero 16
  rw [h0, mul_zero, zero_add] at h
  unfold IsCrc16Xmodem
  have hd : bitPoly 16 (crc16 bs).toNat %ₘ crcPoly = bitPoly 16 (crc16 bs).toNat :=
    (modByMonic_eq_self_iff crcPoly_monic).2 (by rw [crcPoly_degree]; exact bitPoly_degree 16 _)
  rw [← hd]
  have h' : (bytesPoly bs * X ^ 16 - bitPoly 16 (crc16 bs).toNat) %ₘ crcPoly = 0 :=
    (modByMonic_eq_zero_iff_dvd crcPoly_monic).2 (by rw [mul_comm]; exact h)
  rw [sub_modByMonic] at h'
  exact (sub_eq_zero.1 h').symm

theorem bitPoly_coeff (k n i : Nat) (hi : i < k) :
    (bitPoly k n).coeff i = if n.testBit i then 1 else 0 := by
  unfold bitPoly
  rw [finsetSum_coeff]
  rw [Finset.sum_eq_single i]
  · split <;> simp
  · intro j _ hj
    split
    · rw [coeff_X_pow, if_neg (Ne.symm hj)]
    · simp
  · intro h; exact absurd (Finset.mem_range.2 hi) h

/-- The remainder determines the register value. -/
theorem isCrc_unique {bs : Bytes} {a b : UInt16} (ha : IsCrc16Xmodem bs a) (hb : IsCrc16Xmodem bs b) :
    a = b := by
  have h : bitPoly 16 a.toNat = bitPoly 16 b.toNat := ha.trans hb.symm
  apply UInt16.toNat_inj.1
  apply Nat.eq_of_testBit_eq
  intro i
  by_cases hi : i < 16
  · have := congrArg (fun q => q.coeff i) h
    simp only [bitPoly_coeff _ _ _ hi] at this
    cases h1 : a.toNat.testBit i <;> cases h2 : b.toNat.testBit i <;> simp [h1, h2] at this ⊢
  · have hp : (2 : Nat) ^ 16 ≤ 2 ^ i := Nat.pow_le_pow_right (by omega) (by omega)
    have h1 := a.toNat_lt
    have h2 := b.toNat_lt
    rw [Nat.testBit_lt_two_pow (by omega), Nat.testBit_lt_two_pow (by omega)]

end Rekordcrate
