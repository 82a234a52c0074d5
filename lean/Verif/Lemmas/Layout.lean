import Verif.Spec.Layout
import Verif.Lemmas.Io

/-! # Helper lemmas for byte positions -/

namespace Rekordcrate

theorem ByteAt.of_hasAt {d : Bytes} {p : Nat} {b : UInt8} (h : HasAt d p (encU8 b)) : ByteAt d p b := by
  simpa [encU8, ByteAt] using h 0 (by simp [encU8])

theorem U16At.of_hasAt {d : Bytes} {p : Nat} {v : UInt16} (h : HasAt d p (encU16 v)) : U16At d p v.toNat := by
  have h0 := h 0 (by simp)
  have h1 := h 1 (by simp)
  simp only [encU16, leEnc] at h0 h1
  refine ⟨_, _, by simpa using h0, by simpa using h1, ?_⟩
  have := v.toNat_lt
  simp only [UInt8.toNat_ofNat']
  omega

theorem U32At.of_hasAt {d : Bytes} {p : Nat} {v : UInt32} (h : HasAt d p (encU32 v)) : U32At d p v.toNat := by
  have h0 := h 0 (by simp)
  have h1 := h 1 (by simp)
  have h2 := h 2 (by simp)
  have h3 := h 3 (by simp)
  simp only [encU32, leEnc] at h0 h1 h2 h3
  refine ⟨_, _, _, _, by simpa using h0, by simpa using h1, by simpa using h2, by simpa using h3, ?_⟩
  have := v.toNat_lt
  simp only [UInt8.toNat_ofNat']
  omega

theorem U16BeAt.of_hasAt {d : Bytes} {p : Nat} {v : UInt16} (h : HasAt d p (encU16be v)) :
    U16BeAt d p v.toNat := by
  have h0 := h 0 (by simp)
  have h1 := h 1 (by simp)
  simp only [encU16be, beEnc, leEnc] at h0 h1
  refine ⟨_, _, by simpa using h0, by simpa using h1, ?_⟩
  have := v.toNat_lt
  simp only [UInt8.toNat_ofNat']
  omega

theorem U32BeAt.of_hasAt {d : Bytes} {p : Nat} {v : UInt32} (h : HasAt d p (encU32be v)) :
    U32BeAt d p v.toNat := by
  have h0 := h 0 (by simp)
  have h1 := h 1 (by simp)
  have h2 := h 2 (by simp)
  have h3 := h 3 (by simp)
  simp only [encU32be, beEnc, leEnc] at h0 h1 h2 h3
  refine ⟨_, _, _, _, by simpa using h0, by simpa using h1, by simpa using h2, by simpa using h3, ?_⟩
  have := v.toNat_lt
  simp only [UInt8.toNat_ofNat']
  omega

/-- The bytes of a number are determined by its value. -/
theorem U32At.hasAt {d : Bytes} {p : Nat} {v : UInt32} (h : U32At d p v.toNat) : HasAt d p (encU32 v) := by
  obtain ⟨b0, b1, b2, b3, h0, h1, h2, h3, hv⟩ := h
  have l0 := b0.toNat_lt
  have l1 := b1.toNat_lt
  have l2 := b2.toNat_lt
  have l3 := b3.toNat_lt
  have he : encU32 v = [b0, b1, b2, b3] := by
    simp only [encU32, leEnc]
    rw [hv]
    congr 1
    · apply UInt8.toNat_inj.1; rw [UInt8.toNat_ofNat']; omega
    congr 1
    · apply UInt8.toNat_inj.1; rw [UInt8.toNat_ofNat']; omega
    congr 1
    · apply UInt8.toNat_inj.1; rw [UInt8.toNat_ofNat']; omega
    congr 1
    · apply UInt8.toNat_inj.1; rw [UInt8.toNat_ofNat']; omega
  rw [he]
  intro i hi
  match i, hi with
  | 0, _ => simpa using h0
  | 1, _ => simpa using h1
  | 2, _ => simpa using h2
  | 3, _ => simpa using h3
  | n + 4, hi => simp at hi; omega

theorem hasAt_flatMap_encU16 {img : Bytes} {us : List UInt16} {q : Nat}
    (hq : HasAt img q (us.flatMap encU16)) {i : Nat} {u : UInt16} (hu : us[i]? = some u) :
    HasAt img (q + 2 * i) (encU16 u) := by
  induction us generalizing q i with
  | nil => simp at hu
  | cons a us ih =>
    rw [List.flatMap_cons, HasAt.append_iff, encU16_length] at hq
    cases i with
    | zero => simp at hu; subst hu; exact hq.1
    | succ i =>
      have := ih hq.2 (i := i) (by simpa using hu)
      rwa [show q + 2 * (i + 1) = q + 2 + 2 * i from by omega]

end Rekordcrate
