import Verif.Spec.Xor
import Verif.Lemmas.Io

/-! # Helper lemmas for the XOR stream -/

namespace Rekordcrate
namespace XorStream

@[simp] theorem xorBuf_length (key : Bytes) (i : Nat) (bs : Bytes) :
    (xorBuf key i bs).length = bs.length := by
  induction bs generalizing i with
  | nil => rfl
  | cons b bs ih => simp [xorBuf, ih]

theorem xorBuf_getElem? (key : Bytes) (i : Nat) (bs : Bytes) (j : Nat) :
    (xorBuf key i bs)[j]? = bs[j]?.map (· ^^^ keyByte key (i + j)) := by
  induction bs generalizing i j with
  | nil => simp [xorBuf]
  | cons b bs ih =>
    cases j with
    | zero => simp [xorBuf]
    | succ j => simp [xorBuf, ih, Nat.add_assoc, Nat.add_comm 1 j]

theorem xorBuf_append (key : Bytes) (i : Nat) (a b : Bytes) :
    xorBuf key i (a ++ b) = xorBuf key i a ++ xorBuf key (i + a.length) b := by
  induction a generalizing i with
  | nil => simp [xorBuf]
  | cons x a ih => simp [xorBuf, ih, Nat.add_assoc, Nat.add_comm 1]

theorem xorBuf_take (key : Bytes) (i : Nat) (bs : Bytes) (n : Nat) :
    (xorBuf key i bs).take n = xorBuf key i (bs.take n) := by
  induction bs generalizing i n with
  | nil => simp [xorBuf]
  | cons b bs ih => cases n <;> simp [xorBuf, ih]

end XorStream

open XorStream

theorem xorImage_getElem? (key : Bytes) (p0 : Nat) (img : Bytes) (i : Nat) :
    (xorImage key p0 img)[i]? = img[i]?.map (· ^^^ keyByteAt key p0 i) := by
  simp [xorImage, List.getElem?_mapIdx]

@[simp] theorem xorImage_length (key : Bytes) (p0 : Nat) (img : Bytes) :
    (xorImage key p0 img).length = img.length := by simp [xorImage]

theorem UInt8.xor_cancel (a b : UInt8) : a ^^^ b ^^^ b = a := by
  rw [UInt8.xor_assoc, UInt8.xor_self, UInt8.xor_zero]

theorem xorImage_xorImage (key : Bytes) (p0 : Nat) (img : Bytes) :
    xorImage key p0 (xorImage key p0 img) = img := by
  apply List.ext_getElem?
  intro i
  rw [xorImage_getElem?, xorImage_getElem?, Option.map_map]
  have : ((fun x => x ^^^ keyByteAt key p0 i) ∘ fun x => x ^^^ keyByteAt key p0 i) = id := by
    funext x; simp [UInt8.xor_cancel]
  rw [this]; simp

/-- The key index is in step with the position. -/
def KeyAligned (key : Bytes) (p0 idx pos : Nat) : Prop :=
  ((idx : Int) + p0) % key.length = (pos : Int) % key.length

theorem keyByte_eq {key : Bytes} {p0 idx pos : Nat} (hk : key ≠ [])
    (h : KeyAligned key p0 idx pos) (j : Nat) :
    keyByte key (idx + j) = keyByteAt key p0 (pos + j) := by
  unfold keyByte keyByteAt
  rw [if_neg hk]
  congr 1
  unfold KeyAligned at h
  have e : (((idx + j : Nat) : Int)) % (key.length : Int) = (((pos + j : Nat) : Int) - p0) % key.length := by
    have h1 := Int.emod_emod_of_dvd
    have : ((key.length : Int)) ∣ (((idx : Int) + p0) - pos) := Int.dvd_of_emod_eq_zero (by
      rw [Int.sub_emod, h]; simp)
    apply Int.emod_eq_emod_iff_emod_sub_eq_zero.2
    apply Int.emod_eq_zero_of_dvd
    have e2 : (((idx + j : Nat) : Int) - (((pos + j : Nat) : Int) - p0)) = ((idx : Int) + p0) - pos := by
      omega
    rw [e2]; exact this
  rw [← e]
  omega

theorem KeyAligned.add {key : Bytes} {p0 idx pos : Nat} (h : KeyAligned key p0 idx pos) (n : Nat) :
    KeyAligned key p0 (idx + n) (pos + n) := by
  unfold KeyAligned at *
  have e1 : ((idx + n : Nat) : Int) + p0 = (idx + p0 : Int) + n := by omega
  have e2 : ((pos + n : Nat) : Int) = (pos : Int) + n := by omega
  rw [e1, e2, Int.add_emod, h, ← Int.add_emod]

theorem KeyAligned.seek {key : Bytes} {p0 idx pos new : Nat} (hk : key ≠ [])
    (h : KeyAligned key p0 idx pos) :
    KeyAligned key p0
      (idx + (if new > pos then (new - pos) % key.length
        else key.length - ((pos - new) % key.length))) new := by
  unfold KeyAligned at *
  have hd : ((key.length : Int)) ∣ (((idx : Int) + p0) - pos) := Int.dvd_of_emod_eq_zero (by
      rw [Int.sub_emod, h]; simp)
  apply Int.emod_eq_emod_iff_emod_sub_eq_zero.2
  apply Int.emod_eq_zero_of_dvd
  split
  · rename_i hn
    have hm := Nat.div_add_mod (new - pos) key.length
    have e : (((idx + (new - pos) % key.length : Nat) : Int) + p0 - new)
        = (((idx : Int) + p0) - pos) - key.length * ((new - pos) / key.length : Nat) := by
      push_cast
      have : (new : Int) - pos = ((key.length * ((new - pos) / key.length) + (new - pos) % key.length : Nat) : Int) := by
        rw [hm]; omega
      push_cast at this
      omega
    rw [e]
    exact Int.dvd_sub hd (Int.dvd_mul_right _ _)
  · rename_i hn
    have hk : key.length ≠ 0 := fun h0 => hk (List.length_eq_zero_iff.1 h0)
    have hm := Nat.div_add_mod (pos - new) key.length
    have hlt := Nat.mod_lt (pos - new) (Nat.pos_of_ne_zero hk)
    have e : (((idx + (key.length - (pos - new) % key.length) : Nat) : Int) + p0 - new)
        = (((idx : Int) + p0) - pos) + key.length * (1 + ((pos - new) / key.length : Nat)) := by
      have : (pos : Int) - new = ((key.length * ((pos - new) / key.length) + (pos - new) % key.length : Nat) : Int) := by
        rw [hm]; omega
      push_cast at this
      rw [Int.mul_add]
      push_cast
      rw [Int.ofNat_sub (Nat.le_of_lt hlt)]
      push_cast
      omega
    rw [e]
    exact Int.dvd_add hd (Int.dvd_mul_right _ _)

/-- Simulation relation: the stream holds the plain file xored position by position with the key
anchored at `p0`, and its key iterator is in step with its position. -/
structure XorSim (key : Bytes) (p0 : Nat) (s : XorStream) (f : PlainFile) : Prop where
  key_eq : s.key = if key.isEmpty then [0] else key
  pos_eq : s.pos = f.pos
  data_eq : s.data = xorImage key p0 f.data
  aligned : KeyAligned s.key p0 s.idx s.pos

theorem keyByteAt_norm (key : Bytes) (p0 p : Nat) :
    keyByteAt (if key.isEmpty then [0] else key) p0 p = keyByteAt key p0 p := by
  cases key with
  | nil => simp [keyByteAt, List.getD]
  | cons a as => simp

theorem key_ne (key : Bytes) : (if key.isEmpty then [0] else key) ≠ ([] : Bytes) := by
  cases key <;> simp

theorem xorSim_init (key data : Bytes) (p0 : Nat) :
    XorSim key p0 (withKey data p0 key) ⟨xorImage key p0 data, p0⟩ := by
  refine ⟨rfl, rfl, ?_, ?_⟩
  · simp [withKey, xorImage_xorImage]
  · simp [withKey, KeyAligned]

theorem xorSim_step {key : Bytes} {p0 : Nat} {s : XorStream} {f f' : PlainFile} {op : Op} {o : Out}
    (h : XorSim key p0 s f) (hf : f.step op = some (f', o)) :
    (s.step op).2 = o ∧ XorSim key p0 (s.step op).1 f' := by
  obtain ⟨hkey, hpos, hdata, hal⟩ := h
  have hk : s.key ≠ [] := hkey ▸ key_ne key
  have hlen : s.data.length = f.data.length := by rw [hdata]; simp
  have hkb : ∀ j, keyByte s.key (s.idx + j) = keyByteAt key p0 (f.pos + j) := by
    intro j
    rw [keyByte_eq hk hal, hkey, keyByteAt_norm, hpos]
  cases op with
  | read n =>
    simp only [PlainFile.step] at hf
    split at hf
    · rename_i hn
      simp only [Option.some.injEq, Prod.mk.injEq] at hf
      obtain ⟨rfl, rfl⟩ := hf
      have hgot : ((s.data.drop s.pos).take n).length = n := by
        simp; omega
      have hout : xorBuf s.key s.idx ((s.data.drop s.pos).take n) = (f.data.drop f.pos).take n := by
        apply List.ext_getElem?
        intro j
        rw [xorBuf_getElem?, hkb, List.getElem?_take, List.getElem?_take]
        split
        · rw [List.getElem?_drop, List.getElem?_drop, hdata, xorImage_getElem?, hpos, Option.map_map]
          have : ((fun x => x ^^^ keyByteAt key p0 (f.pos + j)) ∘ fun x => x ^^^ keyByteAt key p0 (f.pos + j)) = id := by
            funext x; simp [UInt8.xor_cancel]
          rw [this]; simp
        · rfl
      constructor
      · simp only [step, XorStream.read, List.length_replicate, Nat.min_self, hgot]
        rw [List.drop_of_length_le (l := List.replicate n (0 : UInt8)) (by simp), List.append_nil, hout]
        rw [List.take_of_length_le (by simp; omega)]
      · refine ⟨hkey, ?_, hdata, ?_⟩
        · simp only [step, XorStream.read, List.length_replicate, Nat.min_self, hgot]
          rw [hpos]
        · simp only [step, XorStream.read, List.length_replicate, Nat.min_self, hgot]
          exact hal.add n
    · cases hf
  | write bs =>
    simp only [PlainFile.step] at hf
    split at hf
    · rename_i hn
      simp only [Option.some.injEq, Prod.mk.injEq] at hf
      obtain ⟨rfl, rfl⟩ := hf
      have htk : (xorBuf s.key s.idx bs).take bs.length = xorBuf s.key s.idx bs :=
        List.take_of_length_le (by simp)
      constructor
      · simp [step, write, htk]
      · refine ⟨hkey, ?_, ?_, ?_⟩
        · simp [step, write, htk, hpos]
        · simp only [step, write, htk]
          apply List.ext_getElem?
          intro i
          rw [Patch.apply_getElem?, xorImage_getElem?]
          simp only [xorBuf_length]
          by_cases h1 : i < f.pos
          · rw [if_neg (by omega), if_pos (by omega), hdata, xorImage_getElem?,
              List.append_assoc, List.getElem?_append_left (by simp; omega), List.getElem?_take,
              if_pos h1]
          · by_cases h2 : i < f.pos + bs.length
            · rw [if_pos (by omega), xorBuf_getElem?, hkb, hpos,
                List.append_assoc, List.getElem?_append_right (by simp; omega),
                List.getElem?_append_left (by simp; omega)]
              have e1 : f.pos + (i - f.pos) = i := by omega
              have e2 : i - (f.data.take f.pos).length = i - f.pos := by simp; omega
              rw [e1, e2]
            · rw [if_neg (by omega), List.getElem?_append_right (by simp; omega),
                List.getElem?_drop]
              have e : f.pos + bs.length + (i - (f.data.take f.pos ++ bs).length) = i := by
                simp; omega
              rw [e]
              by_cases h3 : i < s.data.length
              · rw [if_pos h3, hdata, xorImage_getElem?]
              · rw [if_neg h3, if_neg (by omega)]
                rw [List.getElem?_eq_none (by omega)]; rfl
        · simp only [step, write, htk, xorBuf_length]
          exact hal.add _
    · cases hf
  | seek to =>
    simp only [PlainFile.step] at hf
    simp only [step, seek]
    rw [hlen, hpos]
    cases ht : to.target f.data.length f.pos with
    | ok n =>
      rw [ht] at hf
      simp only [Option.some.injEq, Prod.mk.injEq] at hf
      obtain ⟨rfl, rfl⟩ := hf
      refine ⟨rfl, hkey, rfl, hdata, ?_⟩
      have := hal.seek hk (new := n)
      rw [hpos] at this
      exact this
    | err e =>
      rw [ht] at hf
      simp only [Option.some.injEq, Prod.mk.injEq] at hf
      obtain ⟨rfl, rfl⟩ := hf
      exact ⟨rfl, hkey, hpos, hdata, hal⟩
    | panic => rw [ht] at hf; cases hf

theorem xorSim_run {key : Bytes} {p0 : Nat} {ops : List Op} {s : XorStream} {f f' : PlainFile}
    {os : List Out} (h : XorSim key p0 s f) (hf : f.run ops = some (f', os)) :
    (s.run ops).2 = os ∧ XorSim key p0 (s.run ops).1 f' := by
  induction ops generalizing s f os with
  | nil =>
    simp only [PlainFile.run, Option.some.injEq, Prod.mk.injEq] at hf
    obtain ⟨rfl, rfl⟩ := hf
    exact ⟨rfl, h⟩
  | cons op ops ih =>
    simp only [PlainFile.run] at hf
    split at hf
    · cases hf
    · rename_i f1 o1 h1
      split at hf
      · cases hf
      · rename_i f2 os2 h2
        simp only [Option.some.injEq, Prod.mk.injEq] at hf
        obtain ⟨rfl, rfl⟩ := hf
        obtain ⟨e1, s1⟩ := xorSim_step h h1
        obtain ⟨e2, s2⟩ := ih s1 h2
        exact ⟨by simp [run, e1, e2], s2⟩

theorem plain_writes (f : PlainFile) (ws : List Bytes) (hf : f.pos = f.data.length) :
    ∃ os, f.run (ws.map .write) = some (⟨f.data ++ ws.flatten, f.pos + ws.flatten.length⟩, os) := by
  induction ws generalizing f with
  | nil => exact ⟨[], by simp [PlainFile.run]⟩
  | cons w ws ih =>
    obtain ⟨os, h⟩ := ih ⟨f.data ++ w, f.pos + w.length⟩ (by simp [hf])
    refine ⟨.count w.length :: os, ?_⟩
    simp only [List.map_cons, PlainFile.run, PlainFile.step, hf, Nat.le_refl, if_true]
    rw [List.take_of_length_le (Nat.le_refl _), List.drop_of_length_le (by omega)]
    rw [hf] at h
    simp only [List.append_nil, h]
    simp [Nat.add_assoc]

theorem plain_reads (f : PlainFile) (rs : List Nat) (h : f.pos + rs.sum ≤ f.data.length) :
    ∃ f' os, f.run (rs.map .read) = some (f', os) ∧
      readBytesOf os = (f.data.drop f.pos).take rs.sum := by
  induction rs generalizing f with
  | nil => exact ⟨f, [], rfl, by simp [readBytesOf]⟩
  | cons r rs ih =>
    simp only [List.sum_cons] at h
    obtain ⟨f', os, h1, h2⟩ := ih ⟨f.data, f.pos + r⟩ (by simp; omega)
    refine ⟨f', .data ((f.data.drop f.pos).take r) :: os, ?_, ?_⟩
    · simp only [List.map_cons, PlainFile.run, PlainFile.step]
      rw [if_pos (by omega)]
      simp only [h1]
    · simp only [readBytesOf, List.flatMap_cons] at h2 ⊢
      rw [h2]
      simp only [List.sum_cons]
      rw [List.take_add, List.drop_drop]

end Rekordcrate
