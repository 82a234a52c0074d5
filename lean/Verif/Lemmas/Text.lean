import Verif.Lemmas.Io
import Verif.Model.Text

/-! # Helper lemmas about UTF-8, UTF-16 and NUL-terminated strings -/

namespace Rekordcrate
open Rd

theorem utf8_toByteArray (s : String) : (⟨(utf8 s).toArray⟩ : ByteArray) = s.toByteArray := by
  simp [utf8]

theorem fromUtf8_utf8 (s : String) : fromUtf8 (utf8 s) = some s := by
  unfold fromUtf8
  rw [utf8_toByteArray]
  simp only [String.fromUTF8?, s.isValidUTF8, dif_pos]
  rfl

theorem utf8_of_fromUtf8 {bs : Bytes} {s : String} (h : fromUtf8 bs = some s) : utf8 s = bs := by
  unfold fromUtf8 String.fromUTF8? at h
  split at h
  · injection h with h
    subst h
    simp [utf8, String.fromUTF8]
  · cases h

theorem utf8_inj {s t : String} (h : utf8 s = utf8 t) : s = t := by
  have h1 := fromUtf8_utf8 s
  rw [h, fromUtf8_utf8] at h1
  injection h1 with h1
  exact h1.symm

theorem toByteArray_toList (l : List UInt8) : l.toByteArray.data.toList = l := by
  simp

theorem utf8_eq_flatMap (s : String) : utf8 s = s.toList.flatMap String.utf8EncodeChar := by
  unfold utf8
  rw [← String.utf8Encode_toList]
  simp [List.utf8Encode]

theorem utf8EncodeChar_lt (c : Char) (h : c.toNat < 128) :
    String.utf8EncodeChar c = [UInt8.ofNat c.toNat] := by
  unfold String.utf8EncodeChar
  simp only
  split
  · rfl
  · rename_i hc
    exfalso; apply hc
    show c.toNat ≤ 127
    omega

theorem utf8EncodeChar_ge (c : Char) (h : 128 ≤ c.toNat) :
    ∃ b ∈ String.utf8EncodeChar c, 128 ≤ b.toNat := by
  unfold String.utf8EncodeChar
  simp only
  split
  · rename_i hc
    have hc : c.toNat ≤ 127 := hc
    omega
  · split
    · refine ⟨_, List.mem_cons_self, ?_⟩
      rename_i h1 h2
      have h2 : c.toNat ≤ 0x7ff := h2
      show 128 ≤ (UInt8.ofNat (c.toNat / 64 % 32 + 192)).toNat
      rw [UInt8.toNat_ofNat']; omega
    · split
      · refine ⟨_, List.mem_cons_self, ?_⟩
        show 128 ≤ (UInt8.ofNat (c.toNat / 4096 % 16 + 224)).toNat
        rw [UInt8.toNat_ofNat']; omega
      · refine ⟨_, List.mem_cons_self, ?_⟩
        show 128 ≤ (UInt8.ofNat (c.toNat / 262144 % 8 + 240)).toNat
        rw [UInt8.toNat_ofNat']; omega

theorem isAscii_iff (s : String) : isAscii s = true ↔ ∀ c ∈ s.toList, c.toNat < 128 := by
  unfold isAscii
  rw [utf8_eq_flatMap]
  simp only [List.all_eq_true, List.mem_flatMap, decide_eq_true_eq]
  constructor
  · intro h c hc
    rcases Nat.lt_or_ge c.toNat 128 with h' | h'
    · exact h'
    · obtain ⟨b, hb, hb'⟩ := utf8EncodeChar_ge c h'
      have := h b ⟨c, hc, hb⟩
      omega
  · rintro h b ⟨c, hc, hb⟩
    have := h c hc
    rw [utf8EncodeChar_lt c this] at hb
    simp at hb
    rw [hb]
    simp [UInt8.toNat_ofNat']; omega

theorem utf16Char_length_le (c : Char) :
    (utf16Char c).length ≤ (String.utf8EncodeChar c).length ∧
      (128 ≤ c.toNat → (utf16Char c).length < (String.utf8EncodeChar c).length) := by
  rw [String.length_utf8EncodeChar]
  rcases Char.utf8Size_eq c with h | h | h | h
  · have h' := (Char.utf8Size_eq_one_iff).1 h
    have h' : c.toNat ≤ 127 := h'
    have : c.toNat < 0x10000 := by omega
    simp [utf16Char, this, h]; omega
  · have h' := (Char.utf8Size_eq_two_iff).1 h
    have h' : c.toNat ≤ 0x7ff := h'.2
    have : c.toNat < 0x10000 := by omega
    simp [utf16Char, this, h]
  · have h' := (Char.utf8Size_eq_three_iff).1 h
    have h' : c.toNat ≤ 0xffff := h'.2
    have : c.toNat < 0x10000 := by omega
    simp [utf16Char, this, h]
  · have : (utf16Char c).length ≤ 2 := by unfold utf16Char; split <;> simp
    rw [h]; omega

theorem encodeUtf16_length_le (s : String) : (encodeUtf16 s).length ≤ (utf8 s).length := by
  rw [utf8_eq_flatMap, encodeUtf16]
  induction s.toList with
  | nil => simp
  | cons c l ih =>
    have := (utf16Char_length_le c).1
    simp only [List.flatMap_cons, List.length_append]; omega

theorem encodeUtf16_length_lt (s : String) (h : isAscii s = false) :
    (encodeUtf16 s).length < (utf8 s).length := by
  have h' : ∃ c ∈ s.toList, 128 ≤ c.toNat := by
    apply Classical.byContradiction
    intro hn
    have : isAscii s = true := (isAscii_iff s).2 fun c hc => by
      apply Classical.byContradiction
      intro hc'
      exact hn ⟨c, hc, by omega⟩
    rw [h] at this; cases this
  rw [utf8_eq_flatMap, encodeUtf16]
  have hle : ∀ l : List Char,
      (l.flatMap utf16Char).length ≤ (l.flatMap String.utf8EncodeChar).length := by
    intro l
    induction l with
    | nil => simp
    | cons c l ih =>
      have := (utf16Char_length_le c).1
      simp only [List.flatMap_cons, List.length_append]; omega
  obtain ⟨c, hc, hc'⟩ := h'
  obtain ⟨a, b, hab⟩ := List.append_of_mem hc
  rw [hab]
  simp only [List.flatMap_append, List.flatMap_cons, List.length_append]
  have h1 := hle a
  have h2 := hle b
  have h3 := (utf16Char_length_le c).2 hc'
  omega

/-! ## UTF-16 -/

theorem char_range (c : Char) : c.toNat < 0xD800 ∨ (0xDFFF < c.toNat ∧ c.toNat < 0x110000) := c.valid

theorem char_toNat_ofNat {n : Nat} (h : n.isValidChar) : (Char.ofNat n).toNat = n := by
  simp [Char.ofNat, h, Char.ofNatAux, Char.toNat]

theorem decode_utf16Char_append (c : Char) (us : List UInt16) :
    decodeUtf16Chars (utf16Char c ++ us) = (decodeUtf16Chars us).map (c :: ·) := by
  have hv := char_range c
  unfold utf16Char
  split
  · rename_i h
    have hu : (UInt16.ofNat c.toNat).toNat = c.toNat := by
      rw [UInt16.toNat_ofNat']; omega
    rw [List.singleton_append, decodeUtf16Chars.eq_def]
    simp only
    rw [hu, if_pos (by omega), Char.ofNat_toNat]
  · rename_i h
    have hu : (UInt16.ofNat (0xD800 + (c.toNat - 0x10000) / 0x400)).toNat =
        0xD800 + (c.toNat - 0x10000) / 0x400 := by
      rw [UInt16.toNat_ofNat']; omega
    have hl : (UInt16.ofNat (0xDC00 + (c.toNat - 0x10000) % 0x400)).toNat =
        0xDC00 + (c.toNat - 0x10000) % 0x400 := by
      rw [UInt16.toNat_ofNat']; omega
    rw [List.cons_append, List.cons_append, List.nil_append, decodeUtf16Chars.eq_def]
    simp only
    rw [hu, if_neg (by omega), if_neg (by omega), hl, if_pos (by omega)]
    have : 0x10000 + (0xD800 + (c.toNat - 0x10000) / 0x400 - 0xD800) * 0x400 +
        (0xDC00 + (c.toNat - 0x10000) % 0x400 - 0xDC00) = c.toNat := by omega
    rw [this, Char.ofNat_toNat]

theorem decode_flatMap_utf16Char (l : List Char) :
    decodeUtf16Chars (l.flatMap utf16Char) = some l := by
  induction l with
  | nil => simp [decodeUtf16Chars]
  | cons c l ih => rw [List.flatMap_cons, decode_utf16Char_append, ih]; rfl

theorem fromUtf16_encodeUtf16 (s : String) : fromUtf16 (encodeUtf16 s) = some s := by
  simp [fromUtf16, encodeUtf16, decode_flatMap_utf16Char]

theorem lossy_of_strict (us : List UInt16) (l : List Char) (h : decodeUtf16Chars us = some l) :
    decodeUtf16CharsLossy us = l := by
  fun_induction decodeUtf16Chars us generalizing l with
  | case1 => simp at h; simp [decodeUtf16CharsLossy, h]
  | case2 u rest hu ih =>
    simp only [Option.map_eq_some_iff] at h
    obtain ⟨a, ha, rfl⟩ := h
    rw [decodeUtf16CharsLossy.eq_def]
    simp only
    rw [if_pos hu, ih a ha]
  | case3 => cases h
  | case4 => cases h
  | case5 u h1 h2 v rest hv ih =>
    simp only [Option.map_eq_some_iff] at h
    obtain ⟨a, ha, rfl⟩ := h
    rw [decodeUtf16CharsLossy.eq_def]
    simp only
    rw [if_neg h1, if_neg h2, if_pos hv, ih a ha]
  | case6 => cases h

theorem fromUtf16Lossy_of_fromUtf16 {us : List UInt16} {s : String} (h : fromUtf16 us = some s) :
    fromUtf16Lossy us = s := by
  unfold fromUtf16 at h
  simp only [Option.map_eq_some_iff] at h
  obtain ⟨l, hl, rfl⟩ := h
  simp [fromUtf16Lossy, lossy_of_strict us l hl]

/-- Units that decode are exactly the encoding of what they decode to. -/
theorem encode_of_decode (us : List UInt16) (l : List Char) (h : decodeUtf16Chars us = some l) :
    l.flatMap utf16Char = us := by
  fun_induction decodeUtf16Chars us generalizing l with
  | case1 => simp at h; simp [h]
  | case2 u rest hu ih =>
    simp only [Option.map_eq_some_iff] at h
    obtain ⟨a, ha, rfl⟩ := h
    have hlt := u.toNat_lt
    have hc : (Char.ofNat u.toNat).toNat = u.toNat := by
      apply char_toNat_ofNat
      show _ < 0xD800 ∨ _
      omega
    rw [List.flatMap_cons, ih a ha]
    simp [utf16Char, hc, show u.toNat < 0x10000 by omega]
  | case3 => cases h
  | case4 => cases h
  | case5 u h1 h2 v rest hv ih =>
    simp only [Option.map_eq_some_iff] at h
    obtain ⟨a, ha, rfl⟩ := h
    have hlt := u.toNat_lt
    have hlt' := v.toNat_lt
    have hc : (Char.ofNat (0x10000 + (u.toNat - 0xD800) * 0x400 + (v.toNat - 0xDC00))).toNat =
        0x10000 + (u.toNat - 0xD800) * 0x400 + (v.toNat - 0xDC00) := by
      apply char_toNat_ofNat
      show _ < 0xD800 ∨ _
      omega
    rw [List.flatMap_cons, ih a ha]
    unfold utf16Char
    rw [hc, if_neg (by omega)]
    have e1 : UInt16.ofNat (0xD800 + (0x10000 + (u.toNat - 0xD800) * 0x400 + (v.toNat - 0xDC00) - 0x10000) / 0x400) = u := by
      apply UInt16.toNat_inj.1
      rw [UInt16.toNat_ofNat']; omega
    have e2 : UInt16.ofNat (0xDC00 + (0x10000 + (u.toNat - 0xD800) * 0x400 + (v.toNat - 0xDC00) - 0x10000) % 0x400) = v := by
      apply UInt16.toNat_inj.1
      rw [UInt16.toNat_ofNat']; omega
    rw [e1, e2]; rfl
  | case6 => cases h

theorem encodeUtf16_of_fromUtf16 {us : List UInt16} {s : String} (h : fromUtf16 us = some s) :
    encodeUtf16 s = us := by
  unfold fromUtf16 at h
  simp only [Option.map_eq_some_iff] at h
  obtain ⟨l, hl, rfl⟩ := h
  simp [encodeUtf16, encode_of_decode us l hl]

/-! ## NUL-terminated strings -/

theorem takeWhile_ne_zero_append {bs : Bytes} (h : (0 : UInt8) ∉ bs) (rest : Bytes) :
    (bs ++ 0 :: rest).takeWhile (· != 0) = bs := by
  induction bs with
  | nil => simp
  | cons b bs ih =>
    simp at h
    have hb : (b != 0) = true := by simp; exact fun h' => h.1 h'.symm
    simp [hb, ih h.2]

theorem readNullString_rt {bs : Bytes} (h : (0 : UInt8) ∉ bs) :
    RT readNullString (encNullString bs) bs := by
  intro d p hd
  unfold readNullString encNullString
  unfold encNullString at hd
  have hb := hd.bound (by simp)
  have e : d.drop p = bs ++ 0 :: d.drop (p + (bs ++ [0]).length) := by
    have h1 := hd.take_drop
    have h2 := List.take_append_drop (bs ++ [0]).length (d.drop p)
    rw [h1, List.drop_drop] at h2
    rw [← h2]; simp
  simp only [e, takeWhile_ne_zero_append h]
  rw [if_pos (by simp)]
  simp; omega

theorem readNullString_inv :
    Inv readNullString (fun bs enc => enc = encNullString bs ∧ (0 : UInt8) ∉ bs) := by
  intro d p bs p' h
  unfold readNullString at h
  simp only at h
  split at h
  · rename_i hl
    simp only [Res.ok.injEq, Prod.mk.injEq] at h
    obtain ⟨rfl, rfl⟩ := h
    have key : ∀ l : Bytes, (l.takeWhile (· != 0)).length < l.length →
        HasAt l 0 (l.takeWhile (· != 0) ++ [0]) ∧ (0 : UInt8) ∉ l.takeWhile (· != 0) := by
      intro l
      induction l with
      | nil => simp
      | cons b l ih =>
        intro hlt
        by_cases hb : b = 0
        · subst hb
          simp only [bne_self_eq_false, Bool.false_eq_true, not_false_eq_true, List.takeWhile_cons_of_neg]
          refine ⟨?_, by simp⟩
          intro i hi
          simp at hi
          subst hi
          simp
        · have hb' : (b != 0) = true := by simpa using hb
          simp only [List.takeWhile_cons, hb', if_true, List.length_cons, Nat.add_lt_add_iff_right] at hlt ⊢
          obtain ⟨h1, h2⟩ := ih hlt
          refine ⟨?_, by simpa using ⟨fun h => hb h.symm, h2⟩⟩
          intro i hi
          cases i with
          | zero => simp
          | succ i =>
            have := h1 i (by simpa using hi)
            simpa using this
    obtain ⟨h1, h2⟩ := key _ hl
    refine ⟨encNullString ((d.drop p).takeWhile (· != 0)), ?_, ?_, rfl, h2⟩
    · intro i hi
      have := h1 i hi
      simpa [encNullString] using this
    · simp [encNullString]; omega
  · cases h

theorem readNullString_np : NP readNullString := by
  intro d p; unfold readNullString; simp only; split <;> simp

end Rekordcrate
