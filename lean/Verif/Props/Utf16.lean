import Verif.Spec.Utf16
import Verif.Props.DString
import Verif.Props.AnlzPanic

/-! # C107: text that is not ASCII is stored as UTF-16 -/

namespace Rekordcrate

/-- The units that are written for a text are its UTF-16 form. -/
theorem isUtf16_encode (cs : List Char) : IsUtf16 cs (cs.flatMap utf16Char) := by
  induction cs with
  | nil => exact .nil
  | cons c cs ih =>
    have hv := char_range c
    rw [List.flatMap_cons]
    unfold utf16Char
    split
    · exact .unit (by rw [UInt16.toNat_ofNat']; omega) ih
    · have hu : (UInt16.ofNat (0xD800 + (c.toNat - 0x10000) / 0x400)).toNat = 0xD800 + (c.toNat - 0x10000) / 0x400 := by
        rw [UInt16.toNat_ofNat']; omega
      have hl : (UInt16.ofNat (0xDC00 + (c.toNat - 0x10000) % 0x400)).toNat = 0xDC00 + (c.toNat - 0x10000) % 0x400 := by
        rw [UInt16.toNat_ofNat']; omega
      exact .pair (by omega) (by omega) (by omega) ih

/-- Units are the UTF-16 form of at most one text, and a text has one UTF-16 form. -/
theorem IsUtf16.eq_encode {cs : List Char} {us : List UInt16} (h : IsUtf16 cs us) : us = cs.flatMap utf16Char := by
  induction h with
  | nil => rfl
  | @unit c u cs us h t ih =>
    have := u.toNat_lt
    rw [List.flatMap_cons, ih]
    unfold utf16Char
    rw [if_pos (by omega), ← h, UInt16.ofNat_toNat]
    rfl
  | @pair c hi lo cs us hhi hlo h t ih =>
    rw [List.flatMap_cons, ih]
    unfold utf16Char
    rw [if_neg (by omega)]
    have e1 : UInt16.ofNat (0xD800 + (c.toNat - 0x10000) / 0x400) = hi := by
      apply UInt16.toNat_inj.1
      rw [UInt16.toNat_ofNat']; omega
    have e2 : UInt16.ofNat (0xDC00 + (c.toNat - 0x10000) % 0x400) = lo := by
      apply UInt16.toNat_inj.1
      rw [UInt16.toNat_ofNat']; omega
    rw [e1, e2]
    rfl

/-- C107: the function that turns a text into units gives its UTF-16 form. -/
theorem utf16_encode_iff (s : String) (us : List UInt16) : encodeUtf16 s = us ↔ IsUtf16 s.toList us :=
  ⟨fun h => h ▸ isUtf16_encode _, fun h => h.eq_encode.symm⟩

/-- C107: the function that turns units into a text accepts exactly UTF-16, and gives the text. -/
theorem utf16_decode_iff (us : List UInt16) (s : String) : fromUtf16 us = some s ↔ IsUtf16 s.toList us := by
  rw [← utf16_encode_iff]
  exact ⟨encodeUtf16_of_fromUtf16, fun h => h ▸ fromUtf16_encodeUtf16 s⟩

theorem shownUtf16_lossy (us : List UInt16) : ShownUtf16 us (decodeUtf16CharsLossy us) := by
  fun_induction decodeUtf16CharsLossy us with
  | case1 => exact .nil
  | case2 u rest hu ih =>
    have := u.toNat_lt
    exact .unit (char_toNat_ofNat (by show _ < 0xD800 ∨ _; omega)).symm ih
  | case3 u rest h1 h2 ih => exact .low (by omega) ih
  | case4 u h1 h2 => exact .high (by omega) (fun v hv => by cases hv) .nil
  | case5 u h1 h2 v rest hv ih =>
    have := u.toNat_lt
    exact .pair (by omega) hv (char_toNat_ofNat (by show _ < 0xD800 ∨ _; omega)) ih
  | case6 u h1 h2 v rest hv ih =>
    refine .high (by omega) (fun w hw => ?_) ih
    rw [List.head?_cons, Option.some.injEq] at hw
    subst hw
    exact hv

theorem ShownUtf16.eq_lossy {us : List UInt16} {cs : List Char} (h : ShownUtf16 us cs) : decodeUtf16CharsLossy us = cs := by
  induction h with
  | nil => rw [decodeUtf16CharsLossy]
  | @unit c u cs us h t ih =>
    have hv := char_range c
    rw [decodeUtf16CharsLossy.eq_def]
    simp only
    rw [if_pos (by omega), ih, h, Char.ofNat_toNat]
  | @pair c hi lo cs us hhi hlo h t ih =>
    rw [decodeUtf16CharsLossy.eq_def]
    simp only
    rw [if_neg (by omega), if_neg (by omega), if_pos hlo, ih, ← h, Char.ofNat_toNat]
  | @high u cs us h hn t ih =>
    rw [decodeUtf16CharsLossy.eq_def]
    simp only
    rw [if_neg (by omega), if_neg (by omega)]
    cases us with
    | nil =>
      rw [decodeUtf16CharsLossy] at ih
      subst ih
      rfl
    | cons v us =>
      simp only
      rw [if_neg (hn v rfl), ih]
  | @low u cs us h t ih =>
    rw [decodeUtf16CharsLossy.eq_def]
    simp only
    rw [if_neg (by omega), if_pos h.1, ih]

/-- C107: a text is stored as UTF-16 by `new` exactly if it is not ASCII and has at most 32767 bytes in UTF-8, and the
units are its UTF-16 form. -/
theorem new_wide_iff (s : String) (us : List UInt16) : DString.new s = .ok (.long (.ucs2le us)) ↔
    ¬ AsciiText s ∧ (utf8 s).length ≤ 32767 ∧ IsUtf16 s.toList us := by
  obtain ⟨h1, h2⟩ := string_new_accepts s
  rw [← utf16_encode_iff]
  by_cases hl : (utf8 s).length ≤ 32767
  · obtain ⟨h3, h4, h5⟩ := h2 hl
    by_cases ha : AsciiText s
    · by_cases hs : (utf8 s).length ≤ 126
      · rw [h3 ha hs]
        simp [ha]
      · rw [h4 ha (by omega)]
        simp [ha]
    · rw [h5 ha]
      simp [ha, hl]
  · rw [h1 (by omega)]
    simp [hl]

/-- C107: the text of units that were stored or read is the one that they are the UTF-16 form of; there is no text
exactly if they are no UTF-16. -/
theorem wide_text_iff (us : List UInt16) (s : String) :
    (DString.long (.ucs2le us)).intoString = .ok s ↔ IsUtf16 s.toList us := by
  rw [← utf16_decode_iff]
  unfold DString.intoString Res.ofOption
  cases hf : fromUtf16 us <;> simp [hf]

theorem wide_text_error_iff (us : List UInt16) :
    (DString.long (.ucs2le us)).intoString = .err .encoding ↔ ∀ cs, ¬ IsUtf16 cs us := by
  have h : ∀ cs, IsUtf16 cs us ↔ fromUtf16 us = some (String.ofList cs) := fun cs => by
    rw [utf16_decode_iff, String.toList_ofList]
  unfold DString.intoString Res.ofOption
  simp only [h]
  cases hf : fromUtf16 us with
  | none => simp
  | some s =>
    simp only [reduceCtorEq, false_iff, Option.some.injEq]
    intro h
    exact h s.toList (by rw [String.ofList_toList])

/-- C107: showing such a string never fails; surrogates without partner are shown as U+FFFD. -/
theorem wide_display_iff (lossy : Bytes → String) (us : List UInt16) (s : String) :
    (DString.long (.ucs2le us)).display lossy = .ok s ↔ ShownUtf16 us s.toList := by
  unfold DString.display fromUtf16Lossy
  simp only [Res.ok.injEq]
  constructor
  · rintro rfl
    rw [String.toList_ofList]
    exact shownUtf16_lossy us
  · intro h
    rw [h.eq_lossy, String.ofList_toList]

/-- C107: the comment of a cue is stored in UTF-16, big endian, behind its length, with a terminating unit. -/
theorem comment_units {s : Anlz.WideString} {bs : Bytes} (h : s.enc = .ok bs) (hne : s.val ≠ "") :
    ∃ us, IsUtf16 s.val.toList us ∧ ∃ len : UInt32, bs = encU32be len ++ (us.flatMap encU16be ++ [0, 0]) := by
  refine ⟨_, (utf16_encode_iff s.val _).1 rfl, ?_⟩
  unfold Anlz.WideString.enc at h
  obtain ⟨n, hn, h⟩ := Res.bind_eq_ok.1 h
  unfold Anlz.WideString.byteLen at hn
  rw [if_neg (by simpa [String.isEmpty_iff] using hne)] at hn
  simp only at hn
  split at hn
  · split at hn
    · simp only [Res.ok.injEq] at hn
      rw [if_pos (by omega)] at h
      simp only [Res.ok.injEq] at h
      exact ⟨_, h.symm⟩
    · cases hn
  · cases hn

theorem pairUnits_getElem? (raw : Bytes) (i : Nat) (u : UInt16) (h : (Anlz.pairUnits raw)[i]? = some u) :
    U16BeAt raw (2 * i) u.toNat := by
  fun_induction Anlz.pairUnits raw generalizing i with
  | case1 a b rest ih =>
    cases i with
    | zero =>
      rw [List.getElem?_cons_zero, Option.some.injEq] at h
      subst h
      have ha := a.toNat_lt
      have hb := b.toNat_lt
      refine ⟨a, b, rfl, rfl, ?_⟩
      rw [UInt16.toNat_ofNat']
      simp only [beDec, List.reverse_cons, List.reverse_nil, List.nil_append, List.cons_append, leDec]
      omega
    | succ i =>
      rw [List.getElem?_cons_succ] at h
      obtain ⟨hi, lo, h1, h2, h3⟩ := ih i h
      refine ⟨hi, lo, ?_, ?_, h3⟩
      · rw [show 2 * (i + 1) = 2 * i + 1 + 1 by omega]
        simpa using h1
      · rw [show 2 * (i + 1) + 1 = 2 * i + 1 + 1 + 1 by omega]
        simpa using h2
  | case2 => cases h

/-- The units are determined by their number and by being stored there. -/
theorem eq_pairUnits {raw : Bytes} {us : List UInt16} (hl : us.length = raw.length / 2)
    (h : ∀ i u, us[i]? = some u → U16BeAt raw (2 * i) u.toNat) : us = Anlz.pairUnits raw := by
  have hl' := Anlz.pairUnits_length raw
  apply List.ext_getElem? fun i => ?_
  by_cases hi : i < us.length
  · have e1 := List.getElem?_eq_getElem hi
    have e2 := List.getElem?_eq_getElem (show i < (Anlz.pairUnits raw).length by omega)
    obtain ⟨a, b, h1, h2, h3⟩ := h i _ e1
    obtain ⟨a', b', h1', h2', h3'⟩ := pairUnits_getElem? raw i _ e2
    rw [h1, Option.some.injEq] at h1'
    rw [h2, Option.some.injEq] at h2'
    subst h1' h2'
    rw [e1, e2]
    exact congrArg some (UInt16.toNat_inj.1 (h3.trans h3'.symm))
  · rw [List.getElem?_eq_none (by omega), List.getElem?_eq_none (by omega)]

theorem eq_trimNuls_iff (t v : String) : v = Anlz.trimNuls t ↔
    v.toList.getLast? ≠ some (Char.ofNat 0) ∧ ∃ n, t.toList = v.toList ++ List.replicate n (Char.ofNat 0) := by
  constructor
  · rintro rfl
    refine ⟨Anlz.trimNuls_noTrailing t, (t.toList.reverse.takeWhile (· == Char.ofNat 0)).length, ?_⟩
    have hall : t.toList.reverse.takeWhile (· == Char.ofNat 0) =
        List.replicate (t.toList.reverse.takeWhile (· == Char.ofNat 0)).length (Char.ofNat 0) :=
      List.eq_replicate_iff.2 ⟨rfl, fun c hc => by
        have := List.all_eq_true.1 (List.all_takeWhile (p := (· == Char.ofNat 0)) (l := t.toList.reverse)) c hc
        simpa using this⟩
    unfold Anlz.trimNuls
    rw [String.toList_ofList, ← List.reverse_replicate, ← hall, ← List.reverse_append, List.takeWhile_append_dropWhile,
      List.reverse_reverse]
  · rintro ⟨hv, n, ht⟩
    have : t = v ++ String.ofList (List.replicate n (Char.ofNat 0)) := by
      rw [← String.toList_inj, String.toList_append, String.toList_ofList, ht]
    rw [this]
    clear this ht
    induction n with
    | zero =>
      rw [List.replicate_zero, String.ofList_nil, String.append_empty]
      exact (Anlz.trimNuls_eq hv).symm
    | succ n ih =>
      rw [List.replicate_succ', String.ofList_append, ← String.append_assoc, Anlz.trimNuls_append]
      exact ih

/-- C107: bytes behind a length field are read as this comment exactly if they are its UTF-16 form, big endian, up to
NUL characters at the end (and one byte if their number is odd). -/
theorem comment_reads_iff (s : Anlz.WideString) (raw : Bytes) : s.ReadsFrom raw ↔
    (raw = [] ∧ s.val = "") ∨ (raw ≠ [] ∧ s.NoTrailingNul ∧ ∃ (n : Nat) (us : List UInt16), us.length = raw.length / 2 ∧
      (∀ i u, us[i]? = some u → U16BeAt raw (2 * i) u.toNat) ∧
      IsUtf16 (s.val.toList ++ List.replicate n (Char.ofNat 0)) us) := by
  unfold Anlz.WideString.ReadsFrom Anlz.WideString.NoTrailingNul
  refine or_congr Iff.rfl (and_congr Iff.rfl ⟨?_, ?_⟩)
  · rintro ⟨t, ht, hs⟩
    obtain ⟨h1, n, h2⟩ := (eq_trimNuls_iff _ _).1 hs
    exact ⟨h1, n, _, Anlz.pairUnits_length raw, pairUnits_getElem? raw, h2 ▸ (utf16_decode_iff _ _).1 ht⟩
  · rintro ⟨h1, n, us, hl, hu, h⟩
    rw [eq_pairUnits hl hu] at h
    exact ⟨String.ofList (s.val.toList ++ List.replicate n (Char.ofNat 0)),
      (utf16_decode_iff _ _).2 (by rwa [String.toList_ofList]),
      (eq_trimNuls_iff _ _).2 ⟨h1, n, by rw [String.toList_ofList]⟩⟩

/-- C107: so a comment is read exactly if its length and such bytes are there. -/
theorem comment_read_iff (d : Bytes) (p q : Nat) (s : Anlz.WideString) : Anlz.WideString.read d p = .ok (s, q) ↔
    ∃ raw : Bytes, U32BeAt d p raw.length ∧ HasAt d (p + 4) raw ∧ q = p + 4 + raw.length ∧ s.ReadsFrom raw := by
  constructor
  · intro h
    obtain ⟨bs, hb, rfl, raw, hl, rfl, hr⟩ := Anlz.WideString.inv _ _ _ _ h
    rw [HasAt.append_iff, encU32be_length] at hb
    have := U32BeAt.of_hasAt hb.1
    rw [Anlz.toNat_ofNat32 hl] at this
    exact ⟨raw, this, hb.2, by rw [List.length_append, encU32be_length]; omega, hr⟩
  · rintro ⟨raw, hu, hb, rfl, hr⟩
    have hl := U32BeAt.lt hu
    rw [← Anlz.toNat_ofNat32 hl] at hu
    have := Anlz.WideString.rt hr hl d p (HasAt.append_iff.2 ⟨U32BeAt.hasAt hu, by rwa [encU32be_length]⟩)
    rw [this, List.length_append, encU32be_length, Nat.add_assoc]

/-! ## Examples -/

/-- C107: `a𝄞` is one unit and a pair. -/
example : IsUtf16 "a𝄞".toList [0x61, 0xD834, 0xDD1E] :=
  .unit (by decide) (.pair (by decide) (by decide) (by decide) .nil)

example : DString.new "a𝄞" = .ok (.long (.ucs2le [0x61, 0xD834, 0xDD1E])) :=
  (new_wide_iff _ _).2 ⟨fun h => absurd (h '𝄞' (by decide)) (by decide), by decide +kernel,
    .unit (by decide) (.pair (by decide) (by decide) (by decide) .nil)⟩

/-- C107: a low surrogate in front of a high one is no text and is shown as two replacement characters. -/
example : (DString.long (.ucs2le [0xDD1E, 0xD834])).intoString = .err .encoding :=
  (wide_text_error_iff _).2 fun cs h => by
    cases h with
    | @unit c u cs us h t => have := char_range c; rw [← h] at this; revert this; decide
    | pair hhi => exact absurd hhi (by decide)

example (lossy : Bytes → String) : (DString.long (.ucs2le [0xDD1E, 0xD834])).display lossy = .ok "��" :=
  (wide_display_iff _ _ _).2 (.low (by decide) (.high (by decide) (fun v hv => by cases hv) .nil))

/-- C107: `é` and a terminator are read as the comment `é`. -/
example : Anlz.WideString.read [0, 0, 0, 4, 0, 0xe9, 0, 0] 0 = .ok (⟨"é"⟩, 8) :=
  (comment_read_iff _ _ _ _).2 ⟨[0, 0xe9, 0, 0], ⟨0, 0, 0, 4, rfl, rfl, rfl, rfl, rfl⟩,
    fun i hi => by match i, hi with | 0, _ => rfl | 1, _ => rfl | 2, _ => rfl | 3, _ => rfl,
    rfl, (comment_reads_iff _ _).2 (.inr ⟨by decide, by unfold Anlz.WideString.NoTrailingNul; decide +kernel, 1, [0xe9, 0], rfl,
      fun i u h => by
        match i, h with
        | 0, h => cases h; exact ⟨0, 0xe9, rfl, rfl, rfl⟩
        | 1, h => cases h; exact ⟨0, 0, rfl, rfl, rfl⟩,
      .unit (by decide) (.unit (by decide) .nil)⟩)⟩

/-- C107: the hypotheses of `comment_units` are met by that comment. -/
example : ∃ us, IsUtf16 "é".toList us ∧ ∃ len : UInt32,
    [0, 0, 0, 4, 0, 0xe9, 0, 0] = encU32be len ++ (us.flatMap encU16be ++ [0, 0]) :=
  comment_units (s := ⟨"é"⟩) (by decide +kernel) (by decide)

/-- C107: the text of a unit and a pair. -/
example : (DString.long (.ucs2le [0x61, 0xD834, 0xDD1E])).intoString = .ok "a𝄞" :=
  (wide_text_iff _ _).2 (.unit (by decide) (.pair (by decide) (by decide) (by decide) .nil))

end Rekordcrate
