import Verif.Props.DString
import Verif.Spec.StringEq
import Verif.Lemmas.Layout

/-! # C103: when strings compare equal -/

namespace Rekordcrate

/-- The text of a string and the way it is stored determine it. -/
theorem DString.of_text {v : DString} {s : String} (h : v.intoString = .ok s) :
    (v.form = .short → v = .short (utf8 s)) ∧ (v.form = .ascii → v = .long (.ascii (utf8 s))) ∧
    (v.form = .isrc → v = .long (.isrc (utf8 s))) ∧ (v.form = .wide → v = .long (.ucs2le (encodeUtf16 s))) := by
  have key : ∀ c : Bytes, Res.ofOption Err.encoding (fromUtf8 c) = .ok s → c = utf8 s := by
    intro c hc
    cases hf : fromUtf8 c with
    | none => rw [hf] at hc; cases hc
    | some t =>
      rw [hf] at hc
      injection hc with hc
      subst hc
      exact (utf8_of_fromUtf8 hf).symm
  rcases v with c | (c | c | us)
  · simp [DString.form, key c h]
  · simp [DString.form, key c h]
  · simp [DString.form, key c h]
  · have : us = encodeUtf16 s := by
      simp only [DString.intoString] at h
      cases hf : fromUtf16 us with
      | none => rw [hf] at h; cases h
      | some t =>
        rw [hf] at h
        injection h with h
        subst h
        exact (encodeUtf16_of_fromUtf16 hf).symm
    simp [DString.form, this]

/-- C103 (proved part, exact): strings with a valid text compare equal exactly if they have the same text and it is
stored in the same way.  Missing: the same text stored in different ways. -/
theorem string_eq_iff_partial {v w : DString} {s t : String} (hv : v.intoString = .ok s) (hw : w.intoString = .ok t) :
    v = w ↔ s = t ∧ v.form = w.form := by
  constructor
  · rintro rfl
    rw [hv] at hw
    injection hw with hw
    exact ⟨hw, rfl⟩
  · rintro ⟨rfl, hf⟩
    obtain ⟨a1, a2, a3, a4⟩ := DString.of_text hv
    obtain ⟨b1, b2, b3, b4⟩ := DString.of_text hw
    cases h : v.form with
    | short => rw [a1 h, b1 (hf ▸ h)]
    | ascii => rw [a2 h, b2 (hf ▸ h)]
    | isrc => rw [a3 h, b3 (hf ▸ h)]
    | wide => rw [a4 h, b4 (hf ▸ h)]

private theorem intoString_new {s : String} {v : DString} (h : DString.new s = .ok v) : v.intoString = .ok s := by
  obtain ⟨hl, ha⟩ := string_new_accepts s
  have hlen : (utf8 s).length ≤ 32767 := by
    apply Nat.le_of_not_lt
    intro hc
    rw [hl hc] at h
    cases h
  obtain ⟨h1, h2, h3⟩ := ha hlen
  by_cases hs : AsciiText s
  · by_cases hn : (utf8 s).length ≤ 126
    · rw [h1 hs hn] at h
      injection h with h
      subst h
      simp [DString.intoString, fromUtf8_utf8, Res.ofOption]
    · rw [h2 hs (by omega)] at h
      injection h with h
      subst h
      simp [DString.intoString, fromUtf8_utf8, Res.ofOption]
  · rw [h3 hs] at h
    injection h with h
    subst h
    simp [DString.intoString, fromUtf16_encodeUtf16, Res.ofOption]

/-- C103: a string made from a text stores it in the usual form. -/
theorem new_usual_form {s : String} {v : DString} (h : DString.new s = .ok v) (f : StringForm) :
    v.form = f ↔ UsualForm s f := by
  obtain ⟨hl, ha⟩ := string_new_accepts s
  have hlen : (utf8 s).length ≤ 32767 := by
    apply Nat.le_of_not_lt
    intro hc
    rw [hl hc] at h
    cases h
  obtain ⟨h1, h2, h3⟩ := ha hlen
  by_cases hs : AsciiText s
  · by_cases hn : (utf8 s).length ≤ 126
    · rw [h1 hs hn] at h
      injection h with h
      subst h
      cases f <;> simp [DString.form, UsualForm, hs, hn]
    · rw [h2 hs (by omega)] at h
      injection h with h
      subst h
      cases f <;> simp [DString.form, UsualForm, hs, hn]
      omega
  · rw [h3 hs] at h
    injection h with h
    subst h
    cases f <;> simp [DString.form, UsualForm, hs]

/-- C103: strings made from texts compare equal exactly if the texts are the same. -/
theorem new_eq_iff {s t : String} {v w : DString} (hv : DString.new s = .ok v) (hw : DString.new t = .ok w) :
    v = w ↔ s = t := by
  rw [string_eq_iff_partial (intoString_new hv) (intoString_new hw)]
  constructor
  · exact fun h => h.1
  · rintro rfl
    rw [hv] at hw
    injection hw with hw
    exact ⟨rfl, by rw [hw]⟩

/-- C103: a string with the text `s` compares equal to the one made from `s` exactly if it stores `s` in the usual
form. -/
theorem eq_new_iff {v w : DString} {s : String} (hv : v.intoString = .ok s) (hw : DString.new s = .ok w) :
    v = w ↔ UsualForm s v.form := by
  rw [string_eq_iff_partial hv (intoString_new hw), ← new_usual_form hw]
  exact ⟨fun h => h.2.symm, fun h => ⟨rfl, h.symm⟩⟩

/-- The form of a string that was read is what its first bytes say. -/
theorem read_form {d : Bytes} {p p' : Nat} {v : DString} (h : DString.read d p = .ok (v, p')) :
    FormByte d p v.form := by
  obtain ⟨bs, hb, rfl, hp⟩ := DString.read_inv _ _ _ _ h
  have first : ∀ {b : UInt8} {rest : Bytes}, HasAt d p (b :: rest) → d[p]? = some b := by
    intro b rest hh
    have := hh 0 (by simp)
    simpa using this
  cases hp with
  | short c hc =>
    refine ⟨_, first hb, ?_⟩
    simp [UInt8.toNat_ofNat']
  | ascii c hc => exact first (by simpa [longBytes] using hb)
  | ucs2le us hu => exact first (by simpa [longBytes] using hb)
  | isrc c len h4 hl h0 =>
    refine ⟨first (by simpa [longBytes] using hb), ?_⟩
    have := hb 4 (by simp [longBytes, encU16]; omega)
    have hl2 : (leEnc 2 (len % 65536)).length = 2 := leEnc_length 2 _
    simpa [longBytes, encU16, List.getElem?_append_right, hl2] using this

/-- C103 is false in full: the text `a` read from its short form, from a long ASCII string, from a UTF-16 string and
from an ISRC gives four strings that all have the text `a`, of which no two compare equal; only the first compares
equal to the string made from `a`. -/
theorem same_text_not_equal :
    ∃ v₁ v₂ v₃ v₄ : DString,
      DString.read [5, 97] 0 = .ok (v₁, 2) ∧ DString.read [0x40, 5, 0, 0, 97] 0 = .ok (v₂, 5) ∧
      DString.read [0x90, 6, 0, 0, 97, 0] 0 = .ok (v₃, 6) ∧ DString.read [0x90, 7, 0, 0, 3, 97, 0] 0 = .ok (v₄, 7) ∧
      (∀ v ∈ [v₁, v₂, v₃, v₄], v.intoString = .ok "a") ∧ [v₁, v₂, v₃, v₄].Pairwise (· ≠ ·) ∧
      DString.new "a" = .ok v₁ :=
  ⟨.short [97], .long (.ascii [97]), .long (.ucs2le [97]), .long (.isrc [97]), by decide +kernel, by decide +kernel,
    by decide +kernel, by decide +kernel, by decide +kernel, by decide +kernel, by decide +kernel⟩

/-- Text that is not ASCII in a short string is read, but does not compare equal to the string made from it. -/
example : ∃ v w, DString.read [7, 0xC3, 0xA9] 0 = .ok (v, 3) ∧ v.intoString = .ok "é" ∧ DString.new "é" = .ok w ∧
    v ≠ w ∧ ¬ UsualForm "é" v.form :=
  ⟨.short [0xC3, 0xA9], .long (.ucs2le [0xE9]), by decide +kernel, by decide +kernel, by decide +kernel,
    by decide +kernel, fun h => absurd h.1 (by intro ha; exact absurd (ha 'é' (by decide +kernel)) (by decide +kernel))⟩

/-- The same text in UTF-16 does. -/
example : ∃ v w, DString.read [0x90, 6, 0, 0, 0xE9, 0] 0 = .ok (v, 6) ∧ v.intoString = .ok "é" ∧
    DString.new "é" = .ok w ∧ v = w :=
  ⟨.long (.ucs2le [0xE9]), .long (.ucs2le [0xE9]), by decide +kernel, by decide +kernel, by decide +kernel, rfl⟩

end Rekordcrate
