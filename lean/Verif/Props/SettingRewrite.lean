import Verif.Spec.SettingRewrite
import Verif.Props.Setting
import Verif.Lemmas.Header

/-! # C101: which setting files are written back as they were -/

namespace Rekordcrate

theorem zeroFilled_iff {bs : Bytes} {k : Nat} {name pad : Bytes} (h : HasAt bs k (nameField name pad))
    (h0 : (0 : UInt8) ∉ name) (hl : name.length + 1 + pad.length = 32) :
    ZeroFilled bs k ↔ pad = List.replicate (31 - name.length) 0 := by
  have hn : (nameField name pad).length = 32 := by simp [nameField]; omega
  have hat : ∀ a, a < 32 → bs[k + a]? = (nameField name pad)[a]? := fun a ha => h a (by omega)
  have hz : bs[k + name.length]? = some 0 := by
    rw [hat _ (by omega), nameField, List.getElem?_append_right (Nat.le_refl _)]
    simp
  have hp : ∀ a, a < pad.length → bs[k + (name.length + 1 + a)]? = pad[a]? := by
    intro a ha
    rw [hat _ (by omega), nameField, List.getElem?_append_right (by omega),
      show name.length + 1 + a - name.length = a + 1 by omega]
    simp
  constructor
  · intro hf
    rw [List.eq_replicate_iff]
    refine ⟨by omega, fun b hb => ?_⟩
    obtain ⟨a, ha, e⟩ := List.getElem_of_mem hb
    have := hf (k + name.length) (k + (name.length + 1 + a)) (by omega) (by omega) (by omega) hz
    rw [hp a ha, List.getElem?_eq_getElem ha, e] at this
    injection this
  · intro e i j hi hij hj h1
    obtain ⟨a, rfl⟩ : ∃ a, i = k + a := ⟨i - k, by omega⟩
    have ha : name.length ≤ a := by
      by_contra hlt
      rw [hat _ (by omega), nameField, List.getElem?_append_left (by omega)] at h1
      exact h0 (List.mem_of_getElem? h1)
    obtain ⟨b, rfl⟩ : ∃ b, j = k + (name.length + 1 + b) := ⟨j - k - name.length - 1, by omega⟩
    rw [hp b (by omega), e, List.getElem?_replicate, if_pos (by omega)]

theorem hasAt_layout {s : Setting} {bs pad1 pad2 pad3 : Bytes} {ck : UInt16} (hp : PadsFit s pad1 pad2 pad3)
    (hd : s.data.enc.length = dataSize s.data.kind) (h : HasAt bs 0 (settingLayout s pad1 pad2 pad3 ck)) :
    HasAt bs 4 (nameField s.brand pad1) ∧ HasAt bs 36 (nameField s.software pad2) ∧
      HasAt bs 68 (nameField s.version pad3) ∧ HasAt bs (104 + dataSize s.data.kind) (encU16 ck) := by
  obtain ⟨h1, h2, h3⟩ := hp
  have e1 : (nameField s.brand pad1).length = 32 := by simp [nameField]; omega
  have e2 : (nameField s.software pad2).length = 32 := by simp [nameField]; omega
  have e3 : (nameField s.version pad3).length = 32 := by simp [nameField]; omega
  rw [settingLayout, HasAt.append_iff, HasAt.append_iff, HasAt.append_iff, HasAt.append_iff, HasAt.append_iff,
    HasAt.append_iff, HasAt.append_iff, e1, e2, e3, hd] at h
  obtain ⟨-, a, b, c, -, -, e, -⟩ := h
  exact ⟨a, b, c, e⟩

/-- C101: a setting file that was read is written back with the same bytes exactly if nothing follows behind it, the
32-byte fields of its three names are filled with zero bytes, and its checksum is right. -/
theorem setting_rewrite_iff {t : SettingType} {bs : Bytes} {s : Setting} {p : Nat}
    (h : Setting.read t bs 0 = .ok (s, p)) :
    s.enc = .ok bs ↔ bs.length = 108 + dataSize t ∧ ZeroFilled bs 4 ∧ ZeroFilled bs 36 ∧ ZeroFilled bs 68 ∧
      RightChecksum t bs := by
  obtain ⟨hs, rfl, -, pad1, pad2, pad3, ck, hp, hat⟩ := (setting_read_checks_layout_partial ..).1 h
  have hd := SettingData.enc_length hs.2.2.2
  obtain ⟨hb, hso, hv, hck⟩ := hasAt_layout hp hd hat
  have hlen : ∀ c, (settingLayout s pad1 pad2 pad3 c).length = 108 + dataSize s.data.kind := by
    intro c
    obtain ⟨h1, h2, h3⟩ := hp
    simp [settingLayout, nameField, hd]
    omega
  rw [zeroFilled_iff hb hs.1.2 hp.1, zeroFilled_iff hso hs.2.1.2 hp.2.1, zeroFilled_iff hv hs.2.2.1.2 hp.2.2]
  obtain ⟨head, hl, hc, he⟩ := calculateChecksum_eq hs.1.1 hs.2.1.1 hs.2.2.1.1 hs.2.2.2
  have hchecked : ∀ c, checkedBytes s.data.kind (head ++ (s.data.enc ++ (encU16 c ++ [0, 0]))) =
      if s.data.kind = .djmMySetting then head ++ s.data.enc else s.data.enc := by
    intro c
    unfold checkedBytes
    by_cases hk : s.data.kind = .djmMySetting
    · simp only [if_pos hk, List.drop_zero, Nat.sub_zero]
      rw [← List.append_assoc, List.take_left' (by simp [hl, hd])]
    · simp only [if_neg hk, Nat.add_sub_cancel_left]
      rw [List.drop_left' hl, List.take_left' hd]
  rw [enc_eq_with hc]
  constructor
  · intro hw
    have hw1 := hw
    rw [encWith_ok hs.1.1 hs.2.1.1 hs.2.2.1.1] at hw1
    have hw2 := hw
    rw [he] at hw2
    injection hw1 with hw1
    injection hw2 with hw2
    have hfit : PadsFit s (List.replicate (31 - s.brand.length) 0) (List.replicate (31 - s.software.length) 0)
        (List.replicate (31 - s.version.length) 0) := by
      have h1 := hs.1.1
      have h2 := hs.2.1.1
      have h3 := hs.2.2.1.1
      simp [PadsFit]; omega
    have hself := hasAt_self bs
    nth_rw 2 [← hw1] at hself
    obtain ⟨gb, gs, gv, gc⟩ := hasAt_layout hfit hd hself
    refine ⟨by rw [← hw2]; simp [hl, hd, encU16, leEnc]; omega, ?_, ?_, ?_, _, gc, ?_⟩
    · have := hb.eq_of_length gb (by simp [nameField]; have := hp.1; have := hs.1.1; omega)
      simpa [nameField] using this
    · have := hso.eq_of_length gs (by simp [nameField]; have := hp.2.1; have := hs.2.1.1; omega)
      simpa [nameField] using this
    · have := hv.eq_of_length gv (by simp [nameField]; have := hp.2.2; have := hs.2.2.1.1; omega)
      simpa [nameField] using this
    · rw [← hw2, hchecked]
      exact crc16_isCrc _
  · rintro ⟨hn, e1, e2, e3, c, hcat, hcrc⟩
    have hbs : settingLayout s pad1 pad2 pad3 ck = bs := hat.eq_of_length (hasAt_self bs) (by rw [hlen, hn])
    have hcc : c = ck := by
      have := hcat.eq_of_length hck (by simp [encU16, leEnc])
      exact encU16_inj this
    rw [hcc] at hcrc
    have h1 := encWith_ok hs.1.1 hs.2.1.1 hs.2.2.1.1 ck
    rw [← e1, ← e2, ← e3, hbs] at h1
    rw [he] at h1
    injection h1 with h1
    rw [← h1, hchecked] at hcrc
    rw [he, ← setting_checksum_unique hcrc (crc16_isCrc _), h1]

/-- C101 is false in full: a file with a wrong checksum is read, and is not written back as it was. -/
theorem setting_rewrite_differs :
    ∃ (t : SettingType) (bs : Bytes) (s : Setting) (p : Nat), bs.length = 108 + dataSize t ∧
      Setting.read t bs 0 = .ok (s, p) ∧ s.enc ≠ .ok bs := by
  obtain ⟨front, c, h1, -⟩ := setting_checksum_ignored default_settings_proper.2.2.1 0
  obtain ⟨bs, e, hl, -⟩ := setting_roundtrip default_settings_proper.2.2.1
  rw [h1] at e
  injection e with e
  have h2 := (setting_checksum_ignored default_settings_proper.2.2.1 (c + 1))
  obtain ⟨front', c', h3, h4⟩ := h2
  rw [h1] at h3
  injection h3 with h3
  have hf := List.append_inj' h3 (by simp [encU16, leEnc])
  rw [← hf.1] at h4
  refine ⟨_, _, _, _, ?_, h4, ?_⟩
  · rw [← hl, ← e]
    simp [encU16, leEnc]
  · rw [h1]
    intro h5
    injection h5 with h5
    have h6 := (List.append_inj' h5 (by simp [encU16, leEnc])).2
    have h7 := encU16_inj (List.append_inj' h6 rfl).1
    simp at h7

/-- C101: what is written is written back as it was when it is read again. -/
theorem setting_rewrite_stable {t : SettingType} {bs : Bytes} {s : Setting} {p : Nat}
    (h : Setting.read t bs 0 = .ok (s, p)) :
    ∃ bs', s.enc = .ok bs' ∧ Setting.read t bs' 0 = .ok (s, bs'.length) ∧ RightChecksum t bs' ∧
      ZeroFilled bs' 4 ∧ ZeroFilled bs' 36 ∧ ZeroFilled bs' 68 := by
  obtain ⟨hs, hk⟩ := read_setting_proper h
  subst hk
  obtain ⟨bs', he, -, hr⟩ := setting_roundtrip hs
  have h1 := hr bs' 0 (hasAt_self _)
  rw [Nat.zero_add] at h1
  obtain ⟨-, a, b, c, d⟩ := (setting_rewrite_iff h1).1 he
  exact ⟨bs', he, h1, d, a, b, c⟩

/-- The file of the default settings meets the hypotheses, and the conditions. -/
example : ∃ bs p, Setting.read .mySetting bs 0 = .ok (Setting.defaultMySetting, p) ∧
    Setting.defaultMySetting.enc = .ok bs ∧ RightChecksum .mySetting bs ∧ ZeroFilled bs 4 := by
  obtain ⟨bs, he, -, hr⟩ := setting_roundtrip default_settings_proper.2.2.1
  have h1 := hr bs 0 (hasAt_self _)
  obtain ⟨-, a, -, -, d⟩ := (setting_rewrite_iff h1).1 he
  exact ⟨bs, _, h1, he, d, a⟩

end Rekordcrate
