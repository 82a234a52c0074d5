import Verif.Lemmas.Layout
import Verif.Props.Header
import Verif.Lemmas.DString
import Verif.Props.Setting

/-! # Byte positions of the fields of files (C64) -/

namespace Rekordcrate
open Rd

/-- C64: where a written `DEVSETTING` file stores each option. -/
theorem devSetting_option_positions {x : Setting} {s : DevSetting} (hx : x.data = .devSetting s) (h : s.Shape ∧ s.Fixed)
    {bs : Bytes} (hb : x.enc = .ok bs) :
    ByteAt bs 0x71 (OptionCode.code s.overviewWaveformType) ∧
    ByteAt bs 0x72 (OptionCode.code s.waveformColor) ∧
    ByteAt bs 0x74 (OptionCode.code s.keyDisplayFormat) ∧
    ByteAt bs 0x75 (OptionCode.code s.waveformCurrentPosition) := by
  obtain ⟨head, ck, hl, rfl, -⟩ := setting_checksum_is_crc (s := x) (by rw [hx]; exact h) hb
  have hd : HasAt (head ++ (x.data.enc ++ (encU16 ck ++ [0, 0]))) 104 x.data.enc := by
    rw [← hl, ← List.append_assoc]; exact hasAt_append_mid _ _ _
  revert hd
  generalize head ++ (x.data.enc ++ (encU16 ck ++ [0, 0])) = bs
  intro hd
  rw [hx] at hd
  obtain ⟨⟨l1, l2⟩, -⟩ := h
  simp only [SettingData.enc, DevSetting.enc, HasAt.append_iff, l1, l2, encOption_length, encU8_length, encU16_length,
    Nat.reduceAdd] at hd
  obtain ⟨h0, h1, h2, h3, h4, h5, h6⟩ := hd
  exact ⟨.of_hasAt h1, .of_hasAt h2, .of_hasAt h4, .of_hasAt h5⟩

/-- C64: where a written `DJMMYSETTING` file stores each option. -/
theorem djmMySetting_option_positions {x : Setting} {s : DJMMySetting} (hx : x.data = .djmMySetting s) (h : s.Shape ∧ s.Fixed)
    {bs : Bytes} (hb : x.enc = .ok bs) :
    ByteAt bs 0x74 (OptionCode.code s.channelFaderCurve) ∧
    ByteAt bs 0x75 (OptionCode.code s.crossfaderCurve) ∧
    ByteAt bs 0x76 (OptionCode.code s.headphonesPreEq) ∧
    ByteAt bs 0x77 (OptionCode.code s.headphonesMonoSplit) ∧
    ByteAt bs 0x78 (OptionCode.code s.beatFxQuantize) ∧
    ByteAt bs 0x79 (OptionCode.code s.micLowCut) ∧
    ByteAt bs 0x7a (OptionCode.code s.talkOverMode) ∧
    ByteAt bs 0x7b (OptionCode.code s.talkOverLevel) ∧
    ByteAt bs 0x7c (OptionCode.code s.midiChannel) ∧
    ByteAt bs 0x7d (OptionCode.code s.midiButtonType) ∧
    ByteAt bs 0x7e (OptionCode.code s.displayBrightness) ∧
    ByteAt bs 0x7f (OptionCode.code s.indicatorBrightness) ∧
    ByteAt bs 0x80 (OptionCode.code s.channelFaderCurveLongFader) := by
  obtain ⟨head, ck, hl, rfl, -⟩ := setting_checksum_is_crc (s := x) (by rw [hx]; exact h) hb
  have hd : HasAt (head ++ (x.data.enc ++ (encU16 ck ++ [0, 0]))) 104 x.data.enc := by
    rw [← hl, ← List.append_assoc]; exact hasAt_append_mid _ _ _
  revert hd
  generalize head ++ (x.data.enc ++ (encU16 ck ++ [0, 0])) = bs
  intro hd
  rw [hx] at hd
  obtain ⟨⟨l1, l2⟩, -⟩ := h
  simp only [SettingData.enc, DJMMySetting.enc, HasAt.append_iff, l1, l2, encOption_length, encU8_length, encU16_length,
    Nat.reduceAdd] at hd
  obtain ⟨h0, h1, h2, h3, h4, h5, h6, h7, h8, h9, h10, h11, h12, h13, h14⟩ := hd
  exact ⟨.of_hasAt h1, .of_hasAt h2, .of_hasAt h3, .of_hasAt h4, .of_hasAt h5, .of_hasAt h6, .of_hasAt h7, .of_hasAt h8, .of_hasAt h9, .of_hasAt h10, .of_hasAt h11, .of_hasAt h12, .of_hasAt h13⟩

/-- C64: where a written `MYSETTING` file stores each option. -/
theorem mySetting_option_positions {x : Setting} {s : MySetting} (hx : x.data = .mySetting s) (h : s.Shape ∧ s.Fixed)
    {bs : Bytes} (hb : x.enc = .ok bs) :
    ByteAt bs 0x70 (OptionCode.code s.onAirDisplay) ∧
    ByteAt bs 0x71 (OptionCode.code s.lcdBrightness) ∧
    ByteAt bs 0x72 (OptionCode.code s.quantize) ∧
    ByteAt bs 0x73 (OptionCode.code s.autoCueLevel) ∧
    ByteAt bs 0x74 (OptionCode.code s.language) ∧
    ByteAt bs 0x76 (OptionCode.code s.jogRingBrightness) ∧
    ByteAt bs 0x77 (OptionCode.code s.jogRingIndicator) ∧
    ByteAt bs 0x78 (OptionCode.code s.slipFlashing) ∧
    ByteAt bs 0x7c (OptionCode.code s.discSlotIllumination) ∧
    ByteAt bs 0x7d (OptionCode.code s.ejectLock) ∧
    ByteAt bs 0x7e (OptionCode.code s.sync) ∧
    ByteAt bs 0x7f (OptionCode.code s.playMode) ∧
    ByteAt bs 0x80 (OptionCode.code s.quantizeBeatValue) ∧
    ByteAt bs 0x81 (OptionCode.code s.hotcueAutoload) ∧
    ByteAt bs 0x82 (OptionCode.code s.hotcueColor) ∧
    ByteAt bs 0x85 (OptionCode.code s.needleLock) ∧
    ByteAt bs 0x88 (OptionCode.code s.timeMode) ∧
    ByteAt bs 0x89 (OptionCode.code s.jogMode) ∧
    ByteAt bs 0x8a (OptionCode.code s.autoCue) ∧
    ByteAt bs 0x8b (OptionCode.code s.masterTempo) ∧
    ByteAt bs 0x8c (OptionCode.code s.tempoRange) ∧
    ByteAt bs 0x8d (OptionCode.code s.phaseMeter) := by
  obtain ⟨head, ck, hl, rfl, -⟩ := setting_checksum_is_crc (s := x) (by rw [hx]; exact h) hb
  have hd : HasAt (head ++ (x.data.enc ++ (encU16 ck ++ [0, 0]))) 104 x.data.enc := by
    rw [← hl, ← List.append_assoc]; exact hasAt_append_mid _ _ _
  revert hd
  generalize head ++ (x.data.enc ++ (encU16 ck ++ [0, 0])) = bs
  intro hd
  rw [hx] at hd
  obtain ⟨⟨l1, l2⟩, -⟩ := h
  simp only [SettingData.enc, MySetting.enc, HasAt.append_iff, l1, l2, encOption_length, encU8_length, encU16_length,
    Nat.reduceAdd] at hd
  obtain ⟨h0, h1, h2, h3, h4, h5, h6, h7, h8, h9, h10, h11, h12, h13, h14, h15, h16, h17, h18, h19, h20, h21, h22, h23, h24, h25, h26, h27⟩ := hd
  exact ⟨.of_hasAt h1, .of_hasAt h2, .of_hasAt h3, .of_hasAt h4, .of_hasAt h5, .of_hasAt h7, .of_hasAt h8, .of_hasAt h9, .of_hasAt h11, .of_hasAt h12, .of_hasAt h13, .of_hasAt h14, .of_hasAt h15, .of_hasAt h16, .of_hasAt h17, .of_hasAt h19, .of_hasAt h21, .of_hasAt h22, .of_hasAt h23, .of_hasAt h24, .of_hasAt h25, .of_hasAt h26⟩

/-- C64: where a written `MYSETTING2` file stores each option. -/
theorem mySetting2_option_positions {x : Setting} {s : MySetting2} (hx : x.data = .mySetting2 s) (h : s.Shape ∧ s.Fixed)
    {bs : Bytes} (hb : x.enc = .ok bs) :
    ByteAt bs 0x68 (OptionCode.code s.vinylSpeedAdjust) ∧
    ByteAt bs 0x69 (OptionCode.code s.jogDisplayMode) ∧
    ByteAt bs 0x6a (OptionCode.code s.padButtonBrightness) ∧
    ByteAt bs 0x6b (OptionCode.code s.jogLcdBrightness) ∧
    ByteAt bs 0x6c (OptionCode.code s.waveformDivisions) ∧
    ByteAt bs 0x72 (OptionCode.code s.waveform) ∧
    ByteAt bs 0x74 (OptionCode.code s.beatJumpBeatValue) := by
  obtain ⟨head, ck, hl, rfl, -⟩ := setting_checksum_is_crc (s := x) (by rw [hx]; exact h) hb
  have hd : HasAt (head ++ (x.data.enc ++ (encU16 ck ++ [0, 0]))) 104 x.data.enc := by
    rw [← hl, ← List.append_assoc]; exact hasAt_append_mid _ _ _
  revert hd
  generalize head ++ (x.data.enc ++ (encU16 ck ++ [0, 0])) = bs
  intro hd
  rw [hx] at hd
  obtain ⟨⟨l1, l2⟩, -⟩ := h
  simp only [SettingData.enc, MySetting2.enc, HasAt.append_iff, l1, l2, encOption_length, encU8_length, encU16_length,
    Nat.reduceAdd] at hd
  obtain ⟨h0, h1, h2, h3, h4, h5, h6, h7, h8, h9⟩ := hd
  exact ⟨.of_hasAt h0, .of_hasAt h1, .of_hasAt h2, .of_hasAt h3, .of_hasAt h4, .of_hasAt h6, .of_hasAt h8⟩

/-- C64: the fields of the file header, 28 bytes and 16 bytes per table. -/
theorem header_layout (h : Header) (img : Bytes) (p : Nat) (hi : HasAt img p h.enc) :
    U32At img p 0 ∧ U32At img (p + 4) h.pageSize.toNat ∧ U32At img (p + 8) h.numTables.toNat ∧
    U32At img (p + 12) h.nextUnusedPage.val.toNat ∧ U32At img (p + 16) h.unknown.toNat ∧
    U32At img (p + 20) h.sequence.toNat ∧ U32At img (p + 24) 0 ∧
    ∀ i t, h.tables[i]? = some t → HasAt img (p + 28 + 16 * i) t.enc := by
  simp only [Header.enc, HasAt.append_iff, PageIndex.enc, encU32_length] at hi
  obtain ⟨h0, h1, h2, h3, h4, h5, h6, h7⟩ := hi
  refine ⟨.of_hasAt h0, .of_hasAt h1, .of_hasAt h2, .of_hasAt h3, .of_hasAt h4, .of_hasAt h5,
    .of_hasAt h6, ?_⟩
  have : ∀ (ts : List Table) (q : Nat), HasAt img q (ts.flatMap Table.enc) → ∀ i t, ts[i]? = some t →
      HasAt img (q + 16 * i) t.enc := by
    intro ts
    induction ts with
    | nil => intro q _ i t h; simp at h
    | cons a ts ih =>
      intro q hq i t ht
      rw [List.flatMap_cons, HasAt.append_iff, Table.enc_length] at hq
      cases i with
      | zero => simp at ht; subst ht; exact hq.1
      | succ i =>
        have := ih (q + 16) hq.2 i t (by simpa using ht)
        rwa [show q + 16 * (i + 1) = q + 16 + 16 * i from by omega]
  exact this _ _ h7

/-- C64: the fields of a table entry; the first is the page type code. -/
theorem table_layout (t : Table) (img : Bytes) (p : Nat) (hi : HasAt img p t.enc) :
    (∀ db c, t.pageType = pageTypeOfCode db c → U32At img p c.toNat) ∧
    U32At img (p + 4) t.emptyCandidate.toNat ∧
    U32At img (p + 8) t.firstPage.val.toNat ∧ U32At img (p + 12) t.lastPage.val.toNat := by
  simp only [Table.enc, HasAt.append_iff, PageIndex.enc, encU32_length, PageType.enc_length] at hi
  obtain ⟨h0, h1, h2, h3⟩ := hi
  refine ⟨fun db c hc => ?_, .of_hasAt h1, .of_hasAt h2, .of_hasAt h3⟩
  rw [hc, pageTypeOfCode_enc] at h0
  exact .of_hasAt h0

/-- C64: the bytes of a short string: a length byte `2 * (length + 1) + 1`, then the text. -/
theorem short_string_layout (s : Bytes) (hs : s.length ≤ 126) {bs : Bytes}
    (h : DString.enc (.short s) = .ok bs) :
    bs = [UInt8.ofNat (2 * (s.length + 1) + 1)] ++ s := by
  simp only [DString.enc, Res.ok.injEq] at h
  rw [← h]
  congr 3
  omega

/-- C64: the bytes of a long string: kind, length including these four bytes, a zero byte, and the text;
an ISRC is marked by a 3 in front of the text and ends with a NUL. -/
theorem long_string_layout (b : LongBody) {bs : Bytes} (h : DString.enc (.long b) = .ok bs)
    (img : Bytes) (p : Nat) (hi : HasAt img p bs) :
    U16At img (p + 1) bs.length ∧ ByteAt img (p + 3) 0 ∧
    match b with
    | .ascii s => ByteAt img p 0x40 ∧ HasAt img (p + 4) s ∧ bs.length = 4 + s.length
    | .isrc s => ByteAt img p 0x90 ∧ ByteAt img (p + 4) 3 ∧ HasAt img (p + 5) s ∧
        ByteAt img (p + 5 + s.length) 0 ∧ bs.length = 6 + s.length
    | .ucs2le us => ByteAt img p 0x90 ∧ bs.length = 4 + 2 * us.length ∧
        ∀ i u, us[i]? = some u → U16At img (p + 4 + 2 * i) u.toNat := by
  rcases DString.enc_eq_ok h with ⟨c, hc, -⟩ | ⟨b', hb, hl, rfl⟩
  · cases hc
  injection hb with hb
  subst hb
  unfold longBytes at hi ⊢
  simp only [HasAt.append_iff, encU16_length, List.length_singleton, Nat.add_assoc, Nat.reduceAdd] at hi
  obtain ⟨h0, h1, h2, h3⟩ := hi
  refine ⟨?_, .of_hasAt h2, ?_⟩
  · have := U16At.of_hasAt h1
    rw [UInt16.toNat_ofNat', Nat.mod_eq_of_lt (by omega)] at this
    have hlen : ([b.flags] ++ (encU16 (UInt16.ofNat (b.enc.length + 4)) ++ ([0] ++ b.enc))).length =
      b.enc.length + 4 := by simp; omega
    rw [hlen]
    exact this
  · cases b with
    | ascii s => exact ⟨.of_hasAt h0, h3, by simp [LongBody.enc]; omega⟩
    | isrc s =>
      simp only [LongBody.enc, encNullString, HasAt.append_iff, List.length_singleton, Nat.add_assoc,
        Nat.reduceAdd] at h3
      refine ⟨.of_hasAt h0, .of_hasAt h3.1, h3.2.1, ?_, by simp [LongBody.enc, encNullString]; omega⟩
      rw [Nat.add_assoc]
      exact .of_hasAt h3.2.2
    | ucs2le us =>
      refine ⟨.of_hasAt h0, ?_, ?_⟩
      · simp only [List.length_append, LongBody.enc, flatMap_encU16_length, encU16_length, List.length_singleton]
        omega
      · intro i u hu
        exact .of_hasAt (hasAt_flatMap_encU16 h3 hu)

/-- C64: a setting file, a table entry and a string with their bytes. -/
example : ∃ bs, Setting.defaultDevSetting.enc = .ok bs ∧ ByteAt bs 0x72 1 := by
  obtain ⟨bs, hb, -, -⟩ := setting_roundtrip default_settings_proper.1
  exact ⟨bs, hb, (devSetting_option_positions rfl default_settings_proper.1.2.2.2 hb).2.1⟩
example : (⟨.plain .artwork, 1, ⟨2⟩, ⟨0x1234⟩⟩ : Table).enc =
    [13, 0, 0, 0, 1, 0, 0, 0, 2, 0, 0, 0, 0x34, 0x12, 0, 0] := by decide +kernel
example : (DString.long (.ucs2le [0x41, 0xE4])).enc = .ok [0x90, 8, 0, 0, 0x41, 0, 0xE4, 0] := by
  decide +kernel

end Rekordcrate
