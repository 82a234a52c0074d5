import Verif.Lemmas.Setting
import Verif.Lemmas.DString

/-! # Properties of setting files (C52 to C56) -/

namespace Rekordcrate
open Rd

/-- The checksum computation of a value whose names fit and whose data has the right shape. -/
theorem calculateChecksum_eq {s : Setting} (h1 : s.brand.length ≤ 31) (h2 : s.software.length ≤ 31)
    (h3 : s.version.length ≤ 31) (hs : s.data.Proper) :
    ∃ head : Bytes, head.length = 104 ∧
      s.calculateChecksum = .ok (crc16 (if s.data.kind = .djmMySetting then head ++ s.data.enc else s.data.enc)) ∧
      ∀ ck, s.encWith (.ok ck) = .ok (head ++ (s.data.enc ++ (encU16 ck ++ [0, 0]))) := by
  refine ⟨[0x60, 0, 0, 0] ++ (nameField s.brand (List.replicate (31 - s.brand.length) 0) ++
    (nameField s.software (List.replicate (31 - s.software.length) 0) ++
    (nameField s.version (List.replicate (31 - s.version.length) 0) ++
      [UInt8.ofNat (dataSize s.data.kind), 0, 0, 0]))), ?_, ?_, ?_⟩
  · simp [nameField]; omega
  rotate_left
  · intro ck
    rw [encWith_ok h1 h2 h3]
    simp [settingLayout]
  · unfold Setting.calculateChecksum
    rw [encWith_ok h1 h2 h3]
    generalize hhead : [0x60, 0, 0, 0] ++ (nameField s.brand (List.replicate (31 - s.brand.length) 0) ++
      (nameField s.software (List.replicate (31 - s.software.length) 0) ++
      (nameField s.version (List.replicate (31 - s.version.length) 0) ++
        [UInt8.ofNat (dataSize s.data.kind), 0, 0, 0]))) = head
    have hl : head.length = 104 := by rw [← hhead]; simp [nameField]; omega
    have hlay : settingLayout s (List.replicate (31 - s.brand.length) 0)
        (List.replicate (31 - s.software.length) 0) (List.replicate (31 - s.version.length) 0) 0 =
        head ++ (s.data.enc ++ [0, 0, 0, 0]) := by
      rw [← hhead]; simp [settingLayout, show encU16 0 = [0, 0] from rfl]
    rw [hlay]
    simp only
    rw [subU_ok (by simp; omega)]
    have h4 : (head ++ (s.data.enc ++ [0, 0, 0, 0])).length - 4 = 104 + s.data.enc.length := by
      simp [hl]; omega
    simp only [h4]
    have hle : 104 + s.data.enc.length ≤ (head ++ (s.data.enc ++ [0, 0, 0, 0])).length := by
      simp [hl]
    cases hd : s.data with
    | djmMySetting x =>
      rw [hd] at hle
      simp only [SettingData.kind, hle, Nat.zero_le, and_self, if_true, List.drop_zero, Nat.sub_zero]
      rw [← hl, ← List.length_append, ← List.append_assoc, List.take_left']
      rfl
    | _ x =>
      rw [hd] at hle
      simp only [SettingData.kind, hle, Nat.le_add_right, and_self, if_true, reduceCtorEq, if_false,
        Nat.add_sub_cancel_left]
      rw [List.drop_left' hl, List.take_left' rfl]

/-- C52: a written setting file consists of a 104-byte head, the data section, the CRC-16/XMODEM (the
remainder of a polynomial division, `IsCrc16Xmodem`) in little-endian order and two zero bytes. The CRC
is that of the data section, for `DJMMYSETTING` that of everything before it. -/
theorem setting_checksum_is_crc {s : Setting} (hs : s.data.Proper) {bs : Bytes} (h : s.enc = .ok bs) :
    ∃ (head : Bytes) (ck : UInt16), head.length = 104 ∧
      bs = head ++ (s.data.enc ++ (encU16 ck ++ [0, 0])) ∧
      IsCrc16Xmodem (if s.data.kind = .djmMySetting then head ++ s.data.enc else s.data.enc) ck := by
  have hn : s.brand.length ≤ 31 ∧ s.software.length ≤ 31 ∧ s.version.length ≤ 31 := by
    by_contra hn
    unfold Setting.enc Setting.encWith Setting.encName at h
    by_cases h1 : s.brand.length ≤ 31
    · by_cases h2 : s.software.length ≤ 31
      · by_cases h3 : s.version.length ≤ 31
        · exact hn ⟨h1, h2, h3⟩
        · simp [h1, h2, h3] at h
      · simp [h1, h2] at h
    · simp [h1] at h
  obtain ⟨head, hl, hc, he⟩ := calculateChecksum_eq hn.1 hn.2.1 hn.2.2 hs
  rw [enc_eq_with hc, he] at h
  cases h
  exact ⟨head, _, hl, rfl, crc16_isCrc _⟩

/-- C52: the checksum bytes are determined by the property above. -/
theorem setting_checksum_unique {bs : Bytes} {a b : UInt16} (ha : IsCrc16Xmodem bs a)
    (hb : IsCrc16Xmodem bs b) : a = b := isCrc_unique ha hb

/-- C52: the check value of CRC-16/XMODEM. -/
example : crc16 [0x31, 0x32, 0x33, 0x34, 0x35, 0x36, 0x37, 0x38, 0x39] = 0x31C3 := by decide +kernel

/-- C53: writing a setting and reading it back as the same kind gives the same value; the file has
108 bytes more than the data section of its kind. -/
theorem setting_roundtrip {s : Setting} (h : s.Proper) :
    ∃ bs, s.enc = .ok bs ∧ bs.length = 108 + dataSize s.data.kind ∧ RT (Setting.read s.data.kind) bs s := by
  obtain ⟨head, hl, hc, he⟩ := calculateChecksum_eq h.1.1 h.2.1.1 h.2.2.1.1 h.2.2.2
  refine ⟨_, (enc_eq_with hc).trans (encWith_ok h.1.1 h.2.1.1 h.2.2.1.1 _), ?_, Setting.read_rt h ?_ _⟩
  · have := SettingData.enc_length h.2.2.2
    have h1 := h.1.1
    have h2 := h.2.1.1
    have h3 := h.2.2.1.1
    simp [settingLayout, nameField]; omega
  · have h1 := h.1.1
    have h2 := h.2.1.1
    have h3 := h.2.2.1.1
    simp [PadsFit]; omega

/-- C53: a name of 32 bytes or more is refused with an error, not cut off. -/
theorem setting_long_name_refused {s : Setting} (h : 31 < s.brand.length ∨ 31 < s.software.length ∨
    31 < s.version.length) : s.enc = .err .assertFail := by
  unfold Setting.enc Setting.encWith Setting.encName
  by_cases h1 : s.brand.length ≤ 31
  · by_cases h2 : s.software.length ≤ 31
    · have h3 : ¬ s.version.length ≤ 31 := by omega
      simp [h1, h2, h3]
    · simp [h1, h2]
  · simp [h1]

/-- C53: the values every user starts from meet the hypothesis. -/
theorem default_settings_proper : Setting.defaultDevSetting.Proper ∧ Setting.defaultDJMMySetting.Proper ∧
    Setting.defaultMySetting.Proper ∧ Setting.defaultMySetting2.Proper := by
  simp only [Setting.Proper, FitsName, SettingData.Proper, DevSetting.Shape, DevSetting.Fixed,
    DJMMySetting.Shape, DJMMySetting.Fixed, MySetting.Shape, MySetting.Fixed, MySetting2.Shape,
    MySetting2.Fixed, Setting.defaultDevSetting, Setting.defaultDJMMySetting, Setting.defaultMySetting,
    Setting.defaultMySetting2, Setting.defaultWith]
  repeat' apply And.intro
  all_goals decide +kernel

/-- C53: so does every value that was read from a file. -/
theorem read_setting_proper {t : SettingType} {d : Bytes} {p : Nat} {s : Setting} {p' : Nat}
    (h : Setting.read t d p = .ok (s, p')) : s.Proper ∧ s.data.kind = t :=
  ⟨(Setting.read_ok h).1, (Setting.read_ok h).2.1⟩

/-- C54: for every option kind, a byte is read as an option exactly if it is that option's code. -/
theorem option_code_read {α : Type} [OptionCode α] [LawfulOptionCode α] (b : UInt8) (rest : Bytes) (a : α) :
    readOption (b :: rest) 0 = .ok (a, 1) ↔ OptionCode.code a = b := by
  constructor
  · intro h
    obtain ⟨bs, hb, _, rfl⟩ := Inv.readOption _ _ _ _ h
    have := hb 0 (by simp [encOption, encU8])
    simpa [encOption, encU8] using this.symm
  · rintro rfl
    exact RT.readOption a _ 0 (by simp [encOption, encU8, HasAt])

/-- C54: every other byte is rejected with an error. -/
theorem option_code_rejected {α : Type} [OptionCode α] [LawfulOptionCode α] (b : UInt8) (rest : Bytes)
    (h : ∀ a : α, OptionCode.code a ≠ b) : readOption (α := α) (b :: rest) 0 = .err .noVariant := by
  unfold readOption
  rw [bind_of_ok (RT.u8 b (b :: rest) 0 (by simp [encU8, HasAt]))]
  have : (OptionCode.all (α := α)).find? (fun a => OptionCode.code a == b) = none := by
    rw [List.find?_eq_none]
    intro a _
    simpa using h a
  rw [this]
  rfl

/-- C54: the options of every kind and their codes. -/
theorem option_code_table :
    (OptionCode.all (α := Opt.PlayMode)).map (fun o => (o, OptionCode.code o)) =
      [(.continue_, 0x80), (.single, 0x81)] ∧
    (OptionCode.all (α := Opt.EjectLock)).map (fun o => (o, OptionCode.code o)) =
      [(.unlock, 0x80), (.lock, 0x81)] ∧
    (OptionCode.all (α := Opt.NeedleLock)).map (fun o => (o, OptionCode.code o)) =
      [(.unlock, 0x80), (.lock, 0x81)] ∧
    (OptionCode.all (α := Opt.QuantizeBeatValue)).map (fun o => (o, OptionCode.code o)) =
      [(.eighthBeat, 0x83), (.quarterBeat, 0x82), (.halfBeat, 0x81), (.fullBeat, 0x80)] ∧
    (OptionCode.all (α := Opt.HotCueAutoLoad)).map (fun o => (o, OptionCode.code o)) =
      [(.off, 0x80), (.rekordboxSetting, 0x82), (.on, 0x81)] ∧
    (OptionCode.all (α := Opt.HotCueColor)).map (fun o => (o, OptionCode.code o)) =
      [(.off, 0x80), (.on, 0x81)] ∧
    (OptionCode.all (α := Opt.AutoCueLevel)).map (fun o => (o, OptionCode.code o)) =
      [(.minus78dB, 0x87), (.minus72dB, 0x86), (.minus66dB, 0x85), (.minus60dB, 0x84), (.minus54dB, 0x83), (.minus48dB, 0x82), (.minus42dB, 0x81), (.minus36dB, 0x80), (.memory, 0x88)] ∧
    (OptionCode.all (α := Opt.TimeMode)).map (fun o => (o, OptionCode.code o)) =
      [(.elapsed, 0x80), (.remain, 0x81)] ∧
    (OptionCode.all (α := Opt.AutoCue)).map (fun o => (o, OptionCode.code o)) =
      [(.off, 0x80), (.on, 0x81)] ∧
    (OptionCode.all (α := Opt.JogMode)).map (fun o => (o, OptionCode.code o)) =
      [(.vinyl, 0x81), (.cdj, 0x80)] ∧
    (OptionCode.all (α := Opt.TempoRange)).map (fun o => (o, OptionCode.code o)) =
      [(.sixPercent, 0x80), (.tenPercent, 0x81), (.sixteenPercent, 0x82), (.wide, 0x83)] ∧
    (OptionCode.all (α := Opt.MasterTempo)).map (fun o => (o, OptionCode.code o)) =
      [(.off, 0x80), (.on, 0x81)] ∧
    (OptionCode.all (α := Opt.Quantize)).map (fun o => (o, OptionCode.code o)) =
      [(.off, 0x80), (.on, 0x81)] ∧
    (OptionCode.all (α := Opt.Sync)).map (fun o => (o, OptionCode.code o)) =
      [(.off, 0x80), (.on, 0x81)] ∧
    (OptionCode.all (α := Opt.PhaseMeter)).map (fun o => (o, OptionCode.code o)) =
      [(.type1, 0x80), (.type2, 0x81)] ∧
    (OptionCode.all (α := Opt.Waveform)).map (fun o => (o, OptionCode.code o)) =
      [(.waveform, 0x80), (.phaseMeter, 0x81)] ∧
    (OptionCode.all (α := Opt.WaveformDivisions)).map (fun o => (o, OptionCode.code o)) =
      [(.timeScale, 0x80), (.phrase, 0x81)] ∧
    (OptionCode.all (α := Opt.VinylSpeedAdjust)).map (fun o => (o, OptionCode.code o)) =
      [(.touchRelease, 0x80), (.touch, 0x81), (.release, 0x82)] ∧
    (OptionCode.all (α := Opt.BeatJumpBeatValue)).map (fun o => (o, OptionCode.code o)) =
      [(.halfBeat, 0x80), (.oneBeat, 0x81), (.twoBeat, 0x82), (.fourBeat, 0x83), (.eightBeat, 0x84), (.sixteenBeat, 0x85), (.thirtytwoBeat, 0x86), (.sixtyfourBeat, 0x87)] ∧
    (OptionCode.all (α := Opt.Language)).map (fun o => (o, OptionCode.code o)) =
      [(.english, 0x81), (.french, 0x82), (.german, 0x83), (.italian, 0x84), (.dutch, 0x85), (.spanish, 0x86), (.russian, 0x87), (.korean, 0x88), (.chineseSimplified, 0x89), (.chineseTraditional, 0x8A), (.japanese, 0x8B), (.portuguese, 0x8C), (.swedish, 0x8D), (.czech, 0x8E), (.hungarian, 0x8F), (.danish, 0x90), (.greek, 0x91), (.turkish, 0x92)] ∧
    (OptionCode.all (α := Opt.LCDBrightness)).map (fun o => (o, OptionCode.code o)) =
      [(.one, 0x81), (.two, 0x82), (.three, 0x83), (.four, 0x84), (.five, 0x85)] ∧
    (OptionCode.all (α := Opt.JogLCDBrightness)).map (fun o => (o, OptionCode.code o)) =
      [(.one, 0x81), (.two, 0x82), (.three, 0x83), (.four, 0x84), (.five, 0x85)] ∧
    (OptionCode.all (α := Opt.JogDisplayMode)).map (fun o => (o, OptionCode.code o)) =
      [(.auto, 0x80), (.info, 0x81), (.simple, 0x82), (.artwork, 0x83)] ∧
    (OptionCode.all (α := Opt.SlipFlashing)).map (fun o => (o, OptionCode.code o)) =
      [(.off, 0x80), (.on, 0x81)] ∧
    (OptionCode.all (α := Opt.OnAirDisplay)).map (fun o => (o, OptionCode.code o)) =
      [(.off, 0x80), (.on, 0x81)] ∧
    (OptionCode.all (α := Opt.JogRingBrightness)).map (fun o => (o, OptionCode.code o)) =
      [(.off, 0x80), (.dark, 0x81), (.bright, 0x82)] ∧
    (OptionCode.all (α := Opt.JogRingIndicator)).map (fun o => (o, OptionCode.code o)) =
      [(.off, 0x80), (.on, 0x81)] ∧
    (OptionCode.all (α := Opt.DiscSlotIllumination)).map (fun o => (o, OptionCode.code o)) =
      [(.off, 0x80), (.dark, 0x81), (.bright, 0x82)] ∧
    (OptionCode.all (α := Opt.PadButtonBrightness)).map (fun o => (o, OptionCode.code o)) =
      [(.one, 0x81), (.two, 0x82), (.three, 0x83), (.four, 0x84)] ∧
    (OptionCode.all (α := Opt.ChannelFaderCurve)).map (fun o => (o, OptionCode.code o)) =
      [(.steepTop, 0x80), (.linear, 0x81), (.steepBottom, 0x82)] ∧
    (OptionCode.all (α := Opt.CrossfaderCurve)).map (fun o => (o, OptionCode.code o)) =
      [(.constantPower, 0x80), (.slowCut, 0x81), (.fastCut, 0x82)] ∧
    (OptionCode.all (α := Opt.ChannelFaderCurveLongFader)).map (fun o => (o, OptionCode.code o)) =
      [(.exponential, 0x80), (.smooth, 0x81), (.linear, 0x82)] ∧
    (OptionCode.all (α := Opt.HeadphonesPreEQ)).map (fun o => (o, OptionCode.code o)) =
      [(.postEQ, 0x80), (.preEQ, 0x81)] ∧
    (OptionCode.all (α := Opt.HeadphonesMonoSplit)).map (fun o => (o, OptionCode.code o)) =
      [(.monoSplit, 0x81), (.stereo, 0x80)] ∧
    (OptionCode.all (α := Opt.BeatFXQuantize)).map (fun o => (o, OptionCode.code o)) =
      [(.off, 0x80), (.on, 0x81)] ∧
    (OptionCode.all (α := Opt.MicLowCut)).map (fun o => (o, OptionCode.code o)) =
      [(.off, 0x80), (.on, 0x81)] ∧
    (OptionCode.all (α := Opt.TalkOverMode)).map (fun o => (o, OptionCode.code o)) =
      [(.advanced, 0x80), (.normal, 0x81)] ∧
    (OptionCode.all (α := Opt.TalkOverLevel)).map (fun o => (o, OptionCode.code o)) =
      [(.minus24dB, 0x80), (.minus18dB, 0x81), (.minus12dB, 0x82), (.minus6dB, 0x83)] ∧
    (OptionCode.all (α := Opt.MidiChannel)).map (fun o => (o, OptionCode.code o)) =
      [(.one, 0x80), (.two, 0x81), (.three, 0x82), (.four, 0x83), (.five, 0x84), (.six, 0x85), (.seven, 0x86), (.eight, 0x87), (.nine, 0x88), (.ten, 0x89), (.eleven, 0x8A), (.twelve, 0x8B), (.thirteen, 0x8C), (.fourteen, 0x8D), (.fifteen, 0x8E), (.sixteen, 0x8F)] ∧
    (OptionCode.all (α := Opt.MidiButtonType)).map (fun o => (o, OptionCode.code o)) =
      [(.toggle, 0x80), (.trigger, 0x81)] ∧
    (OptionCode.all (α := Opt.MixerDisplayBrightness)).map (fun o => (o, OptionCode.code o)) =
      [(.white, 0x80), (.one, 0x81), (.two, 0x82), (.three, 0x83), (.four, 0x84), (.five, 0x85)] ∧
    (OptionCode.all (α := Opt.MixerIndicatorBrightness)).map (fun o => (o, OptionCode.code o)) =
      [(.one, 0x80), (.two, 0x81), (.three, 0x82)] ∧
    (OptionCode.all (α := Opt.WaveformColor)).map (fun o => (o, OptionCode.code o)) =
      [(.blue, 0x01), (.rgb, 0x03), (.triBand, 0x04)] ∧
    (OptionCode.all (α := Opt.WaveformCurrentPosition)).map (fun o => (o, OptionCode.code o)) =
      [(.left, 0x02), (.center, 0x01)] ∧
    (OptionCode.all (α := Opt.OverviewWaveformType)).map (fun o => (o, OptionCode.code o)) =
      [(.halfWaveform, 0x01), (.fullWaveform, 0x02)] ∧
    (OptionCode.all (α := Opt.KeyDisplayFormat)).map (fun o => (o, OptionCode.code o)) =
      [(.classic, 0x01), (.alphanumeric, 0x02)] := by
  refine ⟨?_, ?_, ?_, ?_, ?_, ?_, ?_, ?_, ?_, ?_, ?_, ?_, ?_, ?_, ?_, ?_, ?_, ?_, ?_, ?_, ?_, ?_, ?_, ?_, ?_, ?_, ?_, ?_, ?_, ?_, ?_, ?_, ?_, ?_, ?_, ?_, ?_, ?_, ?_, ?_, ?_, ?_, ?_, ?_, ?_, ?_⟩ <;> rfl

/-- C54: two options of one kind never share a code. -/
theorem option_code_injective {α : Type} [OptionCode α] [LawfulOptionCode α] (a b : α)
    (h : OptionCode.code a = OptionCode.code b) : a = b := LawfulOptionCode.injective a b h

example : readOption (α := Opt.AutoCueLevel) [0x88] 0 = .ok (.memory, 1) := (option_code_read _ _ _).2 rfl
example : readOption (α := Opt.AutoCueLevel) [0x89] 0 = .err .noVariant :=
  option_code_rejected _ _ (by intro a; cases a <;> decide)

/-- C55, as far as it holds: reading succeeds exactly if the bytes have the layout of a setting file of
the requested kind with *some* two checksum bytes: the structure is checked, the checksum is not.
Missing from the full property: that the checksum matches (see `setting_checksum_ignored`). -/
theorem setting_read_checks_layout_partial (t : SettingType) (d : Bytes) (p : Nat) (s : Setting) (p' : Nat) :
    Setting.read t d p = .ok (s, p') ↔
      s.Proper ∧ s.data.kind = t ∧ p' = p + (108 + dataSize t) ∧
        ∃ pad1 pad2 pad3 ck, PadsFit s pad1 pad2 pad3 ∧ HasAt d p (settingLayout s pad1 pad2 pad3 ck) := by
  constructor
  · exact Setting.read_ok
  · rintro ⟨h, rfl, rfl, pad1, pad2, pad3, ck, hp, hd⟩
    rw [Setting.read_rt h hp ck d p hd]
    have := SettingData.enc_length h.2.2.2
    obtain ⟨h1, h2, h3⟩ := hp
    simp [settingLayout, nameField]; omega

/-- C55 is false of the code: whatever replaces the two checksum bytes of a written file, reading gives
the same value. -/
theorem setting_checksum_ignored {s : Setting} (h : s.Proper) (ck : UInt16) :
    ∃ front c, s.enc = .ok (front ++ (encU16 c ++ [0, 0])) ∧
      Setting.read s.data.kind (front ++ (encU16 ck ++ [0, 0])) 0 =
        .ok (s, (front ++ (encU16 ck ++ [0, 0])).length) := by
  obtain ⟨head, hl, hc, he⟩ := calculateChecksum_eq h.1.1 h.2.1.1 h.2.2.1.1 h.2.2.2
  refine ⟨head ++ s.data.enc, _, by rw [enc_eq_with hc, he, List.append_assoc], ?_⟩
  have h1 := he ck
  rw [encWith_ok h.1.1 h.2.1.1 h.2.2.1.1] at h1
  simp only [Res.ok.injEq] at h1
  have hp : PadsFit s (List.replicate (31 - s.brand.length) 0) (List.replicate (31 - s.software.length) 0)
      (List.replicate (31 - s.version.length) 0) := by
    have h1 := h.1.1
    have h2 := h.2.1.1
    have h3 := h.2.2.1.1
    simp [PadsFit]; omega
  have h2 := Setting.read_rt h hp ck _ 0 (hasAt_self _)
  rw [h1, Nat.zero_add] at h2
  rw [List.append_assoc]
  exact h2

/-! ## Loading from a device -/

theorem loadSetting_cases (fs : PioneerDir) (name : String) (t : SettingType) :
    (∃ s, loadSetting fs name t = .ok (some s) ∧ s.data.kind = t ∧
      (∀ x, Holds fs name t x ↔ s.data = x) ∧ ¬ Unreadable fs name t) ∨
    (loadSetting fs name t = .ok none ∧ (∀ x, ¬ Holds fs name t x) ∧ Unreadable fs name t) := by
  unfold loadSetting Holds Unreadable
  cases hf : fs name with
  | none => right; simp
  | some d =>
    cases hr : Setting.read t d 0 with
    | ok r =>
      left
      obtain ⟨s, p⟩ := r
      refine ⟨s, by simp only [hr], (Setting.read_ok hr).2.1, ?_, ?_⟩
      · intro x
        constructor
        · rintro ⟨d', s', p', hd, hr', hx⟩
          cases hd
          rw [hr] at hr'
          cases hr'
          exact hx
        · intro hx
          exact ⟨d, s, p, rfl, hr, hx⟩
      · intro h
        obtain ⟨e, he⟩ := h d rfl
        rw [hr] at he
        cases he
    | err e =>
      right
      refine ⟨by simp only [hr], ?_, ?_⟩
      · rintro x ⟨d', s', p', hd, hr', hx⟩
        cases hd
        rw [hr] at hr'
        cases hr'
      · intro d' hd
        cases hd
        exact ⟨e, hr⟩
    | panic => exact absurd hr (Setting.read_np t d 0)

/-- C56: loading settings never fails. The result consists of the options of those of the four files
that are present and readable; each of the four depends on its own file only. -/
theorem load_settings_independent (fs : PioneerDir) :
    ∃ dev djm my my2, loadSettings fs = .ok (expectedSettings dev djm my my2) ∧
      (∀ x, dev = some x ↔ Holds fs "DEVSETTING.DAT" .devSetting (.devSetting x)) ∧
      (dev = none ↔ Unreadable fs "DEVSETTING.DAT" .devSetting) ∧
      (∀ x, djm = some x ↔ Holds fs "DJMMYSETTING.DAT" .djmMySetting (.djmMySetting x)) ∧
      (djm = none ↔ Unreadable fs "DJMMYSETTING.DAT" .djmMySetting) ∧
      (∀ x, my = some x ↔ Holds fs "MYSETTING.DAT" .mySetting (.mySetting x)) ∧
      (my = none ↔ Unreadable fs "MYSETTING.DAT" .mySetting) ∧
      (∀ x, my2 = some x ↔ Holds fs "MYSETTING2.DAT" .mySetting2 (.mySetting2 x)) ∧
      (my2 = none ↔ Unreadable fs "MYSETTING2.DAT" .mySetting2) := by
  have dev : ∃ dev : Option DevSetting, (∀ x, dev = some x ↔ Holds fs "DEVSETTING.DAT" .devSetting (.devSetting x)) ∧
      (dev = none ↔ Unreadable fs "DEVSETTING.DAT" .devSetting) ∧
      ((dev = none ∧ loadSetting fs "DEVSETTING.DAT" .devSetting = .ok none) ∨
        ∃ s x, dev = some x ∧ s.data = .devSetting x ∧
          loadSetting fs "DEVSETTING.DAT" .devSetting = .ok (some s)) := by
    rcases loadSetting_cases fs "DEVSETTING.DAT" .devSetting with ⟨s, hs, hk, hx, hn⟩ | ⟨hs, hx, hn⟩
    · cases hd : s.data with
      | devSetting y =>
        refine ⟨some y, ?_, ?_, Or.inr ⟨s, y, rfl, hd, hs⟩⟩
        · intro x; rw [hx, hd]; simp
        · simpa using hn
      | _ y => rw [hd] at hk; cases hk
    · refine ⟨none, ?_, ?_, Or.inl ⟨rfl, hs⟩⟩
      · intro x; simpa using hx _
      · simpa using hn
  have djm : ∃ djm : Option DJMMySetting, (∀ x, djm = some x ↔ Holds fs "DJMMYSETTING.DAT" .djmMySetting (.djmMySetting x)) ∧
      (djm = none ↔ Unreadable fs "DJMMYSETTING.DAT" .djmMySetting) ∧
      ((djm = none ∧ loadSetting fs "DJMMYSETTING.DAT" .djmMySetting = .ok none) ∨
        ∃ s x, djm = some x ∧ s.data = .djmMySetting x ∧
          loadSetting fs "DJMMYSETTING.DAT" .djmMySetting = .ok (some s)) := by
    rcases loadSetting_cases fs "DJMMYSETTING.DAT" .djmMySetting with ⟨s, hs, hk, hx, hn⟩ | ⟨hs, hx, hn⟩
    · cases hd : s.data with
      | djmMySetting y =>
        refine ⟨some y, ?_, ?_, Or.inr ⟨s, y, rfl, hd, hs⟩⟩
        · intro x; rw [hx, hd]; simp
        · simpa using hn
      | _ y => rw [hd] at hk; cases hk
    · refine ⟨none, ?_, ?_, Or.inl ⟨rfl, hs⟩⟩
      · intro x; simpa using hx _
      · simpa using hn
  have my : ∃ my : Option MySetting, (∀ x, my = some x ↔ Holds fs "MYSETTING.DAT" .mySetting (.mySetting x)) ∧
      (my = none ↔ Unreadable fs "MYSETTING.DAT" .mySetting) ∧
      ((my = none ∧ loadSetting fs "MYSETTING.DAT" .mySetting = .ok none) ∨
        ∃ s x, my = some x ∧ s.data = .mySetting x ∧
          loadSetting fs "MYSETTING.DAT" .mySetting = .ok (some s)) := by
    rcases loadSetting_cases fs "MYSETTING.DAT" .mySetting with ⟨s, hs, hk, hx, hn⟩ | ⟨hs, hx, hn⟩
    · cases hd : s.data with
      | mySetting y =>
        refine ⟨some y, ?_, ?_, Or.inr ⟨s, y, rfl, hd, hs⟩⟩
        · intro x; rw [hx, hd]; simp
        · simpa using hn
      | _ y => rw [hd] at hk; cases hk
    · refine ⟨none, ?_, ?_, Or.inl ⟨rfl, hs⟩⟩
      · intro x; simpa using hx _
      · simpa using hn
  have my2 : ∃ my2 : Option MySetting2, (∀ x, my2 = some x ↔ Holds fs "MYSETTING2.DAT" .mySetting2 (.mySetting2 x)) ∧
      (my2 = none ↔ Unreadable fs "MYSETTING2.DAT" .mySetting2) ∧
      ((my2 = none ∧ loadSetting fs "MYSETTING2.DAT" .mySetting2 = .ok none) ∨
        ∃ s x, my2 = some x ∧ s.data = .mySetting2 x ∧
          loadSetting fs "MYSETTING2.DAT" .mySetting2 = .ok (some s)) := by
    rcases loadSetting_cases fs "MYSETTING2.DAT" .mySetting2 with ⟨s, hs, hk, hx, hn⟩ | ⟨hs, hx, hn⟩
    · cases hd : s.data with
      | mySetting2 y =>
        refine ⟨some y, ?_, ?_, Or.inr ⟨s, y, rfl, hd, hs⟩⟩
        · intro x; rw [hx, hd]; simp
        · simpa using hn
      | _ y => rw [hd] at hk; cases hk
    · refine ⟨none, ?_, ?_, Or.inl ⟨rfl, hs⟩⟩
      · intro x; simpa using hx _
      · simpa using hn
  obtain ⟨dev, d1, d2, d3⟩ := dev
  obtain ⟨djm, j1, j2, j3⟩ := djm
  obtain ⟨my, m1, m2, m3⟩ := my
  obtain ⟨my2, n1, n2, n3⟩ := my2
  refine ⟨dev, djm, my, my2, ?_, d1, d2, j1, j2, m1, m2, n1, n2⟩
  unfold loadSettings
  rcases d3 with ⟨rfl, d3⟩ | ⟨sd, xd, rfl, d3, d4⟩ <;>
  rcases j3 with ⟨rfl, j3⟩ | ⟨sj, xj, rfl, j3, j4⟩ <;>
  rcases m3 with ⟨rfl, m3⟩ | ⟨sm, xm, rfl, m3, m4⟩ <;>
  rcases n3 with ⟨rfl, n3⟩ | ⟨sn, xn, rfl, n3, n4⟩ <;>
  simp only [*, Res.ok_bind, SettingData.asDevSetting, SettingData.asDJMMySetting, SettingData.asMySetting,
    SettingData.asMySetting2] <;> rfl

/-- C56: a directory with a good `DEVSETTING.DAT`, a corrupt `MYSETTING.DAT` and no other file. -/
example : ∃ bs, Setting.defaultDevSetting.enc = .ok bs ∧
    Holds (fun n => if n = "DEVSETTING.DAT" then some bs else if n = "MYSETTING.DAT" then some [1] else none)
      "DEVSETTING.DAT" .devSetting (.devSetting DevSetting.default) := by
  obtain ⟨bs, h1, _, h2⟩ := setting_roundtrip default_settings_proper.1
  exact ⟨bs, h1, bs, _, _, rfl, h2 bs 0 (hasAt_self bs), rfl⟩

end Rekordcrate
