import Verif.Lemmas.SettingText
import Verif.Props.Setting

/-! # Properties of the text of the settings -/

namespace Rekordcrate

/-- C69: the text has one line for every setting, with its name, a colon, and its value in column 32. -/
theorem settings_text_lines (s : Settings) :
    linesOfText s.display.toList = s.table.map fun e =>
      e.1.toList ++ [':'] ++ List.replicate (31 - e.1.toList.length) ' ' ++ e.2.toList := by
  rw [s.display_lines, s.lines_eq, s.table_eq, List.map_map, List.map_map]
  apply List.map_congr_left
  intro e he
  have h := settingHeads_text e.1 (List.of_mem_zip he).1
  simp only [Function.comp, String.toList_append, h.1, List.append_assoc, List.cons_append, List.nil_append]

/-- C69: looking up the name of a setting in the text gives the value of that setting. -/
theorem settings_text_lookup (s : Settings) : ∀ e ∈ s.table, lookUp e.1 s.display = some e.2 := by
  intro e he
  rw [s.table_eq, List.mem_map] at he
  obtain ⟨⟨⟨name, pre⟩, value⟩, hm, rfl⟩ := he
  have hh := settingHeads_text _ (List.of_mem_zip hm).1
  have hv := s.shownValues_clean _ (List.of_mem_zip hm).2
  have hf := find_lines name value (settingHeads.zip s.shownValues)
    (by
      have : (settingHeads.zip s.shownValues).map (fun e => e.1.1) = settingHeads.map Prod.fst := by
        have hz := List.map_fst_zip (l₁ := settingHeads) (l₂ := s.shownValues) (Nat.le_of_eq s.shownValues_length.symm)
        rw [← hz, List.map_map]
        rfl
      rw [this]
      exact settingHeads_names)
    (fun e he => let h := settingHeads_text e.1 (List.of_mem_zip he).1; ⟨h.1, h.2.1⟩) pre hm
  unfold lookUp
  rw [s.display_lines, s.lines_eq, List.map_map]
  have : (settingHeads.zip s.shownValues).map (String.toList ∘ fun e => e.1.2 ++ e.2) =
      (settingHeads.zip s.shownValues).map fun e => (e.1.2 ++ e.2).toList := rfl
  rw [this, hf]
  simp only [Option.map_some, Option.some.injEq]
  rw [String.toList_append, hh.1, List.append_assoc, List.cons_append]
  have hd : (name.toList ++ ':' :: (List.replicate (31 - name.toList.length) ' ' ++ value.toList)).drop
      (name.toList.length + 1) = List.replicate (31 - name.toList.length) ' ' ++ value.toList := by
    rw [List.drop_append]
    simp
  rw [hd, dropWhile_blanks _ _ hv.2, String.ofList_toList]

/-- C69: the text determines every setting. -/
theorem settings_text_injective (s t : Settings) : s.display = t.display ↔ s = t := by
  refine ⟨fun h => ?_, fun h => by rw [h]⟩
  apply Settings.shownValues_injective
  have key : ∀ u : Settings, u.shownValues = u.table.map Prod.snd := fun u => rfl
  have names : ∀ u : Settings, u.table.map Prod.fst = settingHeads.map Prod.fst := fun u => rfl
  have look : ∀ u : Settings, u.table.map Prod.snd =
      (u.table.map Prod.fst).map fun n => (lookUp n u.display).getD "" := by
    intro u
    rw [List.map_map]
    apply List.map_congr_left
    intro e he
    simp only [Function.comp, settings_text_lookup u e he, Option.getD_some]
  rw [key, key, look s, look t, names, names, h]

/-- C69: different options of one kind are shown differently, and none like a missing value. -/
theorem option_text_injective {α : Type} [OptionText α] [LawfulOptionText α] (a b : Option α) :
    shownAs a = shownAs b ↔ a = b := ⟨shownAs_injective a b, fun h => by rw [h]⟩

example : lookUp "Tempo Range" ({ tempoRange := some .wide, waveform := some .waveform } : Settings).display =
    some "Wide" := settings_text_lookup _ ("Tempo Range", "Wide") (by simp [Settings.table, shownAs, OptionText.text])

example : lookUp "Jog Mode" ({ tempoRange := some .wide } : Settings).display = some "<missing>" :=
  settings_text_lookup _ ("Jog Mode", "<missing>") (by simp [Settings.table, shownAs])

example : ({ jogMode := some .cdj } : Settings).display ≠ ({ jogMode := some .vinyl } : Settings).display := by
  rw [Ne, settings_text_injective]
  decide

/-- C70: whatever the files hold, the command prints the settings that can be read, every one under its name,
and shows the others as missing. -/
theorem list_settings_shows (fs : PioneerDir) :
    ∃ dev djm my my2 text, listSettings fs = .ok text ∧
      (∀ e ∈ (expectedSettings dev djm my my2).table, lookUp e.1 text = some e.2) ∧
      (∀ x, dev = some x ↔ Holds fs "DEVSETTING.DAT" .devSetting (.devSetting x)) ∧
      (dev = none ↔ Unreadable fs "DEVSETTING.DAT" .devSetting) ∧
      (∀ x, djm = some x ↔ Holds fs "DJMMYSETTING.DAT" .djmMySetting (.djmMySetting x)) ∧
      (djm = none ↔ Unreadable fs "DJMMYSETTING.DAT" .djmMySetting) ∧
      (∀ x, my = some x ↔ Holds fs "MYSETTING.DAT" .mySetting (.mySetting x)) ∧
      (my = none ↔ Unreadable fs "MYSETTING.DAT" .mySetting) ∧
      (∀ x, my2 = some x ↔ Holds fs "MYSETTING2.DAT" .mySetting2 (.mySetting2 x)) ∧
      (my2 = none ↔ Unreadable fs "MYSETTING2.DAT" .mySetting2) := by
  obtain ⟨dev, djm, my, my2, h, rest⟩ := load_settings_independent fs
  refine ⟨dev, djm, my, my2, (expectedSettings dev djm my my2).display, ?_, settings_text_lookup _, rest⟩
  simp only [listSettings, h]
  rfl

/-- C70: two devices are listed alike exactly if they have the same settings. -/
theorem list_settings_injective (fs fs' : PioneerDir) :
    listSettings fs = listSettings fs' ↔ loadSettings fs = loadSettings fs' := by
  obtain ⟨_, _, _, _, h, _⟩ := load_settings_independent fs
  obtain ⟨_, _, _, _, h', _⟩ := load_settings_independent fs'
  simp only [listSettings, h, h']
  constructor
  · intro e
    have : Res.ok (expectedSettings _ _ _ _).display = Res.ok (expectedSettings _ _ _ _).display := e
    rw [(settings_text_injective _ _).1 (Res.ok.inj this)]
  · intro e
    rw [Res.ok.inj e]

example : ∃ text, listSettings (fun _ => none) = .ok text ∧ lookUp "Language" text = some "<missing>" := by
  obtain ⟨dev, djm, my, my2, text, h, hl, -, hdev, -, hdjm, -, hmy, -, hmy2⟩ := list_settings_shows fun _ => none
  refine ⟨text, h, hl ("Language", "<missing>") ?_⟩
  have hmy : my = none := hmy.2 (by simp [Unreadable])
  subst hmy
  simp [Settings.table, expectedSettings, shownAs]

theorem shownAsDocumented_of_all {α : Type} [OptionCode α] [LawfulOptionCode α] [OptionText α] [DocumentedName α]
    (h : ∀ a ∈ OptionCode.all (α := α),
      ((DocumentedName.name a).all fun n => decide (SameName (shownAs (some a)) n)) = true) (a : α) :
    ShownAsDocumented a := by
  intro n hn
  have := h a (LawfulOptionCode.complete a)
  rw [hn] at this
  exact of_decide_eq_true this

/-- C71: the options are shown under the names that the documentation gives.  Missing are those in
`option_name_different`. -/
theorem option_name_documented_partial :
    (∀ o : Opt.PlayMode, ShownAsDocumented o) ∧
    (∀ o : Opt.EjectLock, ShownAsDocumented o) ∧
    (∀ o : Opt.NeedleLock, ShownAsDocumented o) ∧
    (∀ o : Opt.QuantizeBeatValue, ShownAsDocumented o) ∧
    (∀ o : Opt.HotCueAutoLoad, ShownAsDocumented o) ∧
    (∀ o : Opt.HotCueColor, ShownAsDocumented o) ∧
    (∀ o : Opt.AutoCueLevel, ShownAsDocumented o) ∧
    (∀ o : Opt.TimeMode, ShownAsDocumented o) ∧
    (∀ o : Opt.AutoCue, ShownAsDocumented o) ∧
    (∀ o : Opt.JogMode, ShownAsDocumented o) ∧
    (∀ o : Opt.TempoRange, o = .wide → ShownAsDocumented o) ∧
    (∀ o : Opt.MasterTempo, ShownAsDocumented o) ∧
    (∀ o : Opt.Quantize, ShownAsDocumented o) ∧
    (∀ o : Opt.Sync, ShownAsDocumented o) ∧
    (∀ o : Opt.PhaseMeter, ShownAsDocumented o) ∧
    (∀ o : Opt.Waveform, ShownAsDocumented o) ∧
    (∀ o : Opt.WaveformDivisions, ShownAsDocumented o) ∧
    (∀ o : Opt.VinylSpeedAdjust, ShownAsDocumented o) ∧
    (∀ o : Opt.BeatJumpBeatValue, ShownAsDocumented o) ∧
    (∀ o : Opt.Language, o ≠ .chineseSimplified → ShownAsDocumented o) ∧
    (∀ o : Opt.LCDBrightness, ShownAsDocumented o) ∧
    (∀ o : Opt.JogLCDBrightness, ShownAsDocumented o) ∧
    (∀ o : Opt.JogDisplayMode, ShownAsDocumented o) ∧
    (∀ o : Opt.SlipFlashing, ShownAsDocumented o) ∧
    (∀ o : Opt.OnAirDisplay, ShownAsDocumented o) ∧
    (∀ o : Opt.JogRingBrightness, ShownAsDocumented o) ∧
    (∀ o : Opt.JogRingIndicator, ShownAsDocumented o) ∧
    (∀ o : Opt.DiscSlotIllumination, ShownAsDocumented o) ∧
    (∀ o : Opt.PadButtonBrightness, ShownAsDocumented o) ∧
    (∀ o : Opt.HeadphonesPreEQ, ShownAsDocumented o) ∧
    (∀ o : Opt.HeadphonesMonoSplit, ShownAsDocumented o) ∧
    (∀ o : Opt.BeatFXQuantize, ShownAsDocumented o) ∧
    (∀ o : Opt.MicLowCut, o = .off → ShownAsDocumented o) ∧
    (∀ o : Opt.TalkOverMode, ShownAsDocumented o) ∧
    (∀ o : Opt.TalkOverLevel, ShownAsDocumented o) ∧
    (∀ o : Opt.MidiChannel, ShownAsDocumented o) ∧
    (∀ o : Opt.MidiButtonType, ShownAsDocumented o) ∧
    (∀ o : Opt.MixerDisplayBrightness, ShownAsDocumented o) ∧
    (∀ o : Opt.MixerIndicatorBrightness, ShownAsDocumented o) ∧
    (∀ o : Opt.WaveformColor, ShownAsDocumented o) ∧
    (∀ o : Opt.WaveformCurrentPosition, ShownAsDocumented o) ∧
    (∀ o : Opt.OverviewWaveformType, ShownAsDocumented o) ∧
    (∀ o : Opt.KeyDisplayFormat, ShownAsDocumented o) := by
  refine ⟨shownAsDocumented_of_all (by decide +kernel),
    shownAsDocumented_of_all (by decide +kernel),
    shownAsDocumented_of_all (by decide +kernel),
    shownAsDocumented_of_all (by decide +kernel),
    shownAsDocumented_of_all (by decide +kernel),
    shownAsDocumented_of_all (by decide +kernel),
    shownAsDocumented_of_all (by decide +kernel),
    shownAsDocumented_of_all (by decide +kernel),
    shownAsDocumented_of_all (by decide +kernel),
    shownAsDocumented_of_all (by decide +kernel),
    ?_,
    shownAsDocumented_of_all (by decide +kernel),
    shownAsDocumented_of_all (by decide +kernel),
    shownAsDocumented_of_all (by decide +kernel),
    shownAsDocumented_of_all (by decide +kernel),
    shownAsDocumented_of_all (by decide +kernel),
    shownAsDocumented_of_all (by decide +kernel),
    shownAsDocumented_of_all (by decide +kernel),
    shownAsDocumented_of_all (by decide +kernel),
    ?_,
    shownAsDocumented_of_all (by decide +kernel),
    shownAsDocumented_of_all (by decide +kernel),
    shownAsDocumented_of_all (by decide +kernel),
    shownAsDocumented_of_all (by decide +kernel),
    shownAsDocumented_of_all (by decide +kernel),
    shownAsDocumented_of_all (by decide +kernel),
    shownAsDocumented_of_all (by decide +kernel),
    shownAsDocumented_of_all (by decide +kernel),
    shownAsDocumented_of_all (by decide +kernel),
    shownAsDocumented_of_all (by decide +kernel),
    shownAsDocumented_of_all (by decide +kernel),
    shownAsDocumented_of_all (by decide +kernel),
    ?_,
    shownAsDocumented_of_all (by decide +kernel),
    shownAsDocumented_of_all (by decide +kernel),
    shownAsDocumented_of_all (by decide +kernel),
    shownAsDocumented_of_all (by decide +kernel),
    shownAsDocumented_of_all (by decide +kernel),
    shownAsDocumented_of_all (by decide +kernel),
    shownAsDocumented_of_all (by decide +kernel),
    shownAsDocumented_of_all (by decide +kernel),
    shownAsDocumented_of_all (by decide +kernel),
    shownAsDocumented_of_all (by decide +kernel)⟩
  · rintro o rfl n hn; cases hn; decide +kernel
  · intro o ho n hn
    cases o <;> first | exact absurd rfl ho | (cases hn; decide +kernel)
  · rintro o rfl n hn; cases hn; decide +kernel

/-- C71: simplified Chinese, three tempo ranges and the microphone low cut filter are not shown under their
documented names. -/
theorem option_name_different :
    ¬ ShownAsDocumented Opt.Language.chineseSimplified ∧
    ¬ ShownAsDocumented Opt.TempoRange.sixPercent ∧ ¬ ShownAsDocumented Opt.TempoRange.tenPercent ∧
    ¬ ShownAsDocumented Opt.TempoRange.sixteenPercent ∧ ¬ ShownAsDocumented Opt.MicLowCut.on :=
  ⟨fun h => absurd (h _ rfl) (by decide +kernel), fun h => absurd (h _ rfl) (by decide +kernel),
    fun h => absurd (h _ rfl) (by decide +kernel), fun h => absurd (h _ rfl) (by decide +kernel),
    fun h => absurd (h _ rfl) (by decide +kernel)⟩

/-- C71: the texts of the options in `option_name_different` and of those without a documented name. -/
theorem option_name_other :
    shownAs (some Opt.Language.chineseSimplified) = "ChineseSimplified" ∧
    shownAs (some Opt.TempoRange.sixPercent) = "±6%" ∧ shownAs (some Opt.TempoRange.tenPercent) = "±10%" ∧
    shownAs (some Opt.TempoRange.sixteenPercent) = "±16%" ∧ shownAs (some Opt.MicLowCut.on) = "On" ∧
    shownAs (some Opt.ChannelFaderCurve.steepTop) = "Steep Top" ∧
    shownAs (some Opt.ChannelFaderCurve.linear) = "Linear" ∧
    shownAs (some Opt.ChannelFaderCurve.steepBottom) = "Steep Bottom" ∧
    shownAs (some Opt.CrossfaderCurve.constantPower) = "Constant Power" ∧
    shownAs (some Opt.CrossfaderCurve.slowCut) = "Slow Cut" ∧
    shownAs (some Opt.CrossfaderCurve.fastCut) = "Fast Cut" ∧
    shownAs (some Opt.ChannelFaderCurveLongFader.exponential) = "Exponential" ∧
    shownAs (some Opt.ChannelFaderCurveLongFader.smooth) = "Smooth" ∧
    shownAs (some Opt.ChannelFaderCurveLongFader.linear) = "Linear" := by
  refine ⟨rfl, rfl, rfl, rfl, rfl, rfl, rfl, rfl, rfl, rfl, rfl, rfl, rfl, rfl⟩

end Rekordcrate
