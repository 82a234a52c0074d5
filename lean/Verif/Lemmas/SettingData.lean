import Verif.Lemmas.Header
import Verif.Lemmas.Text
import Verif.Model.SettingData
import Verif.Spec.Setting

/-! # Round trips of the data sections -/

namespace Rekordcrate
open Rd

theorem lawful_of_nodup {α : Type} [OptionCode α] (hc : ∀ a : α, a ∈ OptionCode.all (α := α))
    (hn : ((OptionCode.all (α := α)).map OptionCode.code).Nodup) (a b : α)
    (h : OptionCode.code a = OptionCode.code b) : a = b := by
  have key : ∀ l : List α, (l.map OptionCode.code).Nodup → a ∈ l → b ∈ l → a = b := by
    intro l
    induction l with
    | nil => simp
    | cons x l ih =>
      intro hl ha hb
      rw [List.map_cons, List.nodup_cons] at hl
      rcases List.mem_cons.1 ha with ha' | ha' <;> rcases List.mem_cons.1 hb with hb' | hb'
      · rw [ha', hb']
      · rw [← ha', h] at hl; exact absurd (List.mem_map_of_mem hb') hl.1
      · rw [← hb', ← h] at hl; exact absurd (List.mem_map_of_mem ha') hl.1
      · exact ih hl.2 ha' hb'
  exact key _ hn (hc a) (hc b)


instance : LawfulOptionCode Opt.PlayMode :=
  ⟨by intro a; cases a <;> decide, lawful_of_nodup (by intro a; cases a <;> decide) (by decide +kernel)⟩
instance : LawfulOptionCode Opt.EjectLock :=
  ⟨by intro a; cases a <;> decide, lawful_of_nodup (by intro a; cases a <;> decide) (by decide +kernel)⟩
instance : LawfulOptionCode Opt.NeedleLock :=
  ⟨by intro a; cases a <;> decide, lawful_of_nodup (by intro a; cases a <;> decide) (by decide +kernel)⟩
instance : LawfulOptionCode Opt.QuantizeBeatValue :=
  ⟨by intro a; cases a <;> decide, lawful_of_nodup (by intro a; cases a <;> decide) (by decide +kernel)⟩
instance : LawfulOptionCode Opt.HotCueAutoLoad :=
  ⟨by intro a; cases a <;> decide, lawful_of_nodup (by intro a; cases a <;> decide) (by decide +kernel)⟩
instance : LawfulOptionCode Opt.HotCueColor :=
  ⟨by intro a; cases a <;> decide, lawful_of_nodup (by intro a; cases a <;> decide) (by decide +kernel)⟩
instance : LawfulOptionCode Opt.AutoCueLevel :=
  ⟨by intro a; cases a <;> decide, lawful_of_nodup (by intro a; cases a <;> decide) (by decide +kernel)⟩
instance : LawfulOptionCode Opt.TimeMode :=
  ⟨by intro a; cases a <;> decide, lawful_of_nodup (by intro a; cases a <;> decide) (by decide +kernel)⟩
instance : LawfulOptionCode Opt.AutoCue :=
  ⟨by intro a; cases a <;> decide, lawful_of_nodup (by intro a; cases a <;> decide) (by decide +kernel)⟩
instance : LawfulOptionCode Opt.JogMode :=
  ⟨by intro a; cases a <;> decide, lawful_of_nodup (by intro a; cases a <;> decide) (by decide +kernel)⟩
instance : LawfulOptionCode Opt.TempoRange :=
  ⟨by intro a; cases a <;> decide, lawful_of_nodup (by intro a; cases a <;> decide) (by decide +kernel)⟩
instance : LawfulOptionCode Opt.MasterTempo :=
  ⟨by intro a; cases a <;> decide, lawful_of_nodup (by intro a; cases a <;> decide) (by decide +kernel)⟩
instance : LawfulOptionCode Opt.Quantize :=
  ⟨by intro a; cases a <;> decide, lawful_of_nodup (by intro a; cases a <;> decide) (by decide +kernel)⟩
instance : LawfulOptionCode Opt.Sync :=
  ⟨by intro a; cases a <;> decide, lawful_of_nodup (by intro a; cases a <;> decide) (by decide +kernel)⟩
instance : LawfulOptionCode Opt.PhaseMeter :=
  ⟨by intro a; cases a <;> decide, lawful_of_nodup (by intro a; cases a <;> decide) (by decide +kernel)⟩
instance : LawfulOptionCode Opt.Waveform :=
  ⟨by intro a; cases a <;> decide, lawful_of_nodup (by intro a; cases a <;> decide) (by decide +kernel)⟩
instance : LawfulOptionCode Opt.WaveformDivisions :=
  ⟨by intro a; cases a <;> decide, lawful_of_nodup (by intro a; cases a <;> decide) (by decide +kernel)⟩
instance : LawfulOptionCode Opt.VinylSpeedAdjust :=
  ⟨by intro a; cases a <;> decide, lawful_of_nodup (by intro a; cases a <;> decide) (by decide +kernel)⟩
instance : LawfulOptionCode Opt.BeatJumpBeatValue :=
  ⟨by intro a; cases a <;> decide, lawful_of_nodup (by intro a; cases a <;> decide) (by decide +kernel)⟩
instance : LawfulOptionCode Opt.Language :=
  ⟨by intro a; cases a <;> decide, lawful_of_nodup (by intro a; cases a <;> decide) (by decide +kernel)⟩
instance : LawfulOptionCode Opt.LCDBrightness :=
  ⟨by intro a; cases a <;> decide, lawful_of_nodup (by intro a; cases a <;> decide) (by decide +kernel)⟩
instance : LawfulOptionCode Opt.JogLCDBrightness :=
  ⟨by intro a; cases a <;> decide, lawful_of_nodup (by intro a; cases a <;> decide) (by decide +kernel)⟩
instance : LawfulOptionCode Opt.JogDisplayMode :=
  ⟨by intro a; cases a <;> decide, lawful_of_nodup (by intro a; cases a <;> decide) (by decide +kernel)⟩
instance : LawfulOptionCode Opt.SlipFlashing :=
  ⟨by intro a; cases a <;> decide, lawful_of_nodup (by intro a; cases a <;> decide) (by decide +kernel)⟩
instance : LawfulOptionCode Opt.OnAirDisplay :=
  ⟨by intro a; cases a <;> decide, lawful_of_nodup (by intro a; cases a <;> decide) (by decide +kernel)⟩
instance : LawfulOptionCode Opt.JogRingBrightness :=
  ⟨by intro a; cases a <;> decide, lawful_of_nodup (by intro a; cases a <;> decide) (by decide +kernel)⟩
instance : LawfulOptionCode Opt.JogRingIndicator :=
  ⟨by intro a; cases a <;> decide, lawful_of_nodup (by intro a; cases a <;> decide) (by decide +kernel)⟩
instance : LawfulOptionCode Opt.DiscSlotIllumination :=
  ⟨by intro a; cases a <;> decide, lawful_of_nodup (by intro a; cases a <;> decide) (by decide +kernel)⟩
instance : LawfulOptionCode Opt.PadButtonBrightness :=
  ⟨by intro a; cases a <;> decide, lawful_of_nodup (by intro a; cases a <;> decide) (by decide +kernel)⟩
instance : LawfulOptionCode Opt.ChannelFaderCurve :=
  ⟨by intro a; cases a <;> decide, lawful_of_nodup (by intro a; cases a <;> decide) (by decide +kernel)⟩
instance : LawfulOptionCode Opt.CrossfaderCurve :=
  ⟨by intro a; cases a <;> decide, lawful_of_nodup (by intro a; cases a <;> decide) (by decide +kernel)⟩
instance : LawfulOptionCode Opt.ChannelFaderCurveLongFader :=
  ⟨by intro a; cases a <;> decide, lawful_of_nodup (by intro a; cases a <;> decide) (by decide +kernel)⟩
instance : LawfulOptionCode Opt.HeadphonesPreEQ :=
  ⟨by intro a; cases a <;> decide, lawful_of_nodup (by intro a; cases a <;> decide) (by decide +kernel)⟩
instance : LawfulOptionCode Opt.HeadphonesMonoSplit :=
  ⟨by intro a; cases a <;> decide, lawful_of_nodup (by intro a; cases a <;> decide) (by decide +kernel)⟩
instance : LawfulOptionCode Opt.BeatFXQuantize :=
  ⟨by intro a; cases a <;> decide, lawful_of_nodup (by intro a; cases a <;> decide) (by decide +kernel)⟩
instance : LawfulOptionCode Opt.MicLowCut :=
  ⟨by intro a; cases a <;> decide, lawful_of_nodup (by intro a; cases a <;> decide) (by decide +kernel)⟩
instance : LawfulOptionCode Opt.TalkOverMode :=
  ⟨by intro a; cases a <;> decide, lawful_of_nodup (by intro a; cases a <;> decide) (by decide +kernel)⟩
instance : LawfulOptionCode Opt.TalkOverLevel :=
  ⟨by intro a; cases a <;> decide, lawful_of_nodup (by intro a; cases a <;> decide) (by decide +kernel)⟩
instance : LawfulOptionCode Opt.MidiChannel :=
  ⟨by intro a; cases a <;> decide, lawful_of_nodup (by intro a; cases a <;> decide) (by decide +kernel)⟩
instance : LawfulOptionCode Opt.MidiButtonType :=
  ⟨by intro a; cases a <;> decide, lawful_of_nodup (by intro a; cases a <;> decide) (by decide +kernel)⟩
instance : LawfulOptionCode Opt.MixerDisplayBrightness :=
  ⟨by intro a; cases a <;> decide, lawful_of_nodup (by intro a; cases a <;> decide) (by decide +kernel)⟩
instance : LawfulOptionCode Opt.MixerIndicatorBrightness :=
  ⟨by intro a; cases a <;> decide, lawful_of_nodup (by intro a; cases a <;> decide) (by decide +kernel)⟩
instance : LawfulOptionCode Opt.WaveformColor :=
  ⟨by intro a; cases a <;> decide, lawful_of_nodup (by intro a; cases a <;> decide) (by decide +kernel)⟩
instance : LawfulOptionCode Opt.WaveformCurrentPosition :=
  ⟨by intro a; cases a <;> decide, lawful_of_nodup (by intro a; cases a <;> decide) (by decide +kernel)⟩
instance : LawfulOptionCode Opt.OverviewWaveformType :=
  ⟨by intro a; cases a <;> decide, lawful_of_nodup (by intro a; cases a <;> decide) (by decide +kernel)⟩
instance : LawfulOptionCode Opt.KeyDisplayFormat :=
  ⟨by intro a; cases a <;> decide, lawful_of_nodup (by intro a; cases a <;> decide) (by decide +kernel)⟩
theorem find_code {α : Type} [OptionCode α] [LawfulOptionCode α] (a : α) :
    (OptionCode.all (α := α)).find? (fun x => OptionCode.code x == OptionCode.code a) = some a := by
  have key : ∀ l : List α, a ∈ l → l.find? (fun x => OptionCode.code x == OptionCode.code a) = some a := by
    intro l
    induction l with
    | nil => simp
    | cons x l ih =>
      intro ha
      rw [List.find?_cons]
      by_cases hx : OptionCode.code x = OptionCode.code a
      · have := LawfulOptionCode.injective _ _ hx
        simp [this]
      · have : (OptionCode.code x == OptionCode.code a) = false := by simpa using hx
        rw [this]
        rcases List.mem_cons.1 ha with rfl | ha
        · exact absurd rfl hx
        · exact ih ha
  exact key _ (LawfulOptionCode.complete a)

@[simp] theorem encOption_length {α : Type} [OptionCode α] (a : α) : (encOption a).length = 1 := rfl

theorem Rd.RT.readOption {α : Type} [OptionCode α] [LawfulOptionCode α] (a : α) :
    RT Rekordcrate.readOption (encOption a) a := by
  unfold Rekordcrate.readOption encOption
  refine (Rd.RT.bind (Rd.RT.u8 _) (bs' := []) ?_).congr_bytes (List.append_nil _)
  rw [find_code]
  exact Rd.RT.pure a

theorem Rd.Inv.readOption {α : Type} [OptionCode α] :
    Inv (Rekordcrate.readOption (α := α)) (fun a bs => bs = encOption a) := by
  unfold Rekordcrate.readOption
  refine Rd.Inv.bind Rd.Inv.u8 ?_
  rintro b _ rfl
  split
  · rename_i a ha
    have := List.find?_some ha
    refine (Rd.Inv.pure _).mono ?_
    rintro _ _ ⟨rfl, rfl⟩
    simp only [beq_iff_eq] at this
    simp [encOption, this]
  · exact Rd.Inv.fail _ _

theorem Rd.NP.readOption {α : Type} [OptionCode α] : NP (Rekordcrate.readOption (α := α)) := by
  unfold Rekordcrate.readOption
  refine Rd.NP.bind Rd.NP.u8 fun b => ?_
  split
  · exact Rd.NP.pure _
  · exact Rd.NP.fail _


theorem DevSetting.rt (s : DevSetting) (h : s.Shape) (ha : s.Fixed) : RT DevSetting.read s.enc s := by
  unfold DevSetting.Shape at h
  unfold DevSetting.Fixed at ha
  unfold DevSetting.read DevSetting.enc
  refine RT.bind (RT.bytes' (by simp [h])) ?_
  rw [require_true_bind (by simp [ha])]
  refine RT.bind (RT.readOption _) ?_
  refine RT.bind (RT.readOption _) ?_
  refine RT.bind (RT.u8 _) ?_
  rw [require_true_bind (by simp [ha])]
  refine RT.bind (RT.readOption _) ?_
  refine RT.bind (RT.readOption _) ?_
  refine (RT.bind (RT.bytes' (by simp [h])) ?_).congr_bytes (List.append_nil _)
  rw [require_true_bind (by simp [ha])]
  exact RT.pure _

theorem DevSetting.inv : Inv DevSetting.read (fun s bs => bs = s.enc ∧ s.Shape ∧ s.Fixed) := by
  unfold DevSetting.read
  refine Inv.bind (Inv.bytes _) ?_
  rintro _ unknown1 ⟨rfl, h_unknown1⟩
  refine Inv.bind (Inv.require _ _) ?_
  rintro _ _ ⟨a_unknown1, rfl⟩
  rw [beq_iff_eq] at a_unknown1
  refine Inv.bind (Inv.readOption) ?_
  rintro overviewWaveformType _ rfl
  refine Inv.bind (Inv.readOption) ?_
  rintro waveformColor _ rfl
  refine Inv.bind (Inv.u8) ?_
  rintro unknown2 _ rfl
  refine Inv.bind (Inv.require _ _) ?_
  rintro _ _ ⟨a_unknown2, rfl⟩
  rw [beq_iff_eq] at a_unknown2
  refine Inv.bind (Inv.readOption) ?_
  rintro keyDisplayFormat _ rfl
  refine Inv.bind (Inv.readOption) ?_
  rintro waveformCurrentPosition _ rfl
  refine Inv.bind (Inv.bytes _) ?_
  rintro _ unknown3 ⟨rfl, h_unknown3⟩
  refine Inv.bind (Inv.require _ _) ?_
  rintro _ _ ⟨a_unknown3, rfl⟩
  rw [beq_iff_eq] at a_unknown3
  refine (Inv.pure _).mono ?_
  rintro _ _ ⟨rfl, rfl⟩
  exact ⟨by simp [DevSetting.enc], ⟨h_unknown1, h_unknown3⟩, ⟨a_unknown1, a_unknown2, a_unknown3⟩⟩

theorem DevSetting.enc_length (s : DevSetting) (h : s.Shape) : s.enc.length = 32 := by
  unfold DevSetting.Shape at h
  simp [DevSetting.enc, h]

theorem DevSetting.np : NP DevSetting.read :=
  NP.bind (NP.bytes _) fun _ =>
    NP.bind (NP.require _ _) fun _ =>
    NP.bind (NP.readOption) fun _ =>
    NP.bind (NP.readOption) fun _ =>
    NP.bind (NP.u8) fun _ =>
    NP.bind (NP.require _ _) fun _ =>
    NP.bind (NP.readOption) fun _ =>
    NP.bind (NP.readOption) fun _ =>
    NP.bind (NP.bytes _) fun _ =>
    NP.bind (NP.require _ _) fun _ =>
    NP.pure _

theorem DJMMySetting.rt (s : DJMMySetting) (h : s.Shape) (ha : s.Fixed) : RT DJMMySetting.read s.enc s := by
  unfold DJMMySetting.Shape at h
  unfold DJMMySetting.Fixed at ha
  unfold DJMMySetting.read DJMMySetting.enc
  refine RT.bind (RT.bytes' (by simp [h])) ?_
  refine RT.bind (RT.readOption _) ?_
  refine RT.bind (RT.readOption _) ?_
  refine RT.bind (RT.readOption _) ?_
  refine RT.bind (RT.readOption _) ?_
  refine RT.bind (RT.readOption _) ?_
  refine RT.bind (RT.readOption _) ?_
  refine RT.bind (RT.readOption _) ?_
  refine RT.bind (RT.readOption _) ?_
  refine RT.bind (RT.readOption _) ?_
  refine RT.bind (RT.readOption _) ?_
  refine RT.bind (RT.readOption _) ?_
  refine RT.bind (RT.readOption _) ?_
  refine RT.bind (RT.readOption _) ?_
  refine (RT.bind (RT.bytes' (by simp [h])) ?_).congr_bytes (List.append_nil _)
  rw [require_true_bind (by simp [ha])]
  exact RT.pure _

theorem DJMMySetting.inv : Inv DJMMySetting.read (fun s bs => bs = s.enc ∧ s.Shape ∧ s.Fixed) := by
  unfold DJMMySetting.read
  refine Inv.bind (Inv.bytes _) ?_
  rintro _ unknown1 ⟨rfl, h_unknown1⟩
  refine Inv.bind (Inv.readOption) ?_
  rintro channelFaderCurve _ rfl
  refine Inv.bind (Inv.readOption) ?_
  rintro crossfaderCurve _ rfl
  refine Inv.bind (Inv.readOption) ?_
  rintro headphonesPreEq _ rfl
  refine Inv.bind (Inv.readOption) ?_
  rintro headphonesMonoSplit _ rfl
  refine Inv.bind (Inv.readOption) ?_
  rintro beatFxQuantize _ rfl
  refine Inv.bind (Inv.readOption) ?_
  rintro micLowCut _ rfl
  refine Inv.bind (Inv.readOption) ?_
  rintro talkOverMode _ rfl
  refine Inv.bind (Inv.readOption) ?_
  rintro talkOverLevel _ rfl
  refine Inv.bind (Inv.readOption) ?_
  rintro midiChannel _ rfl
  refine Inv.bind (Inv.readOption) ?_
  rintro midiButtonType _ rfl
  refine Inv.bind (Inv.readOption) ?_
  rintro displayBrightness _ rfl
  refine Inv.bind (Inv.readOption) ?_
  rintro indicatorBrightness _ rfl
  refine Inv.bind (Inv.readOption) ?_
  rintro channelFaderCurveLongFader _ rfl
  refine Inv.bind (Inv.bytes _) ?_
  rintro _ unknown2 ⟨rfl, h_unknown2⟩
  refine Inv.bind (Inv.require _ _) ?_
  rintro _ _ ⟨a_unknown2, rfl⟩
  rw [beq_iff_eq] at a_unknown2
  refine (Inv.pure _).mono ?_
  rintro _ _ ⟨rfl, rfl⟩
  exact ⟨by simp [DJMMySetting.enc], ⟨h_unknown1, h_unknown2⟩, a_unknown2⟩

theorem DJMMySetting.enc_length (s : DJMMySetting) (h : s.Shape) : s.enc.length = 52 := by
  unfold DJMMySetting.Shape at h
  simp [DJMMySetting.enc, h]

theorem DJMMySetting.np : NP DJMMySetting.read :=
  NP.bind (NP.bytes _) fun _ =>
    NP.bind (NP.readOption) fun _ =>
    NP.bind (NP.readOption) fun _ =>
    NP.bind (NP.readOption) fun _ =>
    NP.bind (NP.readOption) fun _ =>
    NP.bind (NP.readOption) fun _ =>
    NP.bind (NP.readOption) fun _ =>
    NP.bind (NP.readOption) fun _ =>
    NP.bind (NP.readOption) fun _ =>
    NP.bind (NP.readOption) fun _ =>
    NP.bind (NP.readOption) fun _ =>
    NP.bind (NP.readOption) fun _ =>
    NP.bind (NP.readOption) fun _ =>
    NP.bind (NP.readOption) fun _ =>
    NP.bind (NP.bytes _) fun _ =>
    NP.bind (NP.require _ _) fun _ =>
    NP.pure _

theorem MySetting.rt (s : MySetting) (h : s.Shape) (ha : s.Fixed) : RT MySetting.read s.enc s := by
  unfold MySetting.Shape at h
  unfold MySetting.Fixed at ha
  unfold MySetting.read MySetting.enc
  refine RT.bind (RT.bytes' (by simp [h])) ?_
  refine RT.bind (RT.readOption _) ?_
  refine RT.bind (RT.readOption _) ?_
  refine RT.bind (RT.readOption _) ?_
  refine RT.bind (RT.readOption _) ?_
  refine RT.bind (RT.readOption _) ?_
  refine RT.bind (RT.u8 _) ?_
  refine RT.bind (RT.readOption _) ?_
  refine RT.bind (RT.readOption _) ?_
  refine RT.bind (RT.readOption _) ?_
  refine RT.bind (RT.bytes' (by simp [h])) ?_
  refine RT.bind (RT.readOption _) ?_
  refine RT.bind (RT.readOption _) ?_
  refine RT.bind (RT.readOption _) ?_
  refine RT.bind (RT.readOption _) ?_
  refine RT.bind (RT.readOption _) ?_
  refine RT.bind (RT.readOption _) ?_
  refine RT.bind (RT.readOption _) ?_
  refine RT.bind (RT.u16 _) ?_
  rw [require_true_bind (by simp [ha])]
  refine RT.bind (RT.readOption _) ?_
  refine RT.bind (RT.u16 _) ?_
  rw [require_true_bind (by simp [ha])]
  refine RT.bind (RT.readOption _) ?_
  refine RT.bind (RT.readOption _) ?_
  refine RT.bind (RT.readOption _) ?_
  refine RT.bind (RT.readOption _) ?_
  refine RT.bind (RT.readOption _) ?_
  refine RT.bind (RT.readOption _) ?_
  refine (RT.bind (RT.u16 _) ?_).congr_bytes (List.append_nil _)
  rw [require_true_bind (by simp [ha])]
  exact RT.pure _

theorem MySetting.inv : Inv MySetting.read (fun s bs => bs = s.enc ∧ s.Shape ∧ s.Fixed) := by
  unfold MySetting.read
  refine Inv.bind (Inv.bytes _) ?_
  rintro _ unknown1 ⟨rfl, h_unknown1⟩
  refine Inv.bind (Inv.readOption) ?_
  rintro onAirDisplay _ rfl
  refine Inv.bind (Inv.readOption) ?_
  rintro lcdBrightness _ rfl
  refine Inv.bind (Inv.readOption) ?_
  rintro quantize _ rfl
  refine Inv.bind (Inv.readOption) ?_
  rintro autoCueLevel _ rfl
  refine Inv.bind (Inv.readOption) ?_
  rintro language _ rfl
  refine Inv.bind (Inv.u8) ?_
  rintro unknown2 _ rfl
  refine Inv.bind (Inv.readOption) ?_
  rintro jogRingBrightness _ rfl
  refine Inv.bind (Inv.readOption) ?_
  rintro jogRingIndicator _ rfl
  refine Inv.bind (Inv.readOption) ?_
  rintro slipFlashing _ rfl
  refine Inv.bind (Inv.bytes _) ?_
  rintro _ unknown3 ⟨rfl, h_unknown3⟩
  refine Inv.bind (Inv.readOption) ?_
  rintro discSlotIllumination _ rfl
  refine Inv.bind (Inv.readOption) ?_
  rintro ejectLock _ rfl
  refine Inv.bind (Inv.readOption) ?_
  rintro sync _ rfl
  refine Inv.bind (Inv.readOption) ?_
  rintro playMode _ rfl
  refine Inv.bind (Inv.readOption) ?_
  rintro quantizeBeatValue _ rfl
  refine Inv.bind (Inv.readOption) ?_
  rintro hotcueAutoload _ rfl
  refine Inv.bind (Inv.readOption) ?_
  rintro hotcueColor _ rfl
  refine Inv.bind (Inv.u16) ?_
  rintro unknown4 _ rfl
  refine Inv.bind (Inv.require _ _) ?_
  rintro _ _ ⟨a_unknown4, rfl⟩
  rw [beq_iff_eq] at a_unknown4
  refine Inv.bind (Inv.readOption) ?_
  rintro needleLock _ rfl
  refine Inv.bind (Inv.u16) ?_
  rintro unknown5 _ rfl
  refine Inv.bind (Inv.require _ _) ?_
  rintro _ _ ⟨a_unknown5, rfl⟩
  rw [beq_iff_eq] at a_unknown5
  refine Inv.bind (Inv.readOption) ?_
  rintro timeMode _ rfl
  refine Inv.bind (Inv.readOption) ?_
  rintro jogMode _ rfl
  refine Inv.bind (Inv.readOption) ?_
  rintro autoCue _ rfl
  refine Inv.bind (Inv.readOption) ?_
  rintro masterTempo _ rfl
  refine Inv.bind (Inv.readOption) ?_
  rintro tempoRange _ rfl
  refine Inv.bind (Inv.readOption) ?_
  rintro phaseMeter _ rfl
  refine Inv.bind (Inv.u16) ?_
  rintro unknown6 _ rfl
  refine Inv.bind (Inv.require _ _) ?_
  rintro _ _ ⟨a_unknown6, rfl⟩
  rw [beq_iff_eq] at a_unknown6
  refine (Inv.pure _).mono ?_
  rintro _ _ ⟨rfl, rfl⟩
  exact ⟨by simp [MySetting.enc], ⟨h_unknown1, h_unknown3⟩, ⟨a_unknown4, a_unknown5, a_unknown6⟩⟩

theorem MySetting.enc_length (s : MySetting) (h : s.Shape) : s.enc.length = 40 := by
  unfold MySetting.Shape at h
  simp [MySetting.enc, h]

theorem MySetting.np : NP MySetting.read :=
  NP.bind (NP.bytes _) fun _ =>
    NP.bind (NP.readOption) fun _ =>
    NP.bind (NP.readOption) fun _ =>
    NP.bind (NP.readOption) fun _ =>
    NP.bind (NP.readOption) fun _ =>
    NP.bind (NP.readOption) fun _ =>
    NP.bind (NP.u8) fun _ =>
    NP.bind (NP.readOption) fun _ =>
    NP.bind (NP.readOption) fun _ =>
    NP.bind (NP.readOption) fun _ =>
    NP.bind (NP.bytes _) fun _ =>
    NP.bind (NP.readOption) fun _ =>
    NP.bind (NP.readOption) fun _ =>
    NP.bind (NP.readOption) fun _ =>
    NP.bind (NP.readOption) fun _ =>
    NP.bind (NP.readOption) fun _ =>
    NP.bind (NP.readOption) fun _ =>
    NP.bind (NP.readOption) fun _ =>
    NP.bind (NP.u16) fun _ =>
    NP.bind (NP.require _ _) fun _ =>
    NP.bind (NP.readOption) fun _ =>
    NP.bind (NP.u16) fun _ =>
    NP.bind (NP.require _ _) fun _ =>
    NP.bind (NP.readOption) fun _ =>
    NP.bind (NP.readOption) fun _ =>
    NP.bind (NP.readOption) fun _ =>
    NP.bind (NP.readOption) fun _ =>
    NP.bind (NP.readOption) fun _ =>
    NP.bind (NP.readOption) fun _ =>
    NP.bind (NP.u16) fun _ =>
    NP.bind (NP.require _ _) fun _ =>
    NP.pure _

theorem MySetting2.rt (s : MySetting2) (h : s.Shape) (ha : s.Fixed) : RT MySetting2.read s.enc s := by
  unfold MySetting2.Shape at h
  unfold MySetting2.Fixed at ha
  unfold MySetting2.read MySetting2.enc
  refine RT.bind (RT.readOption _) ?_
  refine RT.bind (RT.readOption _) ?_
  refine RT.bind (RT.readOption _) ?_
  refine RT.bind (RT.readOption _) ?_
  refine RT.bind (RT.readOption _) ?_
  refine RT.bind (RT.bytes' (by simp [h])) ?_
  rw [require_true_bind (by simp [ha])]
  refine RT.bind (RT.readOption _) ?_
  refine RT.bind (RT.u8 _) ?_
  refine RT.bind (RT.readOption _) ?_
  refine (RT.bind (RT.bytes' (by simp [h])) ?_).congr_bytes (List.append_nil _)
  rw [require_true_bind (by simp [ha])]
  exact RT.pure _

theorem MySetting2.inv : Inv MySetting2.read (fun s bs => bs = s.enc ∧ s.Shape ∧ s.Fixed) := by
  unfold MySetting2.read
  refine Inv.bind (Inv.readOption) ?_
  rintro vinylSpeedAdjust _ rfl
  refine Inv.bind (Inv.readOption) ?_
  rintro jogDisplayMode _ rfl
  refine Inv.bind (Inv.readOption) ?_
  rintro padButtonBrightness _ rfl
  refine Inv.bind (Inv.readOption) ?_
  rintro jogLcdBrightness _ rfl
  refine Inv.bind (Inv.readOption) ?_
  rintro waveformDivisions _ rfl
  refine Inv.bind (Inv.bytes _) ?_
  rintro _ unknown1 ⟨rfl, h_unknown1⟩
  refine Inv.bind (Inv.require _ _) ?_
  rintro _ _ ⟨a_unknown1, rfl⟩
  rw [beq_iff_eq] at a_unknown1
  refine Inv.bind (Inv.readOption) ?_
  rintro waveform _ rfl
  refine Inv.bind (Inv.u8) ?_
  rintro unknown2 _ rfl
  refine Inv.bind (Inv.readOption) ?_
  rintro beatJumpBeatValue _ rfl
  refine Inv.bind (Inv.bytes _) ?_
  rintro _ unknown3 ⟨rfl, h_unknown3⟩
  refine Inv.bind (Inv.require _ _) ?_
  rintro _ _ ⟨a_unknown3, rfl⟩
  rw [beq_iff_eq] at a_unknown3
  refine (Inv.pure _).mono ?_
  rintro _ _ ⟨rfl, rfl⟩
  exact ⟨by simp [MySetting2.enc], ⟨h_unknown1, h_unknown3⟩, ⟨a_unknown1, a_unknown3⟩⟩

theorem MySetting2.enc_length (s : MySetting2) (h : s.Shape) : s.enc.length = 40 := by
  unfold MySetting2.Shape at h
  simp [MySetting2.enc, h]

theorem MySetting2.np : NP MySetting2.read :=
  NP.bind (NP.readOption) fun _ =>
    NP.bind (NP.readOption) fun _ =>
    NP.bind (NP.readOption) fun _ =>
    NP.bind (NP.readOption) fun _ =>
    NP.bind (NP.readOption) fun _ =>
    NP.bind (NP.bytes _) fun _ =>
    NP.bind (NP.require _ _) fun _ =>
    NP.bind (NP.readOption) fun _ =>
    NP.bind (NP.u8) fun _ =>
    NP.bind (NP.readOption) fun _ =>
    NP.bind (NP.bytes _) fun _ =>
    NP.bind (NP.require _ _) fun _ =>
    NP.pure _

end Rekordcrate
