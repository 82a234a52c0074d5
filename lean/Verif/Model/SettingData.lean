import Verif.Model.SettingOptions

/-! # Model of the data sections of `src/setting.rs` -/

namespace Rekordcrate

/-- `DevSetting`, `src/setting.rs` 267-285.  The byte arrays of the `unknown` fields are lists here; their
lengths are part of `DevSetting.Shape`. -/
structure DevSetting where
  unknown1 : Bytes
  overviewWaveformType : Opt.OverviewWaveformType
  waveformColor : Opt.WaveformColor
  unknown2 : UInt8
  keyDisplayFormat : Opt.KeyDisplayFormat
  waveformCurrentPosition : Opt.WaveformCurrentPosition
  unknown3 : Bytes
  deriving DecidableEq, Repr

/-- What the Rust types of the array fields guarantee.  `src/setting.rs` 267-285. -/
def DevSetting.Shape (s : DevSetting) : Prop := s.unknown1.length = 9 ∧ s.unknown3.length = 18

/-- `Default` of `DevSetting`, `src/setting.rs` 287 and following. -/
def DevSetting.default : DevSetting where
  unknown1 := [0x78, 0x56, 0x34, 0x12, 0x01, 0x00, 0x00, 0x00, 0x01]
  overviewWaveformType := Inhabited.default
  waveformColor := Inhabited.default
  unknown2 := 0x01
  keyDisplayFormat := Inhabited.default
  waveformCurrentPosition := Inhabited.default
  unknown3 := List.replicate 18 0

/-- Derived `BinWrite` of `DevSetting`, `src/setting.rs` 267-285. -/
def DevSetting.enc (s : DevSetting) : Bytes :=
  s.unknown1 ++ (encOption s.overviewWaveformType ++ (encOption s.waveformColor ++ (
  encU8 s.unknown2 ++ (encOption s.keyDisplayFormat ++ (
  encOption s.waveformCurrentPosition ++ (s.unknown3))))))

/-- Derived `BinRead` of `DevSetting`, `src/setting.rs` 267-285. -/
def DevSetting.read : Rd DevSetting := do
  let unknown1 ← Rd.bytes 9
  Rd.require (unknown1 == [0x78, 0x56, 0x34, 0x12, 0x01, 0x00, 0x00, 0x00, 0x01])
  let overviewWaveformType ← readOption
  let waveformColor ← readOption
  let unknown2 ← Rd.u8
  Rd.require (unknown2 == 0x01)
  let keyDisplayFormat ← readOption
  let waveformCurrentPosition ← readOption
  let unknown3 ← Rd.bytes 18
  Rd.require (unknown3 == (List.replicate 18 0))
  pure {
    unknown1, overviewWaveformType, waveformColor, unknown2,
    keyDisplayFormat, waveformCurrentPosition, unknown3 }

/-- `DJMMySetting`, `src/setting.rs` 305-337.  The byte arrays of the `unknown` fields are lists here; their
lengths are part of `DJMMySetting.Shape`. -/
structure DJMMySetting where
  unknown1 : Bytes
  channelFaderCurve : Opt.ChannelFaderCurve
  crossfaderCurve : Opt.CrossfaderCurve
  headphonesPreEq : Opt.HeadphonesPreEQ
  headphonesMonoSplit : Opt.HeadphonesMonoSplit
  beatFxQuantize : Opt.BeatFXQuantize
  micLowCut : Opt.MicLowCut
  talkOverMode : Opt.TalkOverMode
  talkOverLevel : Opt.TalkOverLevel
  midiChannel : Opt.MidiChannel
  midiButtonType : Opt.MidiButtonType
  displayBrightness : Opt.MixerDisplayBrightness
  indicatorBrightness : Opt.MixerIndicatorBrightness
  channelFaderCurveLongFader : Opt.ChannelFaderCurveLongFader
  unknown2 : Bytes
  deriving DecidableEq, Repr

/-- What the Rust types of the array fields guarantee.  `src/setting.rs` 305-337. -/
def DJMMySetting.Shape (s : DJMMySetting) : Prop := s.unknown1.length = 12 ∧ s.unknown2.length = 27

/-- `Default` of `DJMMySetting`, `src/setting.rs` 339 and following. -/
def DJMMySetting.default : DJMMySetting where
  unknown1 := [0x78, 0x56, 0x34, 0x12, 0x01, 0x00, 0x00, 0x00, 0x20, 0x00, 0x00, 0x00]
  channelFaderCurve := Inhabited.default
  crossfaderCurve := Inhabited.default
  headphonesPreEq := Inhabited.default
  headphonesMonoSplit := Inhabited.default
  beatFxQuantize := Inhabited.default
  micLowCut := Inhabited.default
  talkOverMode := Inhabited.default
  talkOverLevel := Inhabited.default
  midiChannel := Inhabited.default
  midiButtonType := Inhabited.default
  displayBrightness := Inhabited.default
  indicatorBrightness := Inhabited.default
  channelFaderCurveLongFader := Inhabited.default
  unknown2 := List.replicate 27 0

/-- Derived `BinWrite` of `DJMMySetting`, `src/setting.rs` 305-337. -/
def DJMMySetting.enc (s : DJMMySetting) : Bytes :=
  s.unknown1 ++ (encOption s.channelFaderCurve ++ (encOption s.crossfaderCurve ++ (
  encOption s.headphonesPreEq ++ (encOption s.headphonesMonoSplit ++ (
  encOption s.beatFxQuantize ++ (encOption s.micLowCut ++ (encOption s.talkOverMode ++ (
  encOption s.talkOverLevel ++ (encOption s.midiChannel ++ (encOption s.midiButtonType ++ (
  encOption s.displayBrightness ++ (encOption s.indicatorBrightness ++ (
  encOption s.channelFaderCurveLongFader ++ (s.unknown2))))))))))))))

/-- Derived `BinRead` of `DJMMySetting`, `src/setting.rs` 305-337. -/
def DJMMySetting.read : Rd DJMMySetting := do
  let unknown1 ← Rd.bytes 12
  let channelFaderCurve ← readOption
  let crossfaderCurve ← readOption
  let headphonesPreEq ← readOption
  let headphonesMonoSplit ← readOption
  let beatFxQuantize ← readOption
  let micLowCut ← readOption
  let talkOverMode ← readOption
  let talkOverLevel ← readOption
  let midiChannel ← readOption
  let midiButtonType ← readOption
  let displayBrightness ← readOption
  let indicatorBrightness ← readOption
  let channelFaderCurveLongFader ← readOption
  let unknown2 ← Rd.bytes 27
  Rd.require (unknown2 == (List.replicate 27 0))
  pure {
    unknown1, channelFaderCurve, crossfaderCurve, headphonesPreEq,
    headphonesMonoSplit, beatFxQuantize, micLowCut, talkOverMode,
    talkOverLevel, midiChannel, midiButtonType, displayBrightness,
    indicatorBrightness, channelFaderCurveLongFader, unknown2 }

/-- `MySetting`, `src/setting.rs` 367-427.  The byte arrays of the `unknown` fields are lists here; their
lengths are part of `MySetting.Shape`. -/
structure MySetting where
  unknown1 : Bytes
  onAirDisplay : Opt.OnAirDisplay
  lcdBrightness : Opt.LCDBrightness
  quantize : Opt.Quantize
  autoCueLevel : Opt.AutoCueLevel
  language : Opt.Language
  unknown2 : UInt8
  jogRingBrightness : Opt.JogRingBrightness
  jogRingIndicator : Opt.JogRingIndicator
  slipFlashing : Opt.SlipFlashing
  unknown3 : Bytes
  discSlotIllumination : Opt.DiscSlotIllumination
  ejectLock : Opt.EjectLock
  sync : Opt.Sync
  playMode : Opt.PlayMode
  quantizeBeatValue : Opt.QuantizeBeatValue
  hotcueAutoload : Opt.HotCueAutoLoad
  hotcueColor : Opt.HotCueColor
  unknown4 : UInt16
  needleLock : Opt.NeedleLock
  unknown5 : UInt16
  timeMode : Opt.TimeMode
  jogMode : Opt.JogMode
  autoCue : Opt.AutoCue
  masterTempo : Opt.MasterTempo
  tempoRange : Opt.TempoRange
  phaseMeter : Opt.PhaseMeter
  unknown6 : UInt16
  deriving DecidableEq, Repr

/-- What the Rust types of the array fields guarantee.  `src/setting.rs` 367-427. -/
def MySetting.Shape (s : MySetting) : Prop := s.unknown1.length = 8 ∧ s.unknown3.length = 3

/-- `Default` of `MySetting`, `src/setting.rs` 429 and following. -/
def MySetting.default : MySetting where
  unknown1 := [0x78, 0x56, 0x34, 0x12, 0x02, 0x00, 0x00, 0x00]
  onAirDisplay := Inhabited.default
  lcdBrightness := Inhabited.default
  quantize := Inhabited.default
  autoCueLevel := Inhabited.default
  language := Inhabited.default
  unknown2 := 0x01
  jogRingBrightness := Inhabited.default
  jogRingIndicator := Inhabited.default
  slipFlashing := Inhabited.default
  unknown3 := [0x01, 0x01, 0x01]
  discSlotIllumination := Inhabited.default
  ejectLock := Inhabited.default
  sync := Inhabited.default
  playMode := Inhabited.default
  quantizeBeatValue := Inhabited.default
  hotcueAutoload := Inhabited.default
  hotcueColor := Inhabited.default
  unknown4 := 0
  needleLock := Inhabited.default
  unknown5 := 0
  timeMode := Inhabited.default
  jogMode := Inhabited.default
  autoCue := Inhabited.default
  masterTempo := Inhabited.default
  tempoRange := Inhabited.default
  phaseMeter := Inhabited.default
  unknown6 := 0

/-- Derived `BinWrite` of `MySetting`, `src/setting.rs` 367-427. -/
def MySetting.enc (s : MySetting) : Bytes :=
  s.unknown1 ++ (encOption s.onAirDisplay ++ (encOption s.lcdBrightness ++ (
  encOption s.quantize ++ (encOption s.autoCueLevel ++ (encOption s.language ++ (
  encU8 s.unknown2 ++ (encOption s.jogRingBrightness ++ (encOption s.jogRingIndicator ++ (
  encOption s.slipFlashing ++ (s.unknown3 ++ (encOption s.discSlotIllumination ++ (
  encOption s.ejectLock ++ (encOption s.sync ++ (encOption s.playMode ++ (
  encOption s.quantizeBeatValue ++ (encOption s.hotcueAutoload ++ (encOption s.hotcueColor ++ (
  encU16 s.unknown4 ++ (encOption s.needleLock ++ (encU16 s.unknown5 ++ (
  encOption s.timeMode ++ (encOption s.jogMode ++ (encOption s.autoCue ++ (
  encOption s.masterTempo ++ (encOption s.tempoRange ++ (encOption s.phaseMeter ++ (
  encU16 s.unknown6)))))))))))))))))))))))))))

/-- Derived `BinRead` of `MySetting`, `src/setting.rs` 367-427. -/
def MySetting.read : Rd MySetting := do
  let unknown1 ← Rd.bytes 8
  let onAirDisplay ← readOption
  let lcdBrightness ← readOption
  let quantize ← readOption
  let autoCueLevel ← readOption
  let language ← readOption
  let unknown2 ← Rd.u8
  let jogRingBrightness ← readOption
  let jogRingIndicator ← readOption
  let slipFlashing ← readOption
  let unknown3 ← Rd.bytes 3
  let discSlotIllumination ← readOption
  let ejectLock ← readOption
  let sync ← readOption
  let playMode ← readOption
  let quantizeBeatValue ← readOption
  let hotcueAutoload ← readOption
  let hotcueColor ← readOption
  let unknown4 ← Rd.u16
  Rd.require (unknown4 == 0)
  let needleLock ← readOption
  let unknown5 ← Rd.u16
  Rd.require (unknown5 == 0)
  let timeMode ← readOption
  let jogMode ← readOption
  let autoCue ← readOption
  let masterTempo ← readOption
  let tempoRange ← readOption
  let phaseMeter ← readOption
  let unknown6 ← Rd.u16
  Rd.require (unknown6 == 0)
  pure {
    unknown1, onAirDisplay, lcdBrightness, quantize,
    autoCueLevel, language, unknown2, jogRingBrightness,
    jogRingIndicator, slipFlashing, unknown3, discSlotIllumination,
    ejectLock, sync, playMode, quantizeBeatValue,
    hotcueAutoload, hotcueColor, unknown4, needleLock,
    unknown5, timeMode, jogMode, autoCue,
    masterTempo, tempoRange, phaseMeter, unknown6 }

/-- `MySetting2`, `src/setting.rs` 468-491.  The byte arrays of the `unknown` fields are lists here; their
lengths are part of `MySetting2.Shape`. -/
structure MySetting2 where
  vinylSpeedAdjust : Opt.VinylSpeedAdjust
  jogDisplayMode : Opt.JogDisplayMode
  padButtonBrightness : Opt.PadButtonBrightness
  jogLcdBrightness : Opt.JogLCDBrightness
  waveformDivisions : Opt.WaveformDivisions
  unknown1 : Bytes
  waveform : Opt.Waveform
  unknown2 : UInt8
  beatJumpBeatValue : Opt.BeatJumpBeatValue
  unknown3 : Bytes
  deriving DecidableEq, Repr

/-- What the Rust types of the array fields guarantee.  `src/setting.rs` 468-491. -/
def MySetting2.Shape (s : MySetting2) : Prop := s.unknown1.length = 5 ∧ s.unknown3.length = 27

/-- `Default` of `MySetting2`, `src/setting.rs` 493 and following. -/
def MySetting2.default : MySetting2 where
  vinylSpeedAdjust := Inhabited.default
  jogDisplayMode := Inhabited.default
  padButtonBrightness := Inhabited.default
  jogLcdBrightness := Inhabited.default
  waveformDivisions := Inhabited.default
  unknown1 := List.replicate 5 0
  waveform := Inhabited.default
  unknown2 := 0x81
  beatJumpBeatValue := Inhabited.default
  unknown3 := List.replicate 27 0

/-- Derived `BinWrite` of `MySetting2`, `src/setting.rs` 468-491. -/
def MySetting2.enc (s : MySetting2) : Bytes :=
  encOption s.vinylSpeedAdjust ++ (encOption s.jogDisplayMode ++ (
  encOption s.padButtonBrightness ++ (encOption s.jogLcdBrightness ++ (
  encOption s.waveformDivisions ++ (s.unknown1 ++ (encOption s.waveform ++ (
  encU8 s.unknown2 ++ (encOption s.beatJumpBeatValue ++ (s.unknown3)))))))))

/-- Derived `BinRead` of `MySetting2`, `src/setting.rs` 468-491. -/
def MySetting2.read : Rd MySetting2 := do
  let vinylSpeedAdjust ← readOption
  let jogDisplayMode ← readOption
  let padButtonBrightness ← readOption
  let jogLcdBrightness ← readOption
  let waveformDivisions ← readOption
  let unknown1 ← Rd.bytes 5
  Rd.require (unknown1 == (List.replicate 5 0))
  let waveform ← readOption
  let unknown2 ← Rd.u8
  let beatJumpBeatValue ← readOption
  let unknown3 ← Rd.bytes 27
  Rd.require (unknown3 == (List.replicate 27 0))
  pure {
    vinylSpeedAdjust, jogDisplayMode, padButtonBrightness, jogLcdBrightness,
    waveformDivisions, unknown1, waveform, unknown2,
    beatJumpBeatValue, unknown3 }

end Rekordcrate
