import Verif.Spec.Basic
import Verif.Model.Setting

/-! # Specification vocabulary for setting files -/

namespace Rekordcrate

/-- An option type whose codes determine the option and which lists all its options. -/
class LawfulOptionCode (α : Type) [OptionCode α] : Prop where
  complete : ∀ a : α, a ∈ OptionCode.all (α := α)
  injective : ∀ a b : α, OptionCode.code a = OptionCode.code b → a = b

/-- The fields of a `DevSetting` that hold fixed values in every file. -/
def DevSetting.Fixed (s : DevSetting) : Prop :=
  s.unknown1 = [0x78, 0x56, 0x34, 0x12, 0x01, 0x00, 0x00, 0x00, 0x01] ∧ s.unknown2 = 0x01 ∧ s.unknown3 = (List.replicate 18 0)

/-- The fields of a `DJMMySetting` that hold fixed values in every file. -/
def DJMMySetting.Fixed (s : DJMMySetting) : Prop :=
  s.unknown2 = (List.replicate 27 0)

/-- The fields of a `MySetting` that hold fixed values in every file. -/
def MySetting.Fixed (s : MySetting) : Prop :=
  s.unknown4 = 0 ∧ s.unknown5 = 0 ∧ s.unknown6 = 0

/-- The fields of a `MySetting2` that hold fixed values in every file. -/
def MySetting2.Fixed (s : MySetting2) : Prop :=
  s.unknown1 = (List.replicate 5 0) ∧ s.unknown3 = (List.replicate 27 0)

/-- Data sections as the API hands them out: array fields of the right length, fixed fields at their
fixed values. -/
def SettingData.Proper : SettingData → Prop
  | .devSetting s => s.Shape ∧ s.Fixed
  | .djmMySetting s => s.Shape ∧ s.Fixed
  | .mySetting s => s.Shape ∧ s.Fixed
  | .mySetting2 s => s.Shape ∧ s.Fixed

/-- A name fits its 32-byte field and has no NUL inside. -/
def FitsName (s : Bytes) : Prop := s.length ≤ 31 ∧ (0 : UInt8) ∉ s

/-- A setting value that can be stored without loss. -/
def Setting.Proper (s : Setting) : Prop :=
  FitsName s.brand ∧ FitsName s.software ∧ FitsName s.version ∧ s.data.Proper

/-- Size in bytes of the data section of each kind of file. -/
def dataSize : SettingType → Nat
  | .devSetting => 32
  | .djmMySetting => 52
  | .mySetting => 40
  | .mySetting2 => 40

/-- A 32-byte name field: the name, a NUL byte, and whatever fills the field. -/
def nameField (s pad : Bytes) : Bytes := s ++ ([0] ++ pad)

/-- The bytes of a setting file, given the fillers of the name fields and the two checksum bytes. -/
def settingLayout (s : Setting) (pad1 pad2 pad3 : Bytes) (checksum : UInt16) : Bytes :=
  [0x60, 0, 0, 0] ++ (nameField s.brand pad1 ++ (nameField s.software pad2 ++
    (nameField s.version pad3 ++ ([UInt8.ofNat (dataSize s.data.kind), 0, 0, 0] ++ (s.data.enc ++
    (encU16 checksum ++ [0, 0]))))))

/-- The fillers complete the name fields to 32 bytes. -/
def PadsFit (s : Setting) (pad1 pad2 pad3 : Bytes) : Prop :=
  s.brand.length + 1 + pad1.length = 32 ∧ s.software.length + 1 + pad2.length = 32 ∧
    s.version.length + 1 + pad3.length = 32

/-- The file `name` of kind `t` is present and holds the data `x`. -/
def Holds (fs : PioneerDir) (name : String) (t : SettingType) (x : SettingData) : Prop :=
  ∃ d s p, fs name = some d ∧ Setting.read t d 0 = .ok (s, p) ∧ s.data = x

/-- The file `name` of kind `t` is missing or cannot be read. -/
def Unreadable (fs : PioneerDir) (name : String) (t : SettingType) : Prop :=
  ∀ d, fs name = some d → ∃ e, Setting.read t d 0 = .err e

/-- What is expected of `load_settings`, option by option, given the readable files. -/
def expectedSettings (dev : Option DevSetting) (djm : Option DJMMySetting) (my : Option MySetting)
    (my2 : Option MySetting2) : Settings where
  onAirDisplay := my.map (·.onAirDisplay)
  lcdBrightness := my.map (·.lcdBrightness)
  quantize := my.map (·.quantize)
  autoCueLevel := my.map (·.autoCueLevel)
  language := my.map (·.language)
  jogRingBrightness := my.map (·.jogRingBrightness)
  jogRingIndicator := my.map (·.jogRingIndicator)
  slipFlashing := my.map (·.slipFlashing)
  discSlotIllumination := my.map (·.discSlotIllumination)
  ejectLock := my.map (·.ejectLock)
  sync := my.map (·.sync)
  playMode := my.map (·.playMode)
  quantizeBeatValue := my.map (·.quantizeBeatValue)
  hotcueAutoload := my.map (·.hotcueAutoload)
  hotcueColor := my.map (·.hotcueColor)
  needleLock := my.map (·.needleLock)
  timeMode := my.map (·.timeMode)
  jogMode := my.map (·.jogMode)
  autoCue := my.map (·.autoCue)
  masterTempo := my.map (·.masterTempo)
  tempoRange := my.map (·.tempoRange)
  phaseMeter := my.map (·.phaseMeter)
  vinylSpeedAdjust := my2.map (·.vinylSpeedAdjust)
  jogDisplayMode := my2.map (·.jogDisplayMode)
  padButtonBrightness := my2.map (·.padButtonBrightness)
  jogLcdBrightness := my2.map (·.jogLcdBrightness)
  waveformDivisions := my2.map (·.waveformDivisions)
  waveform := my2.map (·.waveform)
  beatJumpBeatValue := my2.map (·.beatJumpBeatValue)
  channelFaderCurve := djm.map (·.channelFaderCurve)
  crossfaderCurve := djm.map (·.crossfaderCurve)
  headphonesPreEq := djm.map (·.headphonesPreEq)
  headphonesMonoSplit := djm.map (·.headphonesMonoSplit)
  beatFxQuantize := djm.map (·.beatFxQuantize)
  micLowCut := djm.map (·.micLowCut)
  talkOverMode := djm.map (·.talkOverMode)
  talkOverLevel := djm.map (·.talkOverLevel)
  midiChannel := djm.map (·.midiChannel)
  midiButtonType := djm.map (·.midiButtonType)
  displayBrightness := djm.map (·.displayBrightness)
  indicatorBrightness := djm.map (·.indicatorBrightness)
  channelFaderCurveLongFader := djm.map (·.channelFaderCurveLongFader)
  overviewWaveformType := dev.map (·.overviewWaveformType)
  waveformColor := dev.map (·.waveformColor)
  keyDisplayFormat := dev.map (·.keyDisplayFormat)
  waveformCurrentPosition := dev.map (·.waveformCurrentPosition)

end Rekordcrate
