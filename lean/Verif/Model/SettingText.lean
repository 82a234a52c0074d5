import Verif.Model.Setting

/-! # Model of the text of the settings (`src/setting.rs`, `src/device.rs`)

The texts come from the derive macro `parse_display::Display`: the text of a variant is its
`#[display("…")]` attribute, or the name of the variant if it has none. -/

namespace Rekordcrate

/-- `Display` of an option, `parse_display::Display`. -/
class OptionText (α : Type) where
  text : α → String

namespace Opt

/-- Texts of `PlayMode`, `src/setting.rs` 515-523. -/
instance : OptionText PlayMode where
  text
    | .continue_ => "Continue / On"
    | .single => "Single / Off"

/-- Texts of `EjectLock`, `src/setting.rs` 530-536. -/
instance : OptionText EjectLock where
  text
    | .unlock => "Unlock"
    | .lock => "Lock"

/-- Texts of `NeedleLock`, `src/setting.rs` 543-549. -/
instance : OptionText NeedleLock where
  text
    | .unlock => "Unlock"
    | .lock => "Lock"

/-- Texts of `QuantizeBeatValue`, `src/setting.rs` 556-570. -/
instance : OptionText QuantizeBeatValue where
  text
    | .eighthBeat => "1/8 Beat"
    | .quarterBeat => "1/4 Beat"
    | .halfBeat => "1/2 Beat"
    | .fullBeat => "1 Beat"

/-- Texts of `HotCueAutoLoad`, `src/setting.rs` 577-586. -/
instance : OptionText HotCueAutoLoad where
  text
    | .off => "Off"
    | .rekordboxSetting => "rekordbox SETTING"
    | .on => "On"

/-- Texts of `HotCueColor`, `src/setting.rs` 593-599. -/
instance : OptionText HotCueColor where
  text
    | .off => "Off"
    | .on => "On"

/-- Texts of `AutoCueLevel`, `src/setting.rs` 606-634. -/
instance : OptionText AutoCueLevel where
  text
    | .minus78dB => "-78dB"
    | .minus72dB => "-72dB"
    | .minus66dB => "-66dB"
    | .minus60dB => "-60dB"
    | .minus54dB => "-54dB"
    | .minus48dB => "-48dB"
    | .minus42dB => "-42dB"
    | .minus36dB => "-36dB"
    | .memory => "Memory"

/-- Texts of `TimeMode`, `src/setting.rs` 641-647. -/
instance : OptionText TimeMode where
  text
    | .elapsed => "Elapsed"
    | .remain => "Remain"

/-- Texts of `AutoCue`, `src/setting.rs` 654-660. -/
instance : OptionText AutoCue where
  text
    | .off => "Off"
    | .on => "On"

/-- Texts of `JogMode`, `src/setting.rs` 667-673. -/
instance : OptionText JogMode where
  text
    | .vinyl => "Vinyl"
    | .cdj => "CDJ"

/-- Texts of `TempoRange`, `src/setting.rs` 680-693. -/
instance : OptionText TempoRange where
  text
    | .sixPercent => "±6%"
    | .tenPercent => "±10%"
    | .sixteenPercent => "±16%"
    | .wide => "Wide"

/-- Texts of `MasterTempo`, `src/setting.rs` 700-706. -/
instance : OptionText MasterTempo where
  text
    | .off => "Off"
    | .on => "On"

/-- Texts of `Quantize`, `src/setting.rs` 713-719. -/
instance : OptionText Quantize where
  text
    | .off => "Off"
    | .on => "On"

/-- Texts of `Sync`, `src/setting.rs` 726-732. -/
instance : OptionText Sync where
  text
    | .off => "Off"
    | .on => "On"

/-- Texts of `PhaseMeter`, `src/setting.rs` 739-747. -/
instance : OptionText PhaseMeter where
  text
    | .type1 => "Type 1"
    | .type2 => "Type 2"

/-- Texts of `Waveform`, `src/setting.rs` 754-761. -/
instance : OptionText Waveform where
  text
    | .waveform => "Waveform"
    | .phaseMeter => "Phase Meter"

/-- Texts of `WaveformDivisions`, `src/setting.rs` 768-775. -/
instance : OptionText WaveformDivisions where
  text
    | .timeScale => "Time Scale"
    | .phrase => "Phrase"

/-- Texts of `VinylSpeedAdjust`, `src/setting.rs` 782-791. -/
instance : OptionText VinylSpeedAdjust where
  text
    | .touchRelease => "Touch & Release"
    | .touch => "Touch"
    | .release => "Release"

/-- Texts of `BeatJumpBeatValue`, `src/setting.rs` 798-824. -/
instance : OptionText BeatJumpBeatValue where
  text
    | .halfBeat => "1/2 Beat"
    | .oneBeat => "1 Beat"
    | .twoBeat => "2 Beat"
    | .fourBeat => "4 Beat"
    | .eightBeat => "8 Beat"
    | .sixteenBeat => "16 Beat"
    | .thirtytwoBeat => "32 Beat"
    | .sixtyfourBeat => "64 Beat"

/-- Texts of `Language`, `src/setting.rs` 831-886.  The attribute with the Chinese name of `ChineseSimplified` stands
after that variant (line 856), so it belongs to `ChineseTraditional`, which has a second one: the macro
goes through the attributes in order and keeps the last.  `ChineseSimplified` has none. -/
instance : OptionText Language where
  text
    | .english => "English"
    | .french => "Français"
    | .german => "Deutsch"
    | .italian => "Italiano"
    | .dutch => "Nederlands"
    | .spanish => "Español"
    | .russian => "Русский"
    | .korean => "한국어"
    | .chineseSimplified => "ChineseSimplified"
    | .chineseTraditional => "繁體中文"
    | .japanese => "日本語"
    | .portuguese => "Português"
    | .swedish => "Svenska"
    | .czech => "Čeština"
    | .hungarian => "Magyar"
    | .danish => "Dansk"
    | .greek => "Ελληνικά"
    | .turkish => "Türkçe"

/-- Texts of `LCDBrightness`, `src/setting.rs` 893-910. -/
instance : OptionText LCDBrightness where
  text
    | .one => "1"
    | .two => "2"
    | .three => "3"
    | .four => "4"
    | .five => "5"

/-- Texts of `JogLCDBrightness`, `src/setting.rs` 917-934. -/
instance : OptionText JogLCDBrightness where
  text
    | .one => "1"
    | .two => "2"
    | .three => "3"
    | .four => "4"
    | .five => "5"

/-- Texts of `JogDisplayMode`, `src/setting.rs` 941-951. -/
instance : OptionText JogDisplayMode where
  text
    | .auto => "Auto"
    | .info => "Info"
    | .simple => "Simple"
    | .artwork => "Artwork"

/-- Texts of `SlipFlashing`, `src/setting.rs` 958-964. -/
instance : OptionText SlipFlashing where
  text
    | .off => "Off"
    | .on => "On"

/-- Texts of `OnAirDisplay`, `src/setting.rs` 971-977. -/
instance : OptionText OnAirDisplay where
  text
    | .off => "Off"
    | .on => "On"

/-- Texts of `JogRingBrightness`, `src/setting.rs` 984-994. -/
instance : OptionText JogRingBrightness where
  text
    | .off => "Off"
    | .dark => "1 (Dark)"
    | .bright => "2 (Bright)"

/-- Texts of `JogRingIndicator`, `src/setting.rs` 1001-1007. -/
instance : OptionText JogRingIndicator where
  text
    | .off => "Off"
    | .on => "On"

/-- Texts of `DiscSlotIllumination`, `src/setting.rs` 1014-1024. -/
instance : OptionText DiscSlotIllumination where
  text
    | .off => "Off"
    | .dark => "1 (Dark)"
    | .bright => "2 (Bright)"

/-- Texts of `PadButtonBrightness`, `src/setting.rs` 1031-1045. -/
instance : OptionText PadButtonBrightness where
  text
    | .one => "1"
    | .two => "2"
    | .three => "3"
    | .four => "4"

/-- Texts of `ChannelFaderCurve`, `src/setting.rs` 1052-1063. -/
instance : OptionText ChannelFaderCurve where
  text
    | .steepTop => "Steep Top"
    | .linear => "Linear"
    | .steepBottom => "Steep Bottom"

/-- Texts of `CrossfaderCurve`, `src/setting.rs` 1070-1083. -/
instance : OptionText CrossfaderCurve where
  text
    | .constantPower => "Constant Power"
    | .slowCut => "Slow Cut"
    | .fastCut => "Fast Cut"

/-- Texts of `ChannelFaderCurveLongFader`, `src/setting.rs` 1090-1098. -/
instance : OptionText ChannelFaderCurveLongFader where
  text
    | .exponential => "Exponential"
    | .smooth => "Smooth"
    | .linear => "Linear"

/-- Texts of `HeadphonesPreEQ`, `src/setting.rs` 1105-1113. -/
instance : OptionText HeadphonesPreEQ where
  text
    | .postEQ => "Post EQ"
    | .preEQ => "Pre EQ"

/-- Texts of `HeadphonesMonoSplit`, `src/setting.rs` 1120-1127. -/
instance : OptionText HeadphonesMonoSplit where
  text
    | .monoSplit => "Mono Split"
    | .stereo => "Stereo"

/-- Texts of `BeatFXQuantize`, `src/setting.rs` 1134-1140. -/
instance : OptionText BeatFXQuantize where
  text
    | .off => "Off"
    | .on => "On"

/-- Texts of `MicLowCut`, `src/setting.rs` 1147-1153. -/
instance : OptionText MicLowCut where
  text
    | .off => "Off"
    | .on => "On"

/-- Texts of `TalkOverMode`, `src/setting.rs` 1160-1166. -/
instance : OptionText TalkOverMode where
  text
    | .advanced => "Advanced"
    | .normal => "Normal"

/-- Texts of `TalkOverLevel`, `src/setting.rs` 1173-1187. -/
instance : OptionText TalkOverLevel where
  text
    | .minus24dB => "-24dB"
    | .minus18dB => "-18dB"
    | .minus12dB => "-12dB"
    | .minus6dB => "-6dB"

/-- Texts of `MidiChannel`, `src/setting.rs` 1194-1244. -/
instance : OptionText MidiChannel where
  text
    | .one => "1"
    | .two => "2"
    | .three => "3"
    | .four => "4"
    | .five => "5"
    | .six => "6"
    | .seven => "7"
    | .eight => "8"
    | .nine => "9"
    | .ten => "10"
    | .eleven => "11"
    | .twelve => "12"
    | .thirteen => "13"
    | .fourteen => "14"
    | .fifteen => "15"
    | .sixteen => "16"

/-- Texts of `MidiButtonType`, `src/setting.rs` 1251-1257. -/
instance : OptionText MidiButtonType where
  text
    | .toggle => "Toggle"
    | .trigger => "Trigger"

/-- Texts of `MixerDisplayBrightness`, `src/setting.rs` 1264-1283. -/
instance : OptionText MixerDisplayBrightness where
  text
    | .white => "White"
    | .one => "1"
    | .two => "2"
    | .three => "3"
    | .four => "4"
    | .five => "5"

/-- Texts of `MixerIndicatorBrightness`, `src/setting.rs` 1290-1301. -/
instance : OptionText MixerIndicatorBrightness where
  text
    | .one => "1"
    | .two => "2"
    | .three => "3"

/-- Texts of `WaveformColor`, `src/setting.rs` 1309-1319. -/
instance : OptionText WaveformColor where
  text
    | .blue => "Blue"
    | .rgb => "RGB"
    | .triBand => "3Band"

/-- Texts of `WaveformCurrentPosition`, `src/setting.rs` 1327-1333. -/
instance : OptionText WaveformCurrentPosition where
  text
    | .left => "Left"
    | .center => "Center"

/-- Texts of `OverviewWaveformType`, `src/setting.rs` 1341-1349. -/
instance : OptionText OverviewWaveformType where
  text
    | .halfWaveform => "Half Waveform"
    | .fullWaveform => "Full Waveform"

/-- Texts of `KeyDisplayFormat`, `src/setting.rs` 1357-1363. -/
instance : OptionText KeyDisplayFormat where
  text
    | .classic => "Classic"
    | .alphanumeric => "Alphanumeric"

end Opt

/-- `format_option`, `src/device.rs` 257-260. -/
def formatOption {α : Type} [OptionText α] : Option α → String
  | some v => OptionText.text v
  | none => "<missing>"

/-- The lines of `Display` of `Settings`, `src/device.rs` 262-491. -/
def Settings.lines (s : Settings) : List String := [
  "On Air Display:                 " ++ formatOption s.onAirDisplay,
  "LCD Brightness:                 " ++ formatOption s.lcdBrightness,
  "Quantize:                       " ++ formatOption s.quantize,
  "Auto Cue Level:                 " ++ formatOption s.autoCueLevel,
  "Language:                       " ++ formatOption s.language,
  "Jog Ring Brightness:            " ++ formatOption s.jogRingBrightness,
  "Jog Ring Indicator:             " ++ formatOption s.jogRingIndicator,
  "Slip Flashing:                  " ++ formatOption s.slipFlashing,
  "Disc Slot Illumination:         " ++ formatOption s.discSlotIllumination,
  "Eject Lock:                     " ++ formatOption s.ejectLock,
  "Sync:                           " ++ formatOption s.sync,
  "Play Mode:                      " ++ formatOption s.playMode,
  "Quantize Beat Value:            " ++ formatOption s.quantizeBeatValue,
  "Hotcue Autoload:                " ++ formatOption s.hotcueAutoload,
  "Hotcue Color:                   " ++ formatOption s.hotcueColor,
  "Needle Lock:                    " ++ formatOption s.needleLock,
  "Time Mode:                      " ++ formatOption s.timeMode,
  "Jog Mode:                       " ++ formatOption s.jogMode,
  "Auto Cue:                       " ++ formatOption s.autoCue,
  "Master Tempo:                   " ++ formatOption s.masterTempo,
  "Tempo Range:                    " ++ formatOption s.tempoRange,
  "Phase Meter:                    " ++ formatOption s.phaseMeter,
  "Vinyl Speed Adjust:             " ++ formatOption s.vinylSpeedAdjust,
  "Jog Display Mode:               " ++ formatOption s.jogDisplayMode,
  "Pad Button Brightness:          " ++ formatOption s.padButtonBrightness,
  "Jog LCD Brightness:             " ++ formatOption s.jogLcdBrightness,
  "Waveform Divisions:             " ++ formatOption s.waveformDivisions,
  "Waveform:                       " ++ formatOption s.waveform,
  "Beat Jump Beat Value:           " ++ formatOption s.beatJumpBeatValue,
  "Channel Fader Curve:            " ++ formatOption s.channelFaderCurve,
  "Crossfader Curve:               " ++ formatOption s.crossfaderCurve,
  "Headphones Pre Eq:              " ++ formatOption s.headphonesPreEq,
  "Headphones Mono Split:          " ++ formatOption s.headphonesMonoSplit,
  "Beat FX Quantize:               " ++ formatOption s.beatFxQuantize,
  "Mic Low Cut:                    " ++ formatOption s.micLowCut,
  "Talk Over Mode:                 " ++ formatOption s.talkOverMode,
  "Talk Over Level:                " ++ formatOption s.talkOverLevel,
  "MIDI Channel:                   " ++ formatOption s.midiChannel,
  "MIDI Button Type:               " ++ formatOption s.midiButtonType,
  "Display Brightness:             " ++ formatOption s.displayBrightness,
  "Indicator Brightness:           " ++ formatOption s.indicatorBrightness,
  "Channel Fader Curve Long Fader: " ++ formatOption s.channelFaderCurveLongFader,
  "Overview Waveform Type:         " ++ formatOption s.overviewWaveformType,
  "Waveform Color:                 " ++ formatOption s.waveformColor,
  "Key Display Format:             " ++ formatOption s.keyDisplayFormat,
  "Waveform Current Position:      " ++ formatOption s.waveformCurrentPosition]

/-- `Display` of `Settings`, `src/device.rs` 255-493: every line but the last is written with `writeln!`. -/
def Settings.display (s : Settings) : String := String.intercalate "\n" s.lines

/-- `list_settings`, `src/main.rs` 259-268: the text on the standard output. -/
def listSettings (fs : PioneerDir) : Res String := do
  let settings ← loadSettings fs
  .ok settings.display

end Rekordcrate
