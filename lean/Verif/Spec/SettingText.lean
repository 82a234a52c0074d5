import Verif.Model.SettingText

/-! # Specification vocabulary for the text of the settings -/

namespace Rekordcrate

/-- The text in which an option or its absence is shown. -/
def shownAs {α : Type} [OptionText α] (o : Option α) : String := (o.map OptionText.text).getD "<missing>"

/-- The name of every setting and the text of its value. -/
def Settings.table (s : Settings) : List (String × String) := [
  ("On Air Display", shownAs s.onAirDisplay),
  ("LCD Brightness", shownAs s.lcdBrightness),
  ("Quantize", shownAs s.quantize),
  ("Auto Cue Level", shownAs s.autoCueLevel),
  ("Language", shownAs s.language),
  ("Jog Ring Brightness", shownAs s.jogRingBrightness),
  ("Jog Ring Indicator", shownAs s.jogRingIndicator),
  ("Slip Flashing", shownAs s.slipFlashing),
  ("Disc Slot Illumination", shownAs s.discSlotIllumination),
  ("Eject Lock", shownAs s.ejectLock),
  ("Sync", shownAs s.sync),
  ("Play Mode", shownAs s.playMode),
  ("Quantize Beat Value", shownAs s.quantizeBeatValue),
  ("Hotcue Autoload", shownAs s.hotcueAutoload),
  ("Hotcue Color", shownAs s.hotcueColor),
  ("Needle Lock", shownAs s.needleLock),
  ("Time Mode", shownAs s.timeMode),
  ("Jog Mode", shownAs s.jogMode),
  ("Auto Cue", shownAs s.autoCue),
  ("Master Tempo", shownAs s.masterTempo),
  ("Tempo Range", shownAs s.tempoRange),
  ("Phase Meter", shownAs s.phaseMeter),
  ("Vinyl Speed Adjust", shownAs s.vinylSpeedAdjust),
  ("Jog Display Mode", shownAs s.jogDisplayMode),
  ("Pad Button Brightness", shownAs s.padButtonBrightness),
  ("Jog LCD Brightness", shownAs s.jogLcdBrightness),
  ("Waveform Divisions", shownAs s.waveformDivisions),
  ("Waveform", shownAs s.waveform),
  ("Beat Jump Beat Value", shownAs s.beatJumpBeatValue),
  ("Channel Fader Curve", shownAs s.channelFaderCurve),
  ("Crossfader Curve", shownAs s.crossfaderCurve),
  ("Headphones Pre Eq", shownAs s.headphonesPreEq),
  ("Headphones Mono Split", shownAs s.headphonesMonoSplit),
  ("Beat FX Quantize", shownAs s.beatFxQuantize),
  ("Mic Low Cut", shownAs s.micLowCut),
  ("Talk Over Mode", shownAs s.talkOverMode),
  ("Talk Over Level", shownAs s.talkOverLevel),
  ("MIDI Channel", shownAs s.midiChannel),
  ("MIDI Button Type", shownAs s.midiButtonType),
  ("Display Brightness", shownAs s.displayBrightness),
  ("Indicator Brightness", shownAs s.indicatorBrightness),
  ("Channel Fader Curve Long Fader", shownAs s.channelFaderCurveLongFader),
  ("Overview Waveform Type", shownAs s.overviewWaveformType),
  ("Waveform Color", shownAs s.waveformColor),
  ("Key Display Format", shownAs s.keyDisplayFormat),
  ("Waveform Current Position", shownAs s.waveformCurrentPosition)]

/-- The lines of a text. -/
def linesOfText : List Char → List (List Char)
  | [] => [[]]
  | c :: cs =>
    if c = '\n' then [] :: linesOfText cs
    else match linesOfText cs with
      | [] => [[c]]
      | l :: ls => (c :: l) :: ls

/-- What a text of lines `name: value` says about a name: the value in the first line that begins with the
name and a colon, without the blanks before it. -/
def lookUp (name : String) (text : String) : Option String :=
  ((linesOfText text.toList).find? fun l => (name.toList ++ [':']).isPrefixOf l).map fun l =>
    String.ofList ((l.drop (name.toList.length + 1)).dropWhile (· == ' '))

/-- The options of a type are all shown differently, and none can be taken for a blank, a line break or a
missing value. -/
class LawfulOptionText (α : Type) [OptionText α] : Prop where
  injective : ∀ a b : α, OptionText.text a = OptionText.text b → a = b
  shown : ∀ a : α, OptionText.text a ≠ "<missing>" ∧ '\n' ∉ (OptionText.text a).toList ∧
    (OptionText.text a).toList.head? ≠ some ' '

/-! ## Documented names -/

/-- The name of an option in the preferences of Rekordbox according to the comments in `src/setting.rs`; `none`
if the comment does not give one. -/
class DocumentedName (α : Type) where
  name : α → Option String

/-- Two names that differ at most in the case of (ASCII) letters. -/
def SameName (a b : String) : Prop := a.toList.map Char.toLower = b.toList.map Char.toLower

instance (a b : String) : Decidable (SameName a b) := inferInstanceAs (Decidable (_ = _))

/-- The option is shown under its documented name. -/
def ShownAsDocumented {α : Type} [OptionText α] [DocumentedName α] (a : α) : Prop :=
  ∀ n, DocumentedName.name a = some n → SameName (shownAs (some a)) n

/-- `PlayMode`, `src/setting.rs` 515-523. -/
instance : DocumentedName Opt.PlayMode where
  name
    | .continue_ => some "CONTINUE / ON"
    | .single => some "SINGLE / OFF"

/-- `EjectLock`, `src/setting.rs` 530-536. -/
instance : DocumentedName Opt.EjectLock where
  name
    | .unlock => some "UNLOCK"
    | .lock => some "LOCK"

/-- `NeedleLock`, `src/setting.rs` 543-549. -/
instance : DocumentedName Opt.NeedleLock where
  name
    | .unlock => some "UNLOCK"
    | .lock => some "LOCK"

/-- `QuantizeBeatValue`, `src/setting.rs` 556-570. -/
instance : DocumentedName Opt.QuantizeBeatValue where
  name
    | .eighthBeat => some "1/8 Beat"
    | .quarterBeat => some "1/4 Beat"
    | .halfBeat => some "1/2 Beat"
    | .fullBeat => some "1 Beat"

/-- `HotCueAutoLoad`, `src/setting.rs` 577-586. -/
instance : DocumentedName Opt.HotCueAutoLoad where
  name
    | .off => some "OFF"
    | .rekordboxSetting => some "rekordbox SETTING"
    | .on => some "On"

/-- `HotCueColor`, `src/setting.rs` 593-599. -/
instance : DocumentedName Opt.HotCueColor where
  name
    | .off => some "OFF"
    | .on => some "On"

/-- `AutoCueLevel`, `src/setting.rs` 606-634. -/
instance : DocumentedName Opt.AutoCueLevel where
  name
    | .minus78dB => some "-78dB"
    | .minus72dB => some "-72dB"
    | .minus66dB => some "-66dB"
    | .minus60dB => some "-60dB"
    | .minus54dB => some "-54dB"
    | .minus48dB => some "-48dB"
    | .minus42dB => some "-42dB"
    | .minus36dB => some "-36dB"
    | .memory => some "MEMORY"

/-- `TimeMode`, `src/setting.rs` 641-647. -/
instance : DocumentedName Opt.TimeMode where
  name
    | .elapsed => some "Elapsed"
    | .remain => some "REMAIN"

/-- `AutoCue`, `src/setting.rs` 654-660. -/
instance : DocumentedName Opt.AutoCue where
  name
    | .off => some "OFF"
    | .on => some "ON"

/-- `JogMode`, `src/setting.rs` 667-673. -/
instance : DocumentedName Opt.JogMode where
  name
    | .vinyl => some "VINYL"
    | .cdj => some "CDJ"

/-- `TempoRange`, `src/setting.rs` 680-693. -/
instance : DocumentedName Opt.TempoRange where
  name
    | .sixPercent => some "±6"
    | .tenPercent => some "±10"
    | .sixteenPercent => some "±16"
    | .wide => some "WIDE"

/-- `MasterTempo`, `src/setting.rs` 700-706. -/
instance : DocumentedName Opt.MasterTempo where
  name
    | .off => some "OFF"
    | .on => some "ON"

/-- `Quantize`, `src/setting.rs` 713-719. -/
instance : DocumentedName Opt.Quantize where
  name
    | .off => some "OFF"
    | .on => some "ON"

/-- `Sync`, `src/setting.rs` 726-732. -/
instance : DocumentedName Opt.Sync where
  name
    | .off => some "OFF"
    | .on => some "ON"

/-- `PhaseMeter`, `src/setting.rs` 739-747. -/
instance : DocumentedName Opt.PhaseMeter where
  name
    | .type1 => some "TYPE 1"
    | .type2 => some "TYPE 2"

/-- `Waveform`, `src/setting.rs` 754-761. -/
instance : DocumentedName Opt.Waveform where
  name
    | .waveform => some "WAVEFORM"
    | .phaseMeter => some "PHASE METER"

/-- `WaveformDivisions`, `src/setting.rs` 768-775. -/
instance : DocumentedName Opt.WaveformDivisions where
  name
    | .timeScale => some "TIME SCALE"
    | .phrase => some "PHRASE"

/-- `VinylSpeedAdjust`, `src/setting.rs` 782-791. -/
instance : DocumentedName Opt.VinylSpeedAdjust where
  name
    | .touchRelease => some "TOUCH & RELEASE"
    | .touch => some "TOUCH"
    | .release => some "RELEASE"

/-- `BeatJumpBeatValue`, `src/setting.rs` 798-824. -/
instance : DocumentedName Opt.BeatJumpBeatValue where
  name
    | .halfBeat => some "1/2 BEAT"
    | .oneBeat => some "1 BEAT"
    | .twoBeat => some "2 BEAT"
    | .fourBeat => some "4 BEAT"
    | .eightBeat => some "8 BEAT"
    | .sixteenBeat => some "16 BEAT"
    | .thirtytwoBeat => some "32 BEAT"
    | .sixtyfourBeat => some "64 BEAT"

/-- `Language`, `src/setting.rs` 831-886. -/
instance : DocumentedName Opt.Language where
  name
    | .english => some "English"
    | .french => some "Français"
    | .german => some "Deutsch"
    | .italian => some "Italiano"
    | .dutch => some "Nederlands"
    | .spanish => some "Español"
    | .russian => some "Русский"
    | .korean => some "한국어"
    | .chineseSimplified => some "简体中文"
    | .chineseTraditional => some "繁體中文"
    | .japanese => some "日本語"
    | .portuguese => some "Português"
    | .swedish => some "Svenska"
    | .czech => some "Čeština"
    | .hungarian => some "Magyar"
    | .danish => some "Dansk"
    | .greek => some "Ελληνικά"
    | .turkish => some "Türkçe"

/-- `LCDBrightness`, `src/setting.rs` 893-910. -/
instance : DocumentedName Opt.LCDBrightness where
  name
    | .one => some "1"
    | .two => some "2"
    | .three => some "3"
    | .four => some "4"
    | .five => some "5"

/-- `JogLCDBrightness`, `src/setting.rs` 917-934. -/
instance : DocumentedName Opt.JogLCDBrightness where
  name
    | .one => some "1"
    | .two => some "2"
    | .three => some "3"
    | .four => some "4"
    | .five => some "5"

/-- `JogDisplayMode`, `src/setting.rs` 941-951. -/
instance : DocumentedName Opt.JogDisplayMode where
  name
    | .auto => some "AUTO"
    | .info => some "INFO"
    | .simple => some "SIMPLE"
    | .artwork => some "ARTWORK"

/-- `SlipFlashing`, `src/setting.rs` 958-964. -/
instance : DocumentedName Opt.SlipFlashing where
  name
    | .off => some "OFF"
    | .on => some "ON"

/-- `OnAirDisplay`, `src/setting.rs` 971-977. -/
instance : DocumentedName Opt.OnAirDisplay where
  name
    | .off => some "OFF"
    | .on => some "ON"

/-- `JogRingBrightness`, `src/setting.rs` 984-994. -/
instance : DocumentedName Opt.JogRingBrightness where
  name
    | .off => some "OFF"
    | .dark => some "1 (Dark)"
    | .bright => some "2 (Bright)"

/-- `JogRingIndicator`, `src/setting.rs` 1001-1007. -/
instance : DocumentedName Opt.JogRingIndicator where
  name
    | .off => some "OFF"
    | .on => some "ON"

/-- `DiscSlotIllumination`, `src/setting.rs` 1014-1024. -/
instance : DocumentedName Opt.DiscSlotIllumination where
  name
    | .off => some "OFF"
    | .dark => some "1 (Dark)"
    | .bright => some "2 (Bright)"

/-- `PadButtonBrightness`, `src/setting.rs` 1031-1045. -/
instance : DocumentedName Opt.PadButtonBrightness where
  name
    | .one => some "1"
    | .two => some "2"
    | .three => some "3"
    | .four => some "4"

/-- `HeadphonesPreEQ`, `src/setting.rs` 1105-1113. -/
instance : DocumentedName Opt.HeadphonesPreEQ where
  name
    | .postEQ => some "POST EQ"
    | .preEQ => some "PRE EQ"

/-- `HeadphonesMonoSplit`, `src/setting.rs` 1120-1127. -/
instance : DocumentedName Opt.HeadphonesMonoSplit where
  name
    | .monoSplit => some "MONO SPLIT"
    | .stereo => some "STEREO"

/-- `BeatFXQuantize`, `src/setting.rs` 1134-1140. -/
instance : DocumentedName Opt.BeatFXQuantize where
  name
    | .off => some "OFF"
    | .on => some "ON"

/-- `MicLowCut`, `src/setting.rs` 1147-1153. -/
instance : DocumentedName Opt.MicLowCut where
  name
    | .off => some "OFF"
    | .on => some "ON(for MC)"

/-- `TalkOverMode`, `src/setting.rs` 1160-1166. -/
instance : DocumentedName Opt.TalkOverMode where
  name
    | .advanced => some "ADVANCED"
    | .normal => some "NORMAL"

/-- `TalkOverLevel`, `src/setting.rs` 1173-1187. -/
instance : DocumentedName Opt.TalkOverLevel where
  name
    | .minus24dB => some "-24dB"
    | .minus18dB => some "-18dB"
    | .minus12dB => some "-12dB"
    | .minus6dB => some "-6dB"

/-- `MidiChannel`, `src/setting.rs` 1194-1244. -/
instance : DocumentedName Opt.MidiChannel where
  name
    | .one => some "1"
    | .two => some "2"
    | .three => some "3"
    | .four => some "4"
    | .five => some "5"
    | .six => some "6"
    | .seven => some "7"
    | .eight => some "8"
    | .nine => some "9"
    | .ten => some "10"
    | .eleven => some "11"
    | .twelve => some "12"
    | .thirteen => some "13"
    | .fourteen => some "14"
    | .fifteen => some "15"
    | .sixteen => some "16"

/-- `MidiButtonType`, `src/setting.rs` 1251-1257. -/
instance : DocumentedName Opt.MidiButtonType where
  name
    | .toggle => some "TOGGLE"
    | .trigger => some "TRIGGER"

/-- `MixerDisplayBrightness`, `src/setting.rs` 1264-1283. -/
instance : DocumentedName Opt.MixerDisplayBrightness where
  name
    | .white => some "WHITE"
    | .one => some "1"
    | .two => some "2"
    | .three => some "3"
    | .four => some "4"
    | .five => some "5"

/-- `MixerIndicatorBrightness`, `src/setting.rs` 1290-1301. -/
instance : DocumentedName Opt.MixerIndicatorBrightness where
  name
    | .one => some "1"
    | .two => some "2"
    | .three => some "3"

/-- `WaveformColor`, `src/setting.rs` 1309-1319. -/
instance : DocumentedName Opt.WaveformColor where
  name
    | .blue => some "BLUE"
    | .rgb => some "RGB"
    | .triBand => some "3Band"

/-- `WaveformCurrentPosition`, `src/setting.rs` 1327-1333. -/
instance : DocumentedName Opt.WaveformCurrentPosition where
  name
    | .left => some "LEFT"
    | .center => some "CENTER"

/-- `OverviewWaveformType`, `src/setting.rs` 1341-1349. -/
instance : DocumentedName Opt.OverviewWaveformType where
  name
    | .halfWaveform => some "Half Waveform"
    | .fullWaveform => some "Full Waveform"

/-- `KeyDisplayFormat`, `src/setting.rs` 1357-1363. -/
instance : DocumentedName Opt.KeyDisplayFormat where
  name
    | .classic => some "Classic"
    | .alphanumeric => some "Alphanumeric"

end Rekordcrate
