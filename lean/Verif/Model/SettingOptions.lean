import Verif.Model.Text

/-! # Model of the options stored in `src/setting.rs`

Every option is an enum with `#[brw(repr = u8)]`: one byte on disk. -/

namespace Rekordcrate

/-- An enum with `#[brw(repr = u8)]`: its variants in declaration order and their discriminants. -/
class OptionCode (α : Type) where
  all : List α
  code : α → UInt8

/-- Derived `BinRead` of an enum with `#[brw(repr = u8)]`: the byte is compared with the
discriminants in declaration order.  For instance `src/setting.rs` 512-523. -/
def readOption {α : Type} [OptionCode α] : Rd α := do
  let b ← Rd.u8
  match (OptionCode.all (α := α)).find? (fun a => OptionCode.code a == b) with
  | some a => pure a
  | none => Rd.fail .noVariant

/-- Derived `BinWrite` of an enum with `#[brw(repr = u8)]`.  For instance `src/setting.rs` 512-523. -/
def encOption {α : Type} [OptionCode α] (a : α) : Bytes := encU8 (OptionCode.code a)

namespace Opt

/-- `PlayMode`, `src/setting.rs` 515-523. -/
inductive PlayMode where
  | continue_ | single
  deriving DecidableEq, Repr

/-- Discriminants of `PlayMode`, `src/setting.rs` 515-523. -/
instance : OptionCode PlayMode where
  all := [.continue_, .single]
  code
    | .continue_ => 0x80
    | .single => 0x81

/-- `Default` of `PlayMode`, `src/setting.rs` 515-523. -/
instance : Inhabited PlayMode := ⟨.single⟩

/-- `EjectLock`, `src/setting.rs` 530-536. -/
inductive EjectLock where
  | unlock | lock
  deriving DecidableEq, Repr

/-- Discriminants of `EjectLock`, `src/setting.rs` 530-536. -/
instance : OptionCode EjectLock where
  all := [.unlock, .lock]
  code
    | .unlock => 0x80
    | .lock => 0x81

/-- `Default` of `EjectLock`, `src/setting.rs` 530-536. -/
instance : Inhabited EjectLock := ⟨.unlock⟩

/-- `NeedleLock`, `src/setting.rs` 543-549. -/
inductive NeedleLock where
  | unlock | lock
  deriving DecidableEq, Repr

/-- Discriminants of `NeedleLock`, `src/setting.rs` 543-549. -/
instance : OptionCode NeedleLock where
  all := [.unlock, .lock]
  code
    | .unlock => 0x80
    | .lock => 0x81

/-- `Default` of `NeedleLock`, `src/setting.rs` 543-549. -/
instance : Inhabited NeedleLock := ⟨.lock⟩

/-- `QuantizeBeatValue`, `src/setting.rs` 556-570. -/
inductive QuantizeBeatValue where
  | eighthBeat | quarterBeat | halfBeat | fullBeat
  deriving DecidableEq, Repr

/-- Discriminants of `QuantizeBeatValue`, `src/setting.rs` 556-570. -/
instance : OptionCode QuantizeBeatValue where
  all := [.eighthBeat, .quarterBeat, .halfBeat, .fullBeat]
  code
    | .eighthBeat => 0x83
    | .quarterBeat => 0x82
    | .halfBeat => 0x81
    | .fullBeat => 0x80

/-- `Default` of `QuantizeBeatValue`, `src/setting.rs` 556-570. -/
instance : Inhabited QuantizeBeatValue := ⟨.fullBeat⟩

/-- `HotCueAutoLoad`, `src/setting.rs` 577-586. -/
inductive HotCueAutoLoad where
  | off | rekordboxSetting | on
  deriving DecidableEq, Repr

/-- Discriminants of `HotCueAutoLoad`, `src/setting.rs` 577-586. -/
instance : OptionCode HotCueAutoLoad where
  all := [.off, .rekordboxSetting, .on]
  code
    | .off => 0x80
    | .rekordboxSetting => 0x82
    | .on => 0x81

/-- `Default` of `HotCueAutoLoad`, `src/setting.rs` 577-586. -/
instance : Inhabited HotCueAutoLoad := ⟨.on⟩

/-- `HotCueColor`, `src/setting.rs` 593-599. -/
inductive HotCueColor where
  | off | on
  deriving DecidableEq, Repr

/-- Discriminants of `HotCueColor`, `src/setting.rs` 593-599. -/
instance : OptionCode HotCueColor where
  all := [.off, .on]
  code
    | .off => 0x80
    | .on => 0x81

/-- `Default` of `HotCueColor`, `src/setting.rs` 593-599. -/
instance : Inhabited HotCueColor := ⟨.off⟩

/-- `AutoCueLevel`, `src/setting.rs` 606-634. -/
inductive AutoCueLevel where
  | minus78dB | minus72dB | minus66dB | minus60dB | minus54dB | minus48dB | minus42dB | minus36dB | memory
  deriving DecidableEq, Repr

/-- Discriminants of `AutoCueLevel`, `src/setting.rs` 606-634. -/
instance : OptionCode AutoCueLevel where
  all := [.minus78dB, .minus72dB, .minus66dB, .minus60dB, .minus54dB, .minus48dB, .minus42dB, .minus36dB, .memory]
  code
    | .minus78dB => 0x87
    | .minus72dB => 0x86
    | .minus66dB => 0x85
    | .minus60dB => 0x84
    | .minus54dB => 0x83
    | .minus48dB => 0x82
    | .minus42dB => 0x81
    | .minus36dB => 0x80
    | .memory => 0x88

/-- `Default` of `AutoCueLevel`, `src/setting.rs` 606-634. -/
instance : Inhabited AutoCueLevel := ⟨.memory⟩

/-- `TimeMode`, `src/setting.rs` 641-647. -/
inductive TimeMode where
  | elapsed | remain
  deriving DecidableEq, Repr

/-- Discriminants of `TimeMode`, `src/setting.rs` 641-647. -/
instance : OptionCode TimeMode where
  all := [.elapsed, .remain]
  code
    | .elapsed => 0x80
    | .remain => 0x81

/-- `Default` of `TimeMode`, `src/setting.rs` 641-647. -/
instance : Inhabited TimeMode := ⟨.remain⟩

/-- `AutoCue`, `src/setting.rs` 654-660. -/
inductive AutoCue where
  | off | on
  deriving DecidableEq, Repr

/-- Discriminants of `AutoCue`, `src/setting.rs` 654-660. -/
instance : OptionCode AutoCue where
  all := [.off, .on]
  code
    | .off => 0x80
    | .on => 0x81

/-- `Default` of `AutoCue`, `src/setting.rs` 654-660. -/
instance : Inhabited AutoCue := ⟨.on⟩

/-- `JogMode`, `src/setting.rs` 667-673. -/
inductive JogMode where
  | vinyl | cdj
  deriving DecidableEq, Repr

/-- Discriminants of `JogMode`, `src/setting.rs` 667-673. -/
instance : OptionCode JogMode where
  all := [.vinyl, .cdj]
  code
    | .vinyl => 0x81
    | .cdj => 0x80

/-- `Default` of `JogMode`, `src/setting.rs` 667-673. -/
instance : Inhabited JogMode := ⟨.vinyl⟩

/-- `TempoRange`, `src/setting.rs` 680-693. -/
inductive TempoRange where
  | sixPercent | tenPercent | sixteenPercent | wide
  deriving DecidableEq, Repr

/-- Discriminants of `TempoRange`, `src/setting.rs` 680-693. -/
instance : OptionCode TempoRange where
  all := [.sixPercent, .tenPercent, .sixteenPercent, .wide]
  code
    | .sixPercent => 0x80
    | .tenPercent => 0x81
    | .sixteenPercent => 0x82
    | .wide => 0x83

/-- `Default` of `TempoRange`, `src/setting.rs` 680-693. -/
instance : Inhabited TempoRange := ⟨.tenPercent⟩

/-- `MasterTempo`, `src/setting.rs` 700-706. -/
inductive MasterTempo where
  | off | on
  deriving DecidableEq, Repr

/-- Discriminants of `MasterTempo`, `src/setting.rs` 700-706. -/
instance : OptionCode MasterTempo where
  all := [.off, .on]
  code
    | .off => 0x80
    | .on => 0x81

/-- `Default` of `MasterTempo`, `src/setting.rs` 700-706. -/
instance : Inhabited MasterTempo := ⟨.off⟩

/-- `Quantize`, `src/setting.rs` 713-719. -/
inductive Quantize where
  | off | on
  deriving DecidableEq, Repr

/-- Discriminants of `Quantize`, `src/setting.rs` 713-719. -/
instance : OptionCode Quantize where
  all := [.off, .on]
  code
    | .off => 0x80
    | .on => 0x81

/-- `Default` of `Quantize`, `src/setting.rs` 713-719. -/
instance : Inhabited Quantize := ⟨.on⟩

/-- `Sync`, `src/setting.rs` 726-732. -/
inductive Sync where
  | off | on
  deriving DecidableEq, Repr

/-- Discriminants of `Sync`, `src/setting.rs` 726-732. -/
instance : OptionCode Sync where
  all := [.off, .on]
  code
    | .off => 0x80
    | .on => 0x81

/-- `Default` of `Sync`, `src/setting.rs` 726-732. -/
instance : Inhabited Sync := ⟨.off⟩

/-- `PhaseMeter`, `src/setting.rs` 739-747. -/
inductive PhaseMeter where
  | type1 | type2
  deriving DecidableEq, Repr

/-- Discriminants of `PhaseMeter`, `src/setting.rs` 739-747. -/
instance : OptionCode PhaseMeter where
  all := [.type1, .type2]
  code
    | .type1 => 0x80
    | .type2 => 0x81

/-- `Default` of `PhaseMeter`, `src/setting.rs` 739-747. -/
instance : Inhabited PhaseMeter := ⟨.type1⟩

/-- `Waveform`, `src/setting.rs` 754-761. -/
inductive Waveform where
  | waveform | phaseMeter
  deriving DecidableEq, Repr

/-- Discriminants of `Waveform`, `src/setting.rs` 754-761. -/
instance : OptionCode Waveform where
  all := [.waveform, .phaseMeter]
  code
    | .waveform => 0x80
    | .phaseMeter => 0x81

/-- `Default` of `Waveform`, `src/setting.rs` 754-761. -/
instance : Inhabited Waveform := ⟨.waveform⟩

/-- `WaveformDivisions`, `src/setting.rs` 768-775. -/
inductive WaveformDivisions where
  | timeScale | phrase
  deriving DecidableEq, Repr

/-- Discriminants of `WaveformDivisions`, `src/setting.rs` 768-775. -/
instance : OptionCode WaveformDivisions where
  all := [.timeScale, .phrase]
  code
    | .timeScale => 0x80
    | .phrase => 0x81

/-- `Default` of `WaveformDivisions`, `src/setting.rs` 768-775. -/
instance : Inhabited WaveformDivisions := ⟨.phrase⟩

/-- `VinylSpeedAdjust`, `src/setting.rs` 782-791. -/
inductive VinylSpeedAdjust where
  | touchRelease | touch | release
  deriving DecidableEq, Repr

/-- Discriminants of `VinylSpeedAdjust`, `src/setting.rs` 782-791. -/
instance : OptionCode VinylSpeedAdjust where
  all := [.touchRelease, .touch, .release]
  code
    | .touchRelease => 0x80
    | .touch => 0x81
    | .release => 0x82

/-- `Default` of `VinylSpeedAdjust`, `src/setting.rs` 782-791. -/
instance : Inhabited VinylSpeedAdjust := ⟨.touch⟩

/-- `BeatJumpBeatValue`, `src/setting.rs` 798-824. -/
inductive BeatJumpBeatValue where
  | halfBeat | oneBeat | twoBeat | fourBeat | eightBeat | sixteenBeat | thirtytwoBeat | sixtyfourBeat
  deriving DecidableEq, Repr

/-- Discriminants of `BeatJumpBeatValue`, `src/setting.rs` 798-824. -/
instance : OptionCode BeatJumpBeatValue where
  all := [.halfBeat, .oneBeat, .twoBeat, .fourBeat, .eightBeat, .sixteenBeat, .thirtytwoBeat, .sixtyfourBeat]
  code
    | .halfBeat => 0x80
    | .oneBeat => 0x81
    | .twoBeat => 0x82
    | .fourBeat => 0x83
    | .eightBeat => 0x84
    | .sixteenBeat => 0x85
    | .thirtytwoBeat => 0x86
    | .sixtyfourBeat => 0x87

/-- `Default` of `BeatJumpBeatValue`, `src/setting.rs` 798-824. -/
instance : Inhabited BeatJumpBeatValue := ⟨.sixteenBeat⟩

/-- `Language`, `src/setting.rs` 831-886. -/
inductive Language where
  | english | french | german | italian | dutch | spanish | russian | korean | chineseSimplified | chineseTraditional | japanese | portuguese | swedish | czech | hungarian | danish | greek | turkish
  deriving DecidableEq, Repr

/-- Discriminants of `Language`, `src/setting.rs` 831-886. -/
instance : OptionCode Language where
  all := [.english, .french, .german, .italian, .dutch, .spanish, .russian, .korean, .chineseSimplified, .chineseTraditional, .japanese, .portuguese, .swedish, .czech, .hungarian, .danish, .greek, .turkish]
  code
    | .english => 0x81
    | .french => 0x82
    | .german => 0x83
    | .italian => 0x84
    | .dutch => 0x85
    | .spanish => 0x86
    | .russian => 0x87
    | .korean => 0x88
    | .chineseSimplified => 0x89
    | .chineseTraditional => 0x8A
    | .japanese => 0x8B
    | .portuguese => 0x8C
    | .swedish => 0x8D
    | .czech => 0x8E
    | .hungarian => 0x8F
    | .danish => 0x90
    | .greek => 0x91
    | .turkish => 0x92

/-- `Default` of `Language`, `src/setting.rs` 831-886. -/
instance : Inhabited Language := ⟨.english⟩

/-- `LCDBrightness`, `src/setting.rs` 893-910. -/
inductive LCDBrightness where
  | one | two | three | four | five
  deriving DecidableEq, Repr

/-- Discriminants of `LCDBrightness`, `src/setting.rs` 893-910. -/
instance : OptionCode LCDBrightness where
  all := [.one, .two, .three, .four, .five]
  code
    | .one => 0x81
    | .two => 0x82
    | .three => 0x83
    | .four => 0x84
    | .five => 0x85

/-- `Default` of `LCDBrightness`, `src/setting.rs` 893-910. -/
instance : Inhabited LCDBrightness := ⟨.three⟩

/-- `JogLCDBrightness`, `src/setting.rs` 917-934. -/
inductive JogLCDBrightness where
  | one | two | three | four | five
  deriving DecidableEq, Repr

/-- Discriminants of `JogLCDBrightness`, `src/setting.rs` 917-934. -/
instance : OptionCode JogLCDBrightness where
  all := [.one, .two, .three, .four, .five]
  code
    | .one => 0x81
    | .two => 0x82
    | .three => 0x83
    | .four => 0x84
    | .five => 0x85

/-- `Default` of `JogLCDBrightness`, `src/setting.rs` 917-934. -/
instance : Inhabited JogLCDBrightness := ⟨.three⟩

/-- `JogDisplayMode`, `src/setting.rs` 941-951. -/
inductive JogDisplayMode where
  | auto | info | simple | artwork
  deriving DecidableEq, Repr

/-- Discriminants of `JogDisplayMode`, `src/setting.rs` 941-951. -/
instance : OptionCode JogDisplayMode where
  all := [.auto, .info, .simple, .artwork]
  code
    | .auto => 0x80
    | .info => 0x81
    | .simple => 0x82
    | .artwork => 0x83

/-- `Default` of `JogDisplayMode`, `src/setting.rs` 941-951. -/
instance : Inhabited JogDisplayMode := ⟨.auto⟩

/-- `SlipFlashing`, `src/setting.rs` 958-964. -/
inductive SlipFlashing where
  | off | on
  deriving DecidableEq, Repr

/-- Discriminants of `SlipFlashing`, `src/setting.rs` 958-964. -/
instance : OptionCode SlipFlashing where
  all := [.off, .on]
  code
    | .off => 0x80
    | .on => 0x81

/-- `Default` of `SlipFlashing`, `src/setting.rs` 958-964. -/
instance : Inhabited SlipFlashing := ⟨.on⟩

/-- `OnAirDisplay`, `src/setting.rs` 971-977. -/
inductive OnAirDisplay where
  | off | on
  deriving DecidableEq, Repr

/-- Discriminants of `OnAirDisplay`, `src/setting.rs` 971-977. -/
instance : OptionCode OnAirDisplay where
  all := [.off, .on]
  code
    | .off => 0x80
    | .on => 0x81

/-- `Default` of `OnAirDisplay`, `src/setting.rs` 971-977. -/
instance : Inhabited OnAirDisplay := ⟨.on⟩

/-- `JogRingBrightness`, `src/setting.rs` 984-994. -/
inductive JogRingBrightness where
  | off | dark | bright
  deriving DecidableEq, Repr

/-- Discriminants of `JogRingBrightness`, `src/setting.rs` 984-994. -/
instance : OptionCode JogRingBrightness where
  all := [.off, .dark, .bright]
  code
    | .off => 0x80
    | .dark => 0x81
    | .bright => 0x82

/-- `Default` of `JogRingBrightness`, `src/setting.rs` 984-994. -/
instance : Inhabited JogRingBrightness := ⟨.bright⟩

/-- `JogRingIndicator`, `src/setting.rs` 1001-1007. -/
inductive JogRingIndicator where
  | off | on
  deriving DecidableEq, Repr

/-- Discriminants of `JogRingIndicator`, `src/setting.rs` 1001-1007. -/
instance : OptionCode JogRingIndicator where
  all := [.off, .on]
  code
    | .off => 0x80
    | .on => 0x81

/-- `Default` of `JogRingIndicator`, `src/setting.rs` 1001-1007. -/
instance : Inhabited JogRingIndicator := ⟨.on⟩

/-- `DiscSlotIllumination`, `src/setting.rs` 1014-1024. -/
inductive DiscSlotIllumination where
  | off | dark | bright
  deriving DecidableEq, Repr

/-- Discriminants of `DiscSlotIllumination`, `src/setting.rs` 1014-1024. -/
instance : OptionCode DiscSlotIllumination where
  all := [.off, .dark, .bright]
  code
    | .off => 0x80
    | .dark => 0x81
    | .bright => 0x82

/-- `Default` of `DiscSlotIllumination`, `src/setting.rs` 1014-1024. -/
instance : Inhabited DiscSlotIllumination := ⟨.bright⟩

/-- `PadButtonBrightness`, `src/setting.rs` 1031-1045. -/
inductive PadButtonBrightness where
  | one | two | three | four
  deriving DecidableEq, Repr

/-- Discriminants of `PadButtonBrightness`, `src/setting.rs` 1031-1045. -/
instance : OptionCode PadButtonBrightness where
  all := [.one, .two, .three, .four]
  code
    | .one => 0x81
    | .two => 0x82
    | .three => 0x83
    | .four => 0x84

/-- `Default` of `PadButtonBrightness`, `src/setting.rs` 1031-1045. -/
instance : Inhabited PadButtonBrightness := ⟨.three⟩

/-- `ChannelFaderCurve`, `src/setting.rs` 1052-1063. -/
inductive ChannelFaderCurve where
  | steepTop | linear | steepBottom
  deriving DecidableEq, Repr

/-- Discriminants of `ChannelFaderCurve`, `src/setting.rs` 1052-1063. -/
instance : OptionCode ChannelFaderCurve where
  all := [.steepTop, .linear, .steepBottom]
  code
    | .steepTop => 0x80
    | .linear => 0x81
    | .steepBottom => 0x82

/-- `Default` of `ChannelFaderCurve`, `src/setting.rs` 1052-1063. -/
instance : Inhabited ChannelFaderCurve := ⟨.linear⟩

/-- `CrossfaderCurve`, `src/setting.rs` 1070-1083. -/
inductive CrossfaderCurve where
  | constantPower | slowCut | fastCut
  deriving DecidableEq, Repr

/-- Discriminants of `CrossfaderCurve`, `src/setting.rs` 1070-1083. -/
instance : OptionCode CrossfaderCurve where
  all := [.constantPower, .slowCut, .fastCut]
  code
    | .constantPower => 0x80
    | .slowCut => 0x81
    | .fastCut => 0x82

/-- `Default` of `CrossfaderCurve`, `src/setting.rs` 1070-1083. -/
instance : Inhabited CrossfaderCurve := ⟨.fastCut⟩

/-- `ChannelFaderCurveLongFader`, `src/setting.rs` 1090-1098. -/
inductive ChannelFaderCurveLongFader where
  | exponential | smooth | linear
  deriving DecidableEq, Repr

/-- Discriminants of `ChannelFaderCurveLongFader`, `src/setting.rs` 1090-1098. -/
instance : OptionCode ChannelFaderCurveLongFader where
  all := [.exponential, .smooth, .linear]
  code
    | .exponential => 0x80
    | .smooth => 0x81
    | .linear => 0x82

/-- `Default` of `ChannelFaderCurveLongFader`, `src/setting.rs` 1090-1098. -/
instance : Inhabited ChannelFaderCurveLongFader := ⟨.exponential⟩

/-- `HeadphonesPreEQ`, `src/setting.rs` 1105-1113. -/
inductive HeadphonesPreEQ where
  | postEQ | preEQ
  deriving DecidableEq, Repr

/-- Discriminants of `HeadphonesPreEQ`, `src/setting.rs` 1105-1113. -/
instance : OptionCode HeadphonesPreEQ where
  all := [.postEQ, .preEQ]
  code
    | .postEQ => 0x80
    | .preEQ => 0x81

/-- `Default` of `HeadphonesPreEQ`, `src/setting.rs` 1105-1113. -/
instance : Inhabited HeadphonesPreEQ := ⟨.postEQ⟩

/-- `HeadphonesMonoSplit`, `src/setting.rs` 1120-1127. -/
inductive HeadphonesMonoSplit where
  | monoSplit | stereo
  deriving DecidableEq, Repr

/-- Discriminants of `HeadphonesMonoSplit`, `src/setting.rs` 1120-1127. -/
instance : OptionCode HeadphonesMonoSplit where
  all := [.monoSplit, .stereo]
  code
    | .monoSplit => 0x81
    | .stereo => 0x80

/-- `Default` of `HeadphonesMonoSplit`, `src/setting.rs` 1120-1127. -/
instance : Inhabited HeadphonesMonoSplit := ⟨.stereo⟩

/-- `BeatFXQuantize`, `src/setting.rs` 1134-1140. -/
inductive BeatFXQuantize where
  | off | on
  deriving DecidableEq, Repr

/-- Discriminants of `BeatFXQuantize`, `src/setting.rs` 1134-1140. -/
instance : OptionCode BeatFXQuantize where
  all := [.off, .on]
  code
    | .off => 0x80
    | .on => 0x81

/-- `Default` of `BeatFXQuantize`, `src/setting.rs` 1134-1140. -/
instance : Inhabited BeatFXQuantize := ⟨.on⟩

/-- `MicLowCut`, `src/setting.rs` 1147-1153. -/
inductive MicLowCut where
  | off | on
  deriving DecidableEq, Repr

/-- Discriminants of `MicLowCut`, `src/setting.rs` 1147-1153. -/
instance : OptionCode MicLowCut where
  all := [.off, .on]
  code
    | .off => 0x80
    | .on => 0x81

/-- `Default` of `MicLowCut`, `src/setting.rs` 1147-1153. -/
instance : Inhabited MicLowCut := ⟨.on⟩

/-- `TalkOverMode`, `src/setting.rs` 1160-1166. -/
inductive TalkOverMode where
  | advanced | normal
  deriving DecidableEq, Repr

/-- Discriminants of `TalkOverMode`, `src/setting.rs` 1160-1166. -/
instance : OptionCode TalkOverMode where
  all := [.advanced, .normal]
  code
    | .advanced => 0x80
    | .normal => 0x81

/-- `Default` of `TalkOverMode`, `src/setting.rs` 1160-1166. -/
instance : Inhabited TalkOverMode := ⟨.advanced⟩

/-- `TalkOverLevel`, `src/setting.rs` 1173-1187. -/
inductive TalkOverLevel where
  | minus24dB | minus18dB | minus12dB | minus6dB
  deriving DecidableEq, Repr

/-- Discriminants of `TalkOverLevel`, `src/setting.rs` 1173-1187. -/
instance : OptionCode TalkOverLevel where
  all := [.minus24dB, .minus18dB, .minus12dB, .minus6dB]
  code
    | .minus24dB => 0x80
    | .minus18dB => 0x81
    | .minus12dB => 0x82
    | .minus6dB => 0x83

/-- `Default` of `TalkOverLevel`, `src/setting.rs` 1173-1187. -/
instance : Inhabited TalkOverLevel := ⟨.minus18dB⟩

/-- `MidiChannel`, `src/setting.rs` 1194-1244. -/
inductive MidiChannel where
  | one | two | three | four | five | six | seven | eight | nine | ten | eleven | twelve | thirteen | fourteen | fifteen | sixteen
  deriving DecidableEq, Repr

/-- Discriminants of `MidiChannel`, `src/setting.rs` 1194-1244. -/
instance : OptionCode MidiChannel where
  all := [.one, .two, .three, .four, .five, .six, .seven, .eight, .nine, .ten, .eleven, .twelve, .thirteen, .fourteen, .fifteen, .sixteen]
  code
    | .one => 0x80
    | .two => 0x81
    | .three => 0x82
    | .four => 0x83
    | .five => 0x84
    | .six => 0x85
    | .seven => 0x86
    | .eight => 0x87
    | .nine => 0x88
    | .ten => 0x89
    | .eleven => 0x8A
    | .twelve => 0x8B
    | .thirteen => 0x8C
    | .fourteen => 0x8D
    | .fifteen => 0x8E
    | .sixteen => 0x8F

/-- `Default` of `MidiChannel`, `src/setting.rs` 1194-1244. -/
instance : Inhabited MidiChannel := ⟨.one⟩

/-- `MidiButtonType`, `src/setting.rs` 1251-1257. -/
inductive MidiButtonType where
  | toggle | trigger
  deriving DecidableEq, Repr

/-- Discriminants of `MidiButtonType`, `src/setting.rs` 1251-1257. -/
instance : OptionCode MidiButtonType where
  all := [.toggle, .trigger]
  code
    | .toggle => 0x80
    | .trigger => 0x81

/-- `Default` of `MidiButtonType`, `src/setting.rs` 1251-1257. -/
instance : Inhabited MidiButtonType := ⟨.toggle⟩

/-- `MixerDisplayBrightness`, `src/setting.rs` 1264-1283. -/
inductive MixerDisplayBrightness where
  | white | one | two | three | four | five
  deriving DecidableEq, Repr

/-- Discriminants of `MixerDisplayBrightness`, `src/setting.rs` 1264-1283. -/
instance : OptionCode MixerDisplayBrightness where
  all := [.white, .one, .two, .three, .four, .five]
  code
    | .white => 0x80
    | .one => 0x81
    | .two => 0x82
    | .three => 0x83
    | .four => 0x84
    | .five => 0x85

/-- `Default` of `MixerDisplayBrightness`, `src/setting.rs` 1264-1283. -/
instance : Inhabited MixerDisplayBrightness := ⟨.five⟩

/-- `MixerIndicatorBrightness`, `src/setting.rs` 1290-1301. -/
inductive MixerIndicatorBrightness where
  | one | two | three
  deriving DecidableEq, Repr

/-- Discriminants of `MixerIndicatorBrightness`, `src/setting.rs` 1290-1301. -/
instance : OptionCode MixerIndicatorBrightness where
  all := [.one, .two, .three]
  code
    | .one => 0x80
    | .two => 0x81
    | .three => 0x82

/-- `Default` of `MixerIndicatorBrightness`, `src/setting.rs` 1290-1301. -/
instance : Inhabited MixerIndicatorBrightness := ⟨.three⟩

/-- `WaveformColor`, `src/setting.rs` 1309-1319. -/
inductive WaveformColor where
  | blue | rgb | triBand
  deriving DecidableEq, Repr

/-- Discriminants of `WaveformColor`, `src/setting.rs` 1309-1319. -/
instance : OptionCode WaveformColor where
  all := [.blue, .rgb, .triBand]
  code
    | .blue => 0x01
    | .rgb => 0x03
    | .triBand => 0x04

/-- `Default` of `WaveformColor`, `src/setting.rs` 1309-1319. -/
instance : Inhabited WaveformColor := ⟨.blue⟩

/-- `WaveformCurrentPosition`, `src/setting.rs` 1327-1333. -/
inductive WaveformCurrentPosition where
  | left | center
  deriving DecidableEq, Repr

/-- Discriminants of `WaveformCurrentPosition`, `src/setting.rs` 1327-1333. -/
instance : OptionCode WaveformCurrentPosition where
  all := [.left, .center]
  code
    | .left => 0x02
    | .center => 0x01

/-- `Default` of `WaveformCurrentPosition`, `src/setting.rs` 1327-1333. -/
instance : Inhabited WaveformCurrentPosition := ⟨.center⟩

/-- `OverviewWaveformType`, `src/setting.rs` 1341-1349. -/
inductive OverviewWaveformType where
  | halfWaveform | fullWaveform
  deriving DecidableEq, Repr

/-- Discriminants of `OverviewWaveformType`, `src/setting.rs` 1341-1349. -/
instance : OptionCode OverviewWaveformType where
  all := [.halfWaveform, .fullWaveform]
  code
    | .halfWaveform => 0x01
    | .fullWaveform => 0x02

/-- `Default` of `OverviewWaveformType`, `src/setting.rs` 1341-1349. -/
instance : Inhabited OverviewWaveformType := ⟨.halfWaveform⟩

/-- `KeyDisplayFormat`, `src/setting.rs` 1357-1363. -/
inductive KeyDisplayFormat where
  | classic | alphanumeric
  deriving DecidableEq, Repr

/-- Discriminants of `KeyDisplayFormat`, `src/setting.rs` 1357-1363. -/
instance : OptionCode KeyDisplayFormat where
  all := [.classic, .alphanumeric]
  code
    | .classic => 0x01
    | .alphanumeric => 0x02

/-- `Default` of `KeyDisplayFormat`, `src/setting.rs` 1357-1363. -/
instance : Inhabited KeyDisplayFormat := ⟨.classic⟩

end Opt

end Rekordcrate
