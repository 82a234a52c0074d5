import Verif.Model.SettingData

/-! # Model of setting files, `src/setting.rs`, and of `src/device.rs` 43-253 -/

namespace Rekordcrate

/-! ## CRC-16/XMODEM -/

/-- One bit step of the CRC register.  Used at `src/setting.rs` 155. -/
def crcBit (s : UInt16) : UInt16 :=
  if s.toNat ≥ 0x8000 then (s <<< 1) ^^^ 0x1021 else s <<< 1

/-- One byte of `crc16::State::<XMODEM>::update`: the byte is added to the high half of the
register, then eight bit steps.  (The crate uses a table of the eight-step results.)  Used at `src/setting.rs`
155. -/
def crcByte (s : UInt16) (b : UInt8) : UInt16 :=
  crcBit (crcBit (crcBit (crcBit (crcBit (crcBit (crcBit (crcBit (s ^^^ (b.toUInt16 <<< 8)))))))))

/-- `crc16::State::<XMODEM>::calculate` (called in `src/setting.rs` 155). -/
def crc16 (bs : Bytes) : UInt16 := bs.foldl crcByte 0

/-! ## Setting files -/

/-- `SettingType`, `src/setting.rs` 161-170. -/
inductive SettingType where
  | devSetting | djmMySetting | mySetting | mySetting2
  deriving DecidableEq, Repr

/-- `SettingType::expected_data_size`, `src/setting.rs` 186-193. -/
def SettingType.expectedDataSize : SettingType → UInt32
  | devSetting => 32
  | djmMySetting => 52
  | mySetting => 40
  | mySetting2 => 40

/-- `SettingData`, `src/setting.rs` 197-214. -/
inductive SettingData where
  | devSetting (s : DevSetting)
  | djmMySetting (s : DJMMySetting)
  | mySetting (s : MySetting)
  | mySetting2 (s : MySetting2)
  deriving DecidableEq, Repr

namespace SettingData

/-- `SettingData::size`, `src/setting.rs` 217-224. -/
def size : SettingData → UInt32
  | devSetting _ => 32
  | djmMySetting _ => 52
  | mySetting _ => 40
  | mySetting2 _ => 40

/-- The kind of file that holds such data.  The pairs of `src/setting.rs` 203-214. -/
def kind : SettingData → SettingType
  | devSetting _ => .devSetting
  | djmMySetting _ => .djmMySetting
  | mySetting _ => .mySetting
  | mySetting2 _ => .mySetting2

/-- `as_dev_setting`, `src/setting.rs` 226-233. -/
def asDevSetting : SettingData → Option DevSetting
  | devSetting s => some s
  | _ => none

/-- `as_djm_my_setting`, `src/setting.rs` 235-242. -/
def asDJMMySetting : SettingData → Option DJMMySetting
  | djmMySetting s => some s
  | _ => none

/-- `as_my_setting`, `src/setting.rs` 244-251. -/
def asMySetting : SettingData → Option MySetting
  | mySetting s => some s
  | _ => none

/-- `as_my_setting2`, `src/setting.rs` 253-260. -/
def asMySetting2 : SettingData → Option MySetting2
  | mySetting2 s => some s
  | _ => none

/-- Derived `BinWrite`, `src/setting.rs` 197-214. -/
def enc : SettingData → Bytes
  | devSetting s => s.enc
  | djmMySetting s => s.enc
  | mySetting s => s.enc
  | mySetting2 s => s.enc

/-- Derived `BinRead`, `src/setting.rs` 197-214: variants in order, each with its `pre_assert`. -/
def read (t : SettingType) : Rd SettingData :=
  Rd.orElse (do Rd.require (t == .devSetting); let s ← DevSetting.read; pure (devSetting s))
    (Rd.orElse (do Rd.require (t == .djmMySetting); let s ← DJMMySetting.read; pure (djmMySetting s))
      (Rd.orElse (do Rd.require (t == .mySetting); let s ← MySetting.read; pure (mySetting s))
        (do Rd.require (t == .mySetting2); let s ← MySetting2.read; pure (mySetting2 s))))

end SettingData

/-- `Setting`, `src/setting.rs` 28-79. -/
structure Setting where
  brand : Bytes
  software : Bytes
  version : Bytes
  data : SettingData
  deriving DecidableEq, Repr

namespace Setting

/-- A `NullString` field with `pad_size_to = 0x20` and `assert(len <= 0x1f)`, as written
(`src/setting.rs` 48-56). -/
def encName (s : Bytes) : Res Bytes :=
  if s.length ≤ 31 then .ok (encNullString s ++ List.replicate (32 - (encNullString s).length) 0)
  else .err .assertFail

/-- The same field, as read: after the string the stream is moved to the end of the 32 bytes, if it
is not behind it already (`src/setting.rs` 48-56). -/
def readName : Rd Bytes := do
  let start ← Rd.pos
  let s ← readNullString
  let now ← Rd.pos
  Rd.seekTo (max now (start + 32))
  Rd.require (s.length ≤ 31)
  pure s

/-- Derived `BinWrite` of `Setting`, `src/setting.rs` 28-79, with the value of the checksum field
given as a computation that runs when the field is reached. -/
def encWith (s : Setting) (checksum : Res UInt16) : Res Bytes := do
  let brand ← encName s.brand
  let software ← encName s.software
  let version ← encName s.version
  let ck ← checksum
  .ok (encU32 0x60 ++ (brand ++ (software ++ (version ++ (encU32 s.data.size ++ (s.data.enc ++
    (encU16 ck ++ encU16 0)))))))

/-- `Setting::calculate_checksum`, `src/setting.rs` 140-156: serialise with checksum 0, then take
the CRC of `data[start..end]`; `unwrap`, the subtraction and the slicing can panic. -/
def calculateChecksum (s : Setting) : Res UInt16 :=
  match s.encWith (.ok 0) with
  | .ok data =>
    let start := match s.data with
      | .djmMySetting _ => 0
      | _ => 104
    match subU data.length 4 with
    | .ok stop =>
      if start ≤ stop ∧ stop ≤ data.length then .ok (crc16 ((data.drop start).take (stop - start)))
      else .panic
    | _ => .panic
  | _ => .panic

/-- Derived `BinWrite` of `Setting` with its `no_checksum` argument, `src/setting.rs` 28-79. -/
def enc (s : Setting) (noChecksum : Bool := false) : Res Bytes :=
  s.encWith (if noChecksum then .ok 0 else s.calculateChecksum)

/-- Derived `BinRead` of `Setting`, `src/setting.rs` 28-79: the checksum is read and dropped. -/
def read (t : SettingType) : Rd Setting := do
  let lenStringdata ← Rd.u32
  Rd.require (lenStringdata == 0x60)
  let brand ← readName
  let software ← readName
  let version ← readName
  let lenData ← Rd.u32
  Rd.require (lenData == t.expectedDataSize)
  let data ← SettingData.read t
  let _checksum ← Rd.u16
  let unknown ← Rd.u16
  Rd.require (unknown == 0)
  pure { brand, software, version, data }

/-- `default_with_brand_and_data`, `src/setting.rs` 82-91. -/
def defaultWith (brand : String) (data : SettingData) : Setting where
  brand := utf8 brand
  software := utf8 "rekordbox"
  version := utf8 "6.6.1"
  data := data

/-- `default_devsetting`, `src/setting.rs` 93-100. -/
def defaultDevSetting : Setting := defaultWith "PIONEER DJ" (.devSetting DevSetting.default)
/-- `default_djmmysetting`, `src/setting.rs` 102-109. -/
def defaultDJMMySetting : Setting := defaultWith "PioneerDJ" (.djmMySetting DJMMySetting.default)
/-- `default_mysetting`, `src/setting.rs` 111-118. -/
def defaultMySetting : Setting := defaultWith "PIONEER" (.mySetting MySetting.default)
/-- `default_mysetting2`, `src/setting.rs` 120-127. -/
def defaultMySetting2 : Setting := defaultWith "PIONEER" (.mySetting2 MySetting2.default)

end Setting

/-! ## Loading the settings of a device -/

/-- `Settings`, `src/device.rs` 92-193. -/
structure Settings where
  onAirDisplay : Option Opt.OnAirDisplay := none
  lcdBrightness : Option Opt.LCDBrightness := none
  quantize : Option Opt.Quantize := none
  autoCueLevel : Option Opt.AutoCueLevel := none
  language : Option Opt.Language := none
  jogRingBrightness : Option Opt.JogRingBrightness := none
  jogRingIndicator : Option Opt.JogRingIndicator := none
  slipFlashing : Option Opt.SlipFlashing := none
  discSlotIllumination : Option Opt.DiscSlotIllumination := none
  ejectLock : Option Opt.EjectLock := none
  sync : Option Opt.Sync := none
  playMode : Option Opt.PlayMode := none
  quantizeBeatValue : Option Opt.QuantizeBeatValue := none
  hotcueAutoload : Option Opt.HotCueAutoLoad := none
  hotcueColor : Option Opt.HotCueColor := none
  needleLock : Option Opt.NeedleLock := none
  timeMode : Option Opt.TimeMode := none
  jogMode : Option Opt.JogMode := none
  autoCue : Option Opt.AutoCue := none
  masterTempo : Option Opt.MasterTempo := none
  tempoRange : Option Opt.TempoRange := none
  phaseMeter : Option Opt.PhaseMeter := none
  vinylSpeedAdjust : Option Opt.VinylSpeedAdjust := none
  jogDisplayMode : Option Opt.JogDisplayMode := none
  padButtonBrightness : Option Opt.PadButtonBrightness := none
  jogLcdBrightness : Option Opt.JogLCDBrightness := none
  waveformDivisions : Option Opt.WaveformDivisions := none
  waveform : Option Opt.Waveform := none
  beatJumpBeatValue : Option Opt.BeatJumpBeatValue := none
  channelFaderCurve : Option Opt.ChannelFaderCurve := none
  crossfaderCurve : Option Opt.CrossfaderCurve := none
  headphonesPreEq : Option Opt.HeadphonesPreEQ := none
  headphonesMonoSplit : Option Opt.HeadphonesMonoSplit := none
  beatFxQuantize : Option Opt.BeatFXQuantize := none
  micLowCut : Option Opt.MicLowCut := none
  talkOverMode : Option Opt.TalkOverMode := none
  talkOverLevel : Option Opt.TalkOverLevel := none
  midiChannel : Option Opt.MidiChannel := none
  midiButtonType : Option Opt.MidiButtonType := none
  displayBrightness : Option Opt.MixerDisplayBrightness := none
  indicatorBrightness : Option Opt.MixerIndicatorBrightness := none
  channelFaderCurveLongFader : Option Opt.ChannelFaderCurveLongFader := none
  overviewWaveformType : Option Opt.OverviewWaveformType := none
  waveformColor : Option Opt.WaveformColor := none
  keyDisplayFormat : Option Opt.KeyDisplayFormat := none
  waveformCurrentPosition : Option Opt.WaveformCurrentPosition := none
  deriving DecidableEq, Repr

namespace Settings

/-- `Settings::set_mysetting`, `src/device.rs` 196-219. -/
def setMySetting (s : Settings) (data : MySetting) : Settings :=
  { s with
    onAirDisplay := some data.onAirDisplay
    lcdBrightness := some data.lcdBrightness
    quantize := some data.quantize
    autoCueLevel := some data.autoCueLevel
    language := some data.language
    jogRingBrightness := some data.jogRingBrightness
    jogRingIndicator := some data.jogRingIndicator
    slipFlashing := some data.slipFlashing
    discSlotIllumination := some data.discSlotIllumination
    ejectLock := some data.ejectLock
    sync := some data.sync
    playMode := some data.playMode
    quantizeBeatValue := some data.quantizeBeatValue
    hotcueAutoload := some data.hotcueAutoload
    hotcueColor := some data.hotcueColor
    needleLock := some data.needleLock
    timeMode := some data.timeMode
    jogMode := some data.jogMode
    autoCue := some data.autoCue
    masterTempo := some data.masterTempo
    tempoRange := some data.tempoRange
    phaseMeter := some data.phaseMeter }

/-- `Settings::set_mysetting2`, `src/device.rs` 221-229. -/
def setMySetting2 (s : Settings) (data : MySetting2) : Settings :=
  { s with
    vinylSpeedAdjust := some data.vinylSpeedAdjust
    jogDisplayMode := some data.jogDisplayMode
    padButtonBrightness := some data.padButtonBrightness
    jogLcdBrightness := some data.jogLcdBrightness
    waveformDivisions := some data.waveformDivisions
    waveform := some data.waveform
    beatJumpBeatValue := some data.beatJumpBeatValue }

/-- `Settings::set_djmmysetting`, `src/device.rs` 231-245. -/
def setDJMMySetting (s : Settings) (data : DJMMySetting) : Settings :=
  { s with
    channelFaderCurve := some data.channelFaderCurve
    crossfaderCurve := some data.crossfaderCurve
    headphonesPreEq := some data.headphonesPreEq
    headphonesMonoSplit := some data.headphonesMonoSplit
    beatFxQuantize := some data.beatFxQuantize
    micLowCut := some data.micLowCut
    talkOverMode := some data.talkOverMode
    talkOverLevel := some data.talkOverLevel
    midiChannel := some data.midiChannel
    midiButtonType := some data.midiButtonType
    displayBrightness := some data.displayBrightness
    indicatorBrightness := some data.indicatorBrightness
    channelFaderCurveLongFader := some data.channelFaderCurveLongFader }

/-- `Settings::set_devsetting`, `src/device.rs` 247-252. -/
def setDevSetting (s : Settings) (data : DevSetting) : Settings :=
  { s with
    overviewWaveformType := some data.overviewWaveformType
    waveformColor := some data.waveformColor
    keyDisplayFormat := some data.keyDisplayFormat
    waveformCurrentPosition := some data.waveformCurrentPosition }

end Settings

/-- The files below the `PIONEER` directory that can be opened, with their contents.  Simplification:
a file that exists but cannot be opened is treated like a missing one (both are `Err` in
`std::fs::File::open`).  The directory of `src/device.rs` 53-57. -/
abbrev PioneerDir := String → Option Bytes

/-- `read_setting_file` and the closure `load_setting`, `src/device.rs` 43-64: an error gives `None`
(and a warning, which is not modelled), a panic propagates. -/
def loadSetting (fs : PioneerDir) (name : String) (t : SettingType) : Res (Option Setting) :=
  match fs name with
  | none => .ok none
  | some d =>
    match Setting.read t d 0 with
    | .ok (s, _) => .ok (some s)
    | .err _ => .ok none
    | .panic => .panic

/-- `DeviceExportLoader::load_settings`, `src/device.rs` 51-81; `unwrap` panics on `None`. -/
def loadSettings (fs : PioneerDir) : Res Settings := do
  let s : Settings := {}
  let s ← (do
    match ← loadSetting fs "DEVSETTING.DAT" .devSetting with
    | some f => match f.data.asDevSetting with
      | some x => .ok (s.setDevSetting x)
      | none => .panic
    | none => .ok s)
  let s ← (do
    match ← loadSetting fs "DJMMYSETTING.DAT" .djmMySetting with
    | some f => match f.data.asDJMMySetting with
      | some x => .ok (s.setDJMMySetting x)
      | none => .panic
    | none => .ok s)
  let s ← (do
    match ← loadSetting fs "MYSETTING.DAT" .mySetting with
    | some f => match f.data.asMySetting with
      | some x => .ok (s.setMySetting x)
      | none => .panic
    | none => .ok s)
  let s ← (do
    match ← loadSetting fs "MYSETTING2.DAT" .mySetting2 with
    | some f => match f.data.asMySetting2 with
      | some x => .ok (s.setMySetting2 x)
      | none => .panic
    | none => .ok s)
  .ok s

end Rekordcrate
