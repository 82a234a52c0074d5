import Verif.Conformance.Rows
import Verif.Model.AnlzFile
import Verif.Model.Setting

/-!
# Running the model on the project's data files

This is a program, not a proof: it runs the model's readers and writers on the files in `data/` of the
project and prints what the project's tests assert about them.

    cd lean && lake env lean --run Verif/Conformance/Files.lean /repo/data

* every setting file and every analysis file is read and written again, and the bytes are compared
  (`tests/tests_setting.rs.in`, `tests/tests_anlz.rs.in`);
* the field assertions of `tests/test_*setting*.rs` are evaluated;
* the pages of `src/pdb/test_roundtrip.rs` are read and written again, and the bytes are compared;
* every page of every `export.pdb` is read, the rows of every table are counted and, for
  `data/pdb/num_rows/export.pdb`, compared with `tests/test_pdb_num_rows.rs`. The pages of a table are
  cut out of the file and followed by this program (reading at a position of a list is linear in the
  position, so the model's own `Database` would take hours on 2.9 MB).

The last line is `0 failures` if the model agrees everywhere.
-/

namespace Rekordcrate.Conformance

/-- A test of a setting file: its name in the project, the file below `data/`, the kind of file, and what
is asserted of the data. -/
structure SettingTest where
  name : String
  file : String
  type : SettingType
  check : SettingData → Bool

/-- The assertions of `tests/test_devsetting.rs`. -/
def devsettingTests : List SettingTest :=
  [⟨"read_devsetting_default", "complete_export/empty/PIONEER/DEVSETTING.DAT",
    .devSetting, fun d => d.asDevSetting.any fun s => s = DevSetting.default⟩,
   ⟨"read_devsetting_waveformcolor_rgb", "devsetting/waveformcolor-rgb/DEVSETTING.DAT",
    .devSetting, fun d => d.asDevSetting.any fun s => s.waveformColor = .rgb⟩,
   ⟨"read_devsetting_waveformcolor_3band", "devsetting/waveformcolor-3band/DEVSETTING.DAT",
    .devSetting, fun d => d.asDevSetting.any fun s => s.waveformColor = .triBand⟩,
   ⟨"read_devsetting_waveformcurrentposition_left", "devsetting/waveformcurrentposition-left/DEVSETTING.DAT",
    .devSetting, fun d => d.asDevSetting.any fun s => s.waveformCurrentPosition = .left⟩,
   ⟨"read_devsetting_overviewwaveformtype_full", "devsetting/overviewwaveformtype-full/DEVSETTING.DAT",
    .devSetting, fun d => d.asDevSetting.any fun s => s.overviewWaveformType = .fullWaveform⟩,
   ⟨"read_devsetting_keydisplayformat_alphanumeric", "devsetting/keydisplayformat-alphanumeric/DEVSETTING.DAT",
    .devSetting, fun d => d.asDevSetting.any fun s => s.keyDisplayFormat = .alphanumeric⟩]

/-- The assertions of `tests/test_djmmysetting.rs`. -/
def djmmysettingTests : List SettingTest :=
  [⟨"read_djmmysetting_default", "complete_export/empty/PIONEER/DJMMYSETTING.DAT",
    .djmMySetting, fun d => d.asDJMMySetting.any fun s => s = DJMMySetting.default⟩,
   ⟨"read_djmsetting_beatfxquantize_off", "djmmysetting/beatfxquantize_off/DJMMYSETTING.DAT",
    .djmMySetting, fun d => d.asDJMMySetting.any fun s => s.beatFxQuantize = .off⟩,
   ⟨"read_djmsetting_chfadercurvelong_exp2", "djmmysetting/chfadercurvelong_exp2/DJMMYSETTING.DAT",
    .djmMySetting, fun d => d.asDJMMySetting.any fun s => s.channelFaderCurveLongFader = .smooth⟩,
   ⟨"read_djmsetting_chfadercurvelong_linear", "djmmysetting/chfadercurvelong_linear/DJMMYSETTING.DAT",
    .djmMySetting, fun d => d.asDJMMySetting.any fun s => s.channelFaderCurveLongFader = .linear⟩,
   ⟨"read_djmsetting_chfadercurve_steepbottom", "djmmysetting/chfadercurve_steepbottom/DJMMYSETTING.DAT",
    .djmMySetting, fun d => d.asDJMMySetting.any fun s => s.channelFaderCurve = .steepBottom⟩,
   ⟨"read_djmsetting_chfadercurve_steeptop", "djmmysetting/chfadercurve_steeptop/DJMMYSETTING.DAT",
    .djmMySetting, fun d => d.asDJMMySetting.any fun s => s.channelFaderCurve = .steepTop⟩,
   ⟨"read_djmsetting_crossfadercurve_constantpower", "djmmysetting/crossfadercurve_constantpower/DJMMYSETTING.DAT",
    .djmMySetting, fun d => d.asDJMMySetting.any fun s => s.crossfaderCurve = .constantPower⟩,
   ⟨"read_djmsetting_crossfadercurve_slowcut", "djmmysetting/crossfadercurve_slowcut/DJMMYSETTING.DAT",
    .djmMySetting, fun d => d.asDJMMySetting.any fun s => s.crossfaderCurve = .slowCut⟩,
   ⟨"read_djmsetting_headphones_monosplit_monosplit", "djmmysetting/headphones_monosplit_monosplit/DJMMYSETTING.DAT",
    .djmMySetting, fun d => d.asDJMMySetting.any fun s => s.headphonesMonoSplit = .monoSplit⟩,
   ⟨"read_djmsetting_headphones_preeq_preeq", "djmmysetting/headphones_preeq_preeq/DJMMYSETTING.DAT",
    .djmMySetting, fun d => d.asDJMMySetting.any fun s => s.headphonesPreEq = .preEQ⟩,
   ⟨"read_djmsetting_miclowcut_off", "djmmysetting/miclowcut_off/DJMMYSETTING.DAT",
    .djmMySetting, fun d => d.asDJMMySetting.any fun s => s.micLowCut = .off⟩,
   ⟨"read_djmsetting_midi_buttontype_trigger", "djmmysetting/midi_buttontype_trigger/DJMMYSETTING.DAT",
    .djmMySetting, fun d => d.asDJMMySetting.any fun s => s.midiButtonType = .trigger⟩,
   ⟨"read_djmsetting_midi_ch_15", "djmmysetting/midi_ch_15/DJMMYSETTING.DAT",
    .djmMySetting, fun d => d.asDJMMySetting.any fun s => s.midiChannel = .fifteen⟩,
   ⟨"read_djmsetting_midi_ch_16", "djmmysetting/midi_ch_16/DJMMYSETTING.DAT",
    .djmMySetting, fun d => d.asDJMMySetting.any fun s => s.midiChannel = .sixteen⟩,
   ⟨"read_djmsetting_midi_ch_2", "djmmysetting/midi_ch_2/DJMMYSETTING.DAT",
    .djmMySetting, fun d => d.asDJMMySetting.any fun s => s.midiChannel = .two⟩,
   ⟨"read_djmsetting_mixer_brightness_display_1", "djmmysetting/mixer_brightness_display_1/DJMMYSETTING.DAT",
    .djmMySetting, fun d => d.asDJMMySetting.any fun s => s.displayBrightness = .one⟩,
   ⟨"read_djmsetting_mixer_brightness_display_2", "djmmysetting/mixer_brightness_display_2/DJMMYSETTING.DAT",
    .djmMySetting, fun d => d.asDJMMySetting.any fun s => s.displayBrightness = .two⟩,
   ⟨"read_djmsetting_mixer_brightness_display_white", "djmmysetting/mixer_brightness_display_white/DJMMYSETTING.DAT",
    .djmMySetting, fun d => d.asDJMMySetting.any fun s => s.displayBrightness = .white⟩,
   ⟨"read_djmsetting_mixer_brightness_indicator_1", "djmmysetting/mixer_brightness_indicator_1/DJMMYSETTING.DAT",
    .djmMySetting, fun d => d.asDJMMySetting.any fun s => s.indicatorBrightness = .one⟩,
   ⟨"read_djmsetting_mixer_brightness_indicator_2", "djmmysetting/mixer_brightness_indicator_2/DJMMYSETTING.DAT",
    .djmMySetting, fun d => d.asDJMMySetting.any fun s => s.indicatorBrightness = .two⟩,
   ⟨"read_djmsetting_talkover_level_12", "djmmysetting/talkover_level_12/DJMMYSETTING.DAT",
    .djmMySetting, fun d => d.asDJMMySetting.any fun s => s.talkOverLevel = .minus12dB⟩,
   ⟨"read_djmsetting_talkover_level_24", "djmmysetting/talkover_level_24/DJMMYSETTING.DAT",
    .djmMySetting, fun d => d.asDJMMySetting.any fun s => s.talkOverLevel = .minus24dB⟩,
   ⟨"read_djmsetting_talkover_level_6", "djmmysetting/talkover_level_6/DJMMYSETTING.DAT",
    .djmMySetting, fun d => d.asDJMMySetting.any fun s => s.talkOverLevel = .minus6dB⟩,
   ⟨"read_djmsetting_talkover_mode_normal", "djmmysetting/talkover_mode_normal/DJMMYSETTING.DAT",
    .djmMySetting, fun d => d.asDJMMySetting.any fun s => s.talkOverMode = .normal⟩]

/-- The assertions of `tests/test_mysetting.rs`. -/
def mysettingTests : List SettingTest :=
  [⟨"read_mysetting_default", "complete_export/empty/PIONEER/MYSETTING.DAT",
    .mySetting, fun d => d.asMySetting.any fun s => s = MySetting.default⟩,
   ⟨"read_mysetting_autocuelevel_36", "mysetting/autocuelevel_36/MYSETTING.DAT",
    .mySetting, fun d => d.asMySetting.any fun s => s.autoCueLevel = .minus36dB⟩,
   ⟨"read_mysetting_autocuelevel_42", "mysetting/autocuelevel_42/MYSETTING.DAT",
    .mySetting, fun d => d.asMySetting.any fun s => s.autoCueLevel = .minus42dB⟩,
   ⟨"read_mysetting_autocuelevel_72", "mysetting/autocuelevel_72/MYSETTING.DAT",
    .mySetting, fun d => d.asMySetting.any fun s => s.autoCueLevel = .minus72dB⟩,
   ⟨"read_mysetting_autocuelevel_78", "mysetting/autocuelevel_78/MYSETTING.DAT",
    .mySetting, fun d => d.asMySetting.any fun s => s.autoCueLevel = .minus78dB⟩,
   ⟨"read_mysetting_autocue_off", "mysetting/autocue_off/MYSETTING.DAT",
    .mySetting, fun d => d.asMySetting.any fun s => s.autoCue = .off⟩,
   ⟨"read_mysetting_discslotillumination_dark", "mysetting/discslotillumination_dark/MYSETTING.DAT",
    .mySetting, fun d => d.asMySetting.any fun s => s.discSlotIllumination = .dark⟩,
   ⟨"read_mysetting_discslotillumination_off", "mysetting/discslotillumination_off/MYSETTING.DAT",
    .mySetting, fun d => d.asMySetting.any fun s => s.discSlotIllumination = .off⟩,
   ⟨"read_mysetting_hotcueautoload_off", "mysetting/hotcueautoload_off/MYSETTING.DAT",
    .mySetting, fun d => d.asMySetting.any fun s => s.hotcueAutoload = .off⟩,
   ⟨"read_mysetting_hotcueautoload_rekordboxsetting", "mysetting/hotcueautoload_rekordboxsetting/MYSETTING.DAT",
    .mySetting, fun d => d.asMySetting.any fun s => s.hotcueAutoload = .rekordboxSetting⟩,
   ⟨"read_mysetting_hotcuecolor_on", "mysetting/hotcuecolor_on/MYSETTING.DAT",
    .mySetting, fun d => d.asMySetting.any fun s => s.hotcueColor = .on⟩,
   ⟨"read_mysetting_jogmode_cdj", "mysetting/jogmode_cdj/MYSETTING.DAT",
    .mySetting, fun d => d.asMySetting.any fun s => s.jogMode = .cdj⟩,
   ⟨"read_mysetting_jogringbrightness_dark", "mysetting/jogringbrightness_dark/MYSETTING.DAT",
    .mySetting, fun d => d.asMySetting.any fun s => s.jogRingBrightness = .dark⟩,
   ⟨"read_mysetting_jogringbrightness_off", "mysetting/jogringbrightness_off/MYSETTING.DAT",
    .mySetting, fun d => d.asMySetting.any fun s => s.jogRingBrightness = .off⟩,
   ⟨"read_mysetting_jogringindicator_off", "mysetting/jogringindicator_off/MYSETTING.DAT",
    .mySetting, fun d => d.asMySetting.any fun s => s.jogRingIndicator = .off⟩,
   ⟨"read_mysetting_language_french", "mysetting/language_french/MYSETTING.DAT",
    .mySetting, fun d => d.asMySetting.any fun s => s.language = .french⟩,
   ⟨"read_mysetting_language_greek", "mysetting/language_greek/MYSETTING.DAT",
    .mySetting, fun d => d.asMySetting.any fun s => s.language = .greek⟩,
   ⟨"read_mysetting_language_turkish", "mysetting/language_turkish/MYSETTING.DAT",
    .mySetting, fun d => d.asMySetting.any fun s => s.language = .turkish⟩,
   ⟨"read_mysetting_lcdbrightness_1", "mysetting/lcdbrightness_1/MYSETTING.DAT",
    .mySetting, fun d => d.asMySetting.any fun s => s.lcdBrightness = .one⟩,
   ⟨"read_mysetting_lcdbrightness_5", "mysetting/lcdbrightness_5/MYSETTING.DAT",
    .mySetting, fun d => d.asMySetting.any fun s => s.lcdBrightness = .five⟩,
   ⟨"read_mysetting_mastertempo_on", "mysetting/mastertempo_on/MYSETTING.DAT",
    .mySetting, fun d => d.asMySetting.any fun s => s.masterTempo = .on⟩,
   ⟨"read_mysetting_onairdisplay_off", "mysetting/onairdisplay_off/MYSETTING.DAT",
    .mySetting, fun d => d.asMySetting.any fun s => s.onAirDisplay = .off⟩,
   ⟨"read_mysetting_phasemeter_type2", "mysetting/phasemeter_type2/MYSETTING.DAT",
    .mySetting, fun d => d.asMySetting.any fun s => s.phaseMeter = .type2⟩,
   ⟨"read_mysetting_quantize_off", "mysetting/quantize_off/MYSETTING.DAT",
    .mySetting, fun d => d.asMySetting.any fun s => s.quantize = .off⟩,
   ⟨"read_mysetting_quantize_eighth", "mysetting/quantize_eighth/MYSETTING.DAT",
    .mySetting, fun d => d.asMySetting.any fun s => s.quantizeBeatValue = .eighthBeat⟩,
   ⟨"read_mysetting_quantize_half", "mysetting/quantize_half/MYSETTING.DAT",
    .mySetting, fun d => d.asMySetting.any fun s => s.quantizeBeatValue = .halfBeat⟩,
   ⟨"read_mysetting_quantize_quarter", "mysetting/quantize_quarter/MYSETTING.DAT",
    .mySetting, fun d => d.asMySetting.any fun s => s.quantizeBeatValue = .quarterBeat⟩,
   ⟨"read_mysetting_slipflashing_off", "mysetting/slipflashing_off/MYSETTING.DAT",
    .mySetting, fun d => d.asMySetting.any fun s => s.slipFlashing = .off⟩,
   ⟨"read_mysetting_sync_on", "mysetting/sync_on/MYSETTING.DAT",
    .mySetting, fun d => d.asMySetting.any fun s => s.sync = .on⟩,
   ⟨"read_mysetting_temporange_16", "mysetting/temporange_16/MYSETTING.DAT",
    .mySetting, fun d => d.asMySetting.any fun s => s.tempoRange = .sixteenPercent⟩,
   ⟨"read_mysetting_temporange_6", "mysetting/temporange_6/MYSETTING.DAT",
    .mySetting, fun d => d.asMySetting.any fun s => s.tempoRange = .sixPercent⟩,
   ⟨"read_mysetting_temporange_wide", "mysetting/temporange_wide/MYSETTING.DAT",
    .mySetting, fun d => d.asMySetting.any fun s => s.tempoRange = .wide⟩,
   ⟨"read_mysetting_timemode_elapsed", "mysetting/timemode_elapsed/MYSETTING.DAT",
    .mySetting, fun d => d.asMySetting.any fun s => s.timeMode = .elapsed⟩]

/-- The assertions of `tests/test_mysetting2.rs`. -/
def mysetting2Tests : List SettingTest :=
  [⟨"read_mysetting2_default", "complete_export/empty/PIONEER/MYSETTING2.DAT",
    .mySetting2, fun d => d.asMySetting2.any fun s => s = MySetting2.default⟩,
   ⟨"read_mysetting2_beatjumpbeatvalue_64", "mysetting2/beatjumpbeatvalue_64/MYSETTING2.DAT",
    .mySetting2, fun d => d.asMySetting2.any fun s => s.beatJumpBeatValue = .sixtyfourBeat⟩,
   ⟨"read_mysetting2_beatjumpbeatvalue_half", "mysetting2/beatjumpbeatvalue_half/MYSETTING2.DAT",
    .mySetting2, fun d => d.asMySetting2.any fun s => s.beatJumpBeatValue = .halfBeat⟩,
   ⟨"read_mysetting2_beatjumpbeatvalue_one", "mysetting2/beatjumpbeatvalue_one/MYSETTING2.DAT",
    .mySetting2, fun d => d.asMySetting2.any fun s => s.beatJumpBeatValue = .oneBeat⟩,
   ⟨"read_mysetting2_jogdisplaymode_artwork", "mysetting2/jogdisplaymode_artwork/MYSETTING2.DAT",
    .mySetting2, fun d => d.asMySetting2.any fun s => s.jogDisplayMode = .artwork⟩,
   ⟨"read_mysetting2_jogdisplaymode_info", "mysetting2/jogdisplaymode_info/MYSETTING2.DAT",
    .mySetting2, fun d => d.asMySetting2.any fun s => s.jogDisplayMode = .info⟩,
   ⟨"read_mysetting2_jogdisplaymode_simple", "mysetting2/jogdisplaymode_simple/MYSETTING2.DAT",
    .mySetting2, fun d => d.asMySetting2.any fun s => s.jogDisplayMode = .simple⟩,
   ⟨"read_mysetting2_joglcdbrightness_1", "mysetting2/joglcdbrightness_1/MYSETTING2.DAT",
    .mySetting2, fun d => d.asMySetting2.any fun s => s.jogLcdBrightness = .one⟩,
   ⟨"read_mysetting2_joglcdbrightness_5", "mysetting2/joglcdbrightness_5/MYSETTING2.DAT",
    .mySetting2, fun d => d.asMySetting2.any fun s => s.jogLcdBrightness = .five⟩,
   ⟨"read_mysetting2_padbuttonbrightness_1", "mysetting2/padbuttonbrightness_1/MYSETTING2.DAT",
    .mySetting2, fun d => d.asMySetting2.any fun s => s.padButtonBrightness = .one⟩,
   ⟨"read_mysetting2_padbuttonbrightness_5", "mysetting2/padbuttonbrightness_4/MYSETTING2.DAT",
    .mySetting2, fun d => d.asMySetting2.any fun s => s.padButtonBrightness = .four⟩,
   ⟨"read_mysetting2_vinylspeedadjust_release", "mysetting2/vinylspeedadjust_release/MYSETTING2.DAT",
    .mySetting2, fun d => d.asMySetting2.any fun s => s.vinylSpeedAdjust = .release⟩,
   ⟨"read_mysetting2_vinylspeedadjust_touchrelease", "mysetting2/vinylspeedadjust_touchrelease/MYSETTING2.DAT",
    .mySetting2, fun d => d.asMySetting2.any fun s => s.vinylSpeedAdjust = .touchRelease⟩,
   ⟨"read_mysetting2_waveformdivisions_timescale", "mysetting2/waveformdivisions_timescale/MYSETTING2.DAT",
    .mySetting2, fun d => d.asMySetting2.any fun s => s.waveformDivisions = .timeScale⟩,
   ⟨"read_mysetting2_waveform_phasemeter", "mysetting2/waveform_phasemeter/MYSETTING2.DAT",
    .mySetting2, fun d => d.asMySetting2.any fun s => s.waveform = .phaseMeter⟩]

/-- The expected numbers of rows in `data/pdb/num_rows/export.pdb`, `tests/test_pdb_num_rows.rs` 34-96. -/
def rowCounts : List (PlainPageType × Nat) :=
  [(.albums, 2226), (.artists, 2216), (.artwork, 2178), (.colors, 8), (.genres, 315),
   (.historyPlaylists, 1), (.historyEntries, 73), (.keys, 67), (.labels, 688), (.playlistTree, 104),
   (.playlistEntries, 7440), (.columns, 27), (.tracks, 3886)]

/-- Counts failures while printing. -/
abbrev Run := StateT Nat IO

/-- Prints a result; counts it if it is a failure. -/
def report (name : String) (ok : Bool) : Run Unit := do
  unless ok do modify (· + 1)
  (IO.println s!"{if ok then "ok  " else "FAIL"} {name}" : IO Unit)

/-- The content of a file. -/
def bytesOf (f : System.FilePath) : IO Bytes := return (← IO.FS.readBinFile f).toList

/-- All files below a directory. -/
partial def filesBelow (d : System.FilePath) : IO (List System.FilePath) := do
  let es ← d.readDir
  let mut out := []
  for e in es do
    if ← e.path.isDir then out := out ++ (← filesBelow e.path) else out := out ++ [e.path]
  return out

/-- The kind of a setting file, by its name. -/
def settingType : String → Option SettingType
  | "DEVSETTING.DAT" => some .devSetting
  | "DJMMYSETTING.DAT" => some .djmMySetting
  | "MYSETTING.DAT" => some .mySetting
  | "MYSETTING2.DAT" => some .mySetting2
  | _ => none

/-- Reading and writing again gives the file. -/
def settingSame (t : SettingType) (d : Bytes) : Bool :=
  match Setting.read t d 0 with
  | .ok (s, _) => match s.enc with
    | .ok bs => bs = d
    | _ => false
  | _ => false

/-- Reading and writing again gives the file. -/
def anlzSame (d : Bytes) : Bool :=
  match Anlz.AnlzFile.read d 0 with
  | .ok (s, _) => match s.enc with
    | .ok bs => bs = d
    | _ => false
  | _ => false

/-- Reading and writing again gives the page. -/
def pageSame (db : DatabaseType) (d : Bytes) : Bool :=
  match Page.read 4096 db d 0 with
  | .ok (pg, _) => outOf (pg.write 4096) = some d
  | _ => false

/-- The rows of a table, its pages from `i` on: `none` if a page cannot be read. -/
partial def countRows (f : ByteArray) (size : Nat) (db : DatabaseType) (last i : PageIndex) (n : Nat) :
    Option Nat :=
  let a := i.val.toNat * size
  match Page.read size db (f.extract a (a + size)).toList 0 with
  | .ok (pg, _) =>
    let n := match pg.content with
      | .data c => n + c.rows.length
      | .index _ => n
    if i = last then some n else countRows f size db last pg.header.nextPage n
  | _ => none

/-- All of it. -/
def run (data : System.FilePath) : Run Unit := do
  for f in ← filesBelow data do
    let name := f.fileName.getD ""
    if let some t := settingType name then
      report s!"written again: {f}" (settingSame t (← bytesOf f))
    if name.startsWith "ANLZ" then
      report s!"written again: {f}" (anlzSame (← bytesOf f))
    if f.extension = some "bin" ∧ (f.parent.bind (·.fileName)) = some "unit_tests" then
      let db := if name.startsWith "tag_" ∨ name.startsWith "track_tag" then .ext else .plain
      report s!"written again: {f}" (pageSame db (← bytesOf f))
    if f.extension = some "pdb" then
      let db := if name = "exportExt.pdb" then .ext else .plain
      let b ← IO.FS.readBinFile f
      match Header.read db (b.extract 0 4096).toList 0 with
      | .ok (h, _) =>
        for t in h.tables do
          match t.pageType with
          | .unknown _ => pure ()
          | ty =>
            let n := countRows b h.pageSize.toNat db t.lastPage t.firstPage 0
            let expected := if (f.parent.bind (·.fileName)) = some "num_rows" then
              (rowCounts.find? fun x => .plain x.1 = ty).map (·.2) else n
            report s!"{n.getD 0} rows: {f} {repr ty}" (n.isSome ∧ (expected = n ∨ expected = none))
      | _ => report s!"header: {f}" false
  for t in devsettingTests ++ djmmysettingTests ++ mysettingTests ++ mysetting2Tests do
    match Setting.read t.type (← bytesOf (data / t.file)) 0 with
    | .ok (s, _) => report t.name (t.check s.data)
    | _ => report t.name false

end Rekordcrate.Conformance

/-- Runs the model on the files below the given directory. -/
def main (args : List String) : IO Unit := do
  let ((), n) ← (Rekordcrate.Conformance.run (args.headD "/repo/data")).run 0
  IO.println s!"{n} failures"
