import Verif.Model.Dump
import Verif.Model.Listing
import Verif.Model.SettingText
import Verif.Model.AnlzFile
import Verif.Model.XmlDoc

/-! # Model of the whole command line tool (`src/main.rs` 30-86, 259-339, 413-441)

Reading the command line (`clap`) is not modelled: a command is the value that it gives. -/

namespace Rekordcrate

/-- `Commands`, `src/main.rs` 30-86. -/
inductive Command where
  | listPlaylists (path : FsPath)
  | listSettings (path : FsPath)
  | exportPlaylists (path outputDir : FsPath)
  | dumpAnlz (path : FsPath)
  | dumpPdb (path : FsPath) (dbType : Option String) (parseUnknownTables : Bool)
  | dumpSetting (path : FsPath) (settingType : Option String)
  | dumpXml (path : FsPath)
  deriving DecidableEq, Repr

/-- What the libraries do that are not modelled: `f64` in XML, whether an empty attribute of an optional field is
`None` (`quick_xml`), reading XML text up to the element (`quick_xml`), and `String::from_utf8_lossy`.  The
calls are at `src/main.rs` 335 and `src/xml.rs` 119, 136, 158, 252, 257, 286 and 292. -/
structure Libraries where
  floats : Xml.FloatText
  emptyIsNone : Bool
  xml : Bytes → Option Xml.Elem
  lossy : Bytes → String

/-- What the tool finds: the files that can be opened with their contents, the outcome of `canonicalize`, and what
the file system does with requests.  Simplifications: the files do not change while the tool runs, and a file that can be opened
can be read to the end.  The calls are at `src/main.rs` 92, 235, 239, 246, 271, 279, 324 and 333. -/
structure World where
  file : FsPath → Option Bytes
  canonical : FsPath → FsPath
  works : List FsOp → FsOp → Bool

/-- A value that is shown on the standard output.  The calls are at `src/main.rs` 163-177, 238, 265, 273,
282-312, 327 and 336. -/
inductive Shown (R : Xml.FloatText) where
  | text (t : List Char)
  | pdb (x : DumpItem)
  | anlz (a : Anlz.AnlzFile)
  | setting (s : Setting)
  | document (d : Xml.Document R)

/-- What a command does: what it shows, the requests to change the file system, and how it ends (nothing: it
does not end within the bound for recursions).  What `src/main.rs` 413-441 returns and does. -/
structure Outcome (R : Xml.FloatText) where
  shown : List (Shown R)
  requests : List FsOp
  result : Option (Res Unit)

/-- Nothing shown.  For instance `src/main.rs` 427. -/
def Outcome.silent {R : Xml.FloatText} (r : Res Unit) : Outcome R := ⟨[], [], some r⟩

/-- `dump_anlz`, `src/main.rs` 270-276.  Showing the value does not panic: no type in it has a `Debug`
implementation of its own in this crate. -/
def dumpAnlz {R : Xml.FloatText} (file : Option Bytes) : Outcome R :=
  match file with
  | none => .silent (.err .io)
  | some bs =>
    match Anlz.AnlzFile.read bs 0 with
    | .ok (a, _) => ⟨[.anlz a], [], some (.ok ())⟩
    | .err e => .silent (.err e)
    | .panic => .silent .panic

/-- `dump_setting`, `src/main.rs` 323-330. -/
def dumpSetting {R : Xml.FloatText} (file : Option Bytes) (t : SettingType) : Outcome R :=
  match file with
  | none => .silent (.err .io)
  | some bs =>
    match Setting.read t bs 0 with
    | .ok (s, _) => ⟨[.setting s], [], some (.ok ())⟩
    | .err e => .silent (.err e)
    | .panic => .silent .panic

/-- `dump_xml`, `src/main.rs` 332-339: `expect` panics if the text is not XML or not a document. -/
def dumpXml (L : Libraries) (file : Option Bytes) : Outcome L.floats :=
  match file with
  | none => .silent (.err .io)
  | some bs =>
    match L.xml bs with
    | none => .silent .panic
    | some e =>
      match Xml.Document.read L.floats L.emptyIsNone e with
      | .ok d => ⟨[.document d], [], some (.ok ())⟩
      | .error _ => .silent .panic

/-- `DeviceExportLoader`: the files of the `PIONEER` directory, `src/device.rs` 53-56. -/
def World.pioneer (w : World) (path : FsPath) : PioneerDir := fun name =>
  w.file ((path.join "PIONEER".toList).join name.toList)

/-- `DeviceExportLoader::open_pdb_non_persistent`, `src/device.rs` 85-88: the path. -/
def exportPdbPath (path : FsPath) : FsPath :=
  ((path.join "PIONEER".toList).join "rekordbox".toList).join "export.pdb".toList

/-- `main`, `src/main.rs` 413-441; `n` bounds the recursions over playlists.  What `export-playlists` shows (the
paths of the files that it creates) is not repeated in `shown`. -/
def runMain (L : Libraries) (n : Nat) (w : World) : Command → Outcome L.floats
  | .listPlaylists path =>
    let r := listPlaylists L.lossy n (w.file path)
    ⟨[.text r.text], [], r.outcome⟩
  | .listSettings path =>
    match listSettings (w.pioneer path) with
    | .ok s => ⟨[.text s.toList], [], some (.ok ())⟩
    | .err e => .silent (.err e)
    | .panic => .silent .panic
  | .exportPlaylists path out =>
    match exportPlaylists n (w.file (exportPdbPath path)) (w.canonical path) out w.works with
    | none => ⟨[], [], none⟩
    | some (ops, r) => ⟨[], ops, some r⟩
  | .dumpPdb path dbType parseUnknownTables =>
    match guessDbType path dbType with
    | .ok (some t) =>
      let r := dumpPdb (w.file path) t parseUnknownTables
      ⟨r.1.map .pdb, [], some r.2⟩
    | .ok none => .silent (.ok ())
    | .err e => .silent (.err e)
    | .panic => .silent .panic
  | .dumpAnlz path => dumpAnlz (w.file path)
  | .dumpSetting path settingType =>
    match guessSettingType path settingType with
    | .ok (some t) => dumpSetting (w.file path) t
    | .ok none => .silent (.ok ())
    | .err e => .silent (.err e)
    | .panic => .silent .panic
  | .dumpXml path => dumpXml L (w.file path)

end Rekordcrate
