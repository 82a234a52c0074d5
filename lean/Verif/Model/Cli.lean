import Verif.Model.Device
import Verif.Model.Path
import Verif.Model.Setting

/-! # Model of the command line tool (`src/main.rs`) -/

namespace Rekordcrate

/-! ## Kinds of files -/

/-- `guess_db_type`, `src/main.rs` 341-374.  The messages are not modelled. -/
def guessDbType (path : FsPath) (dbType : Option String) : Res (Option DatabaseType) := do
  let cli ← match dbType with
    | none => .ok none
    | some s =>
      if s = "plain" then .ok (some DatabaseType.plain)
      else if s = "ext" then .ok (some .ext)
      else .panic
  match path.fileName with
  | none => .ok none
  | some f =>
    let file : Option DatabaseType :=
      if f = "export.pdb".toList then some .plain
      else if f = "exportExt.pdb".toList then some .ext
      else none
    match cli, file with
    | none, none => .ok none
    | none, some g => .ok (some g)
    | some g, none => .ok (some g)
    | some c, some g => if c = g then .ok (some c) else .ok (some c)

/-- `SettingType::from_filename`, `src/setting.rs` 174-182. -/
def SettingType.fromFilename (path : FsPath) : Option SettingType :=
  match path.fileName with
  | none => none
  | some f =>
    if f = "DEVSETTING.DAT".toList then some .devSetting
    else if f = "DJMMYSETTING.DAT".toList then some .djmMySetting
    else if f = "MYSETTING.DAT".toList then some .mySetting
    else if f = "MYSETTING2.DAT".toList then some .mySetting2
    else none

/-- `guess_setting_type`, `src/main.rs` 376-411.  The messages are not modelled. -/
def guessSettingType (path : FsPath) (settingType : Option String) : Res (Option SettingType) := do
  let cli ← match settingType with
    | none => .ok none
    | some s =>
      if s = "devsetting" then .ok (some SettingType.devSetting)
      else if s = "djmmysetting" then .ok (some .djmMySetting)
      else if s = "mysetting" then .ok (some .mySetting)
      else if s = "mysetting2" then .ok (some .mySetting2)
      else .panic
  match path.fileName with
  | none => .ok none
  | some f =>
    match cli, SettingType.fromFilename f with
    | none, none => .ok none
    | none, some g => .ok (some g)
    | some g, none => .ok (some g)
    | some c, some g => if c = g then .ok (some c) else .ok (some c)

/-! ## Exporting playlists -/

/-- A request to the file system, `src/main.rs` 233-250. -/
inductive FsOp where
  /-- `std::fs::create_dir_all(path)`. -/
  | createDirs (path : FsPath)
  /-- `File::create(path)`: an empty file. -/
  | createFile (path : FsPath)
  /-- `export_path.canonicalize()`. -/
  | canonicalize
  /-- `writeln!` to the file that was created last, which has this path. -/
  | writeLine (path : FsPath) (line : List Char)
  deriving DecidableEq, Repr

/-- `BTreeMap<u32, TrackId>` as the list of its entries in order of the keys, `src/main.rs` 205-206:
`insert` replaces the value of a key that is there. -/
def insertEntry (k v : UInt32) : List (UInt32 × UInt32) → List (UInt32 × UInt32)
  | [] => [(k, v)]
  | (k', v') :: l =>
    if k < k' then (k, v) :: (k', v') :: l
    else if k = k' then (k, v) :: l
    else (k', v') :: insertEntry k v l

/-- `HashMap<PlaylistTreeNodeId, BTreeMap<u32, TrackId>>`, `src/main.rs` 205-206. -/
abbrev EntryMap := UInt32 → Option (List (UInt32 × UInt32))

/-- `acc.entry(playlist_id).or_default().insert(entry.0, entry.1)`, `src/main.rs` 208-209. -/
def EntryMap.insert (m : EntryMap) (e : PlaylistEntry) : EntryMap := fun k =>
  if k = e.playlistId then some (insertEntry e.entryIndex e.trackId ((m k).getD [])) else m k

/-- The fold over the entries, `src/main.rs` 201-212. -/
def EntryMap.build (entries : List PlaylistEntry) : EntryMap := entries.foldl EntryMap.insert fun _ => none

/-- `HashMap<TrackId, String>`, `src/main.rs` 214-217: `collect` inserts in order, later values replace
earlier ones. -/
def TrackMap.build (tracks : List (UInt32 × String)) : UInt32 → Option String :=
  tracks.foldl (fun m t k => if k = t.1 then some t.2 else m k) fun _ => none

/-- The text written for a track, `src/main.rs` 244-248; `root` is the canonical export path. -/
def trackLine (root : FsPath) (track : String) : List Char := root.join (stripSlash track.toList)

/-- The closure that `walk_tree` calls for a playlist, `src/main.rs` 233-254: what it asks of the file
system as long as nothing fails.  The output on the terminal is not modelled. -/
def visitOps (entries : EntryMap) (tracks : UInt32 → Option String) (root : FsPath) (id : UInt32) (name : String)
    (path : FsPath) : List FsOp :=
  let file := path.join (name.toList ++ ".m3u".toList)
  .createDirs path :: .createFile file ::
    match entries id with
    | none => []
    | some es => (es.filterMap fun e => tracks e.2).flatMap fun t => [.canonicalize, .writeLine file (trackLine root t)]

mutual
/-- `walk_tree`, `src/main.rs` 219-231, with the requests of the visits in order. -/
def walkTree (visit : UInt32 → String → FsPath → List FsOp) (path : FsPath) : PlaylistNode → List FsOp
  | .folder _ name children => walkTrees visit (path.join name.toList) children
  | .playlist id name => visit id name path
/-- `try_for_each` of `walk_tree`, `src/main.rs` 226-228, 233. -/
def walkTrees (visit : UInt32 → String → FsPath → List FsOp) (path : FsPath) : List PlaylistNode → List FsOp
  | [] => []
  | x :: xs => walkTree visit path x ++ walkTrees visit path xs
end

/-- Requests in order up to the first that fails: those that were made, and the outcome.  `works` says what
the file system does with a request after earlier ones.  The `?` after the requests at `src/main.rs` 235-250. -/
def runOps (works : List FsOp → FsOp → Bool) (done : List FsOp) : List FsOp → List FsOp × Res Unit
  | [] => (done, .ok ())
  | op :: ops =>
    if works done op then runOps works (done ++ [op]) ops
    else (done ++ [op], .err .io)

/-- The data that `export_playlists` collects before it writes, `src/main.rs` 197-217; `n` bounds the
recursion in `get_playlists`. -/
def exportData (n : Nat) (d : Database) :
    Option (Res (List PlaylistNode × List PlaylistEntry × List (UInt32 × String))) :=
  match getPlaylists n d with
  | none => none
  | some (.err e) => some (.err e)
  | some .panic => some .panic
  | some (.ok tree) =>
    let d1 := (d.allRows PlaylistTreeNode).2
    match d1.allRows PlaylistEntry with
    | (.err e, _) => some (.err e)
    | (.panic, _) => some .panic
    | (.ok entries, d2) =>
      match (d2.collectRows Track fun t => do
          let s ← t.offsets.inner.filePath.intoString
          .ok (t.id, s)).1 with
      | .err e => some (.err e)
      | .panic => some .panic
      | .ok tracks => some (.ok (tree, entries, tracks))

/-- `export_playlists`, `src/main.rs` 191-257: the requests made to the file system and the outcome.
`file` is the content of `PIONEER/rekordbox/export.pdb` if it can be opened, `root` the canonical export path.
The output on the terminal is not modelled. -/
def exportPlaylists (n : Nat) (file : Option Bytes) (root out : FsPath) (works : List FsOp → FsOp → Bool) :
    Option (List FsOp × Res Unit) :=
  match file with
  | none => some ([], .err .io)
  | some bs =>
    match Database.openAt bs 0 .plain with
    | .err e => some ([], .err e)
    | .panic => some ([], .panic)
    | .ok d =>
      match exportData n d with
      | none => none
      | some (.err e) => some ([], .err e)
      | some .panic => some ([], .panic)
      | some (.ok (tree, entries, tracks)) =>
        some (runOps works []
          (walkTrees (visitOps (EntryMap.build entries) (TrackMap.build tracks) root) out tree))

end Rekordcrate
