import Verif.Model.Wrap
import Verif.Model.WrapAnlzFile
import Verif.Model.Main

/-! # Model of the iterator over rows and of the command line tool in builds without overflow checks

As in `Verif/Model/Database.lean`, `Device.lean`, `Listing.lean`, `Cli.lean`, `Dump.lean` and `Main.lean`, with the
readers of `Verif/Model/Wrap.lean` and `WrapAnlzFile.lean`.  What is only repeated there without arithmetic
(settings, XML, printing, requests to the file system) is used as it is.  In `print_children_of` the level is an
`u32` that grows with the depth of the recursion (`src/main.rs` 175); as in the other model it has no bound. -/

namespace Rekordcrate

theorem PageIterator.nextWrap_len {it it' : PageIterator} {slot : Nat} (h : it.nextWrap = (.ok (some slot), it')) :
    it'.len < it.len := by
  unfold nextWrap at h
  split at h
  · cases h
  · split at h
    · cases h
    · simp only at h
      split at h
      · cases h
      · split at h
        · cases h
        · split at h
          · cases h
          · injection h with _ h
            subst h
            simp only
            omega
          · split at h
            · injection h with _ h
              subst h
              simp only
              omega
            · cases h
            · cases h

namespace RowIterator

/-- `next` of the iterator that `iter_rows` returns, `src/pdb/io.rs` 172-184. -/
def nextWrap (α : Type) [RowVariant α] (it : RowIterator) : Res (Option (Nat × UInt16 × α)) × RowIterator :=
  match it.rest with
  | (k, r) :: rest =>
    match RowVariant.fromRow (α := α) r with
    | some a => (.ok (some (it.slot, k, a)), { it with rest })
    | none => (.panic, { it with rest })
  | [] =>
    match h : it.pages.nextWrap with
    | (.ok none, pages) => (.ok none, { it with pages })
    | (.err e, pages) => (.err e, { it with pages })
    | (.panic, pages) => (.panic, { it with pages })
    | (.ok (some slot), pages) =>
      nextWrap α { pages, slot, rest := (pages.pages.getD slot .notLoaded).rows }
termination_by it.pages.len
decreasing_by exact PageIterator.nextWrap_len h

theorem nextWrap_measure {α : Type} [RowVariant α] (it : RowIterator) {x : Nat × UInt16 × α} {it' : RowIterator}
    (h : it.nextWrap α = (.ok (some x), it')) :
    it'.pages.len < it.pages.len ∨ (it'.pages.len = it.pages.len ∧ it'.rest.length < it.rest.length) := by
  fun_induction RowIterator.nextWrap α it with
  | case1 it k r rest hr a ha =>
    injection h with _ h
    subst h
    exact .inr ⟨rfl, by simp [hr]⟩
  | case2 it k r rest hr ha => cases h
  | case3 it hr pages hp => cases h
  | case4 it hr e pages hp => cases h
  | case5 it hr pages hp => cases h
  | case6 it hr slot pages hp ih =>
    have h1 := PageIterator.nextWrap_len hp
    rcases ih h with h2 | h2
    · exact .inl (Nat.lt_trans h2 h1)
    · exact .inl (by rw [h2.1]; exact h1)

/-- The loops over rows at `src/device.rs` 528-534 and `src/main.rs` 100-124 and 202-217. -/
def collectWrap (α : Type) [RowVariant α] {β : Type} (f : α → Res β) (it : RowIterator) :
    Res (List β) × RowIterator :=
  match _h : it.nextWrap α with
  | (.ok none, it') => (.ok [], it')
  | (.ok (some x), it') =>
    match f x.2.2 with
    | .ok y =>
      match collectWrap α f it' with
      | (.ok ys, it'') => (.ok (y :: ys), it'')
      | r => r
    | .err e => (.err e, it')
    | .panic => (.panic, it')
  | (.err e, it') => (.err e, it')
  | (.panic, it') => (.panic, it')
termination_by (it.pages.len, it.rest.length)
decreasing_by
  rcases nextWrap_measure it _h with h | ⟨h1, h2⟩
  · exact Prod.Lex.left _ _ h
  · rw [← h1]
    exact Prod.Lex.right _ h2

end RowIterator

/-- `db.iter_rows::<α>()?` followed by a loop over all rows, as in `src/device.rs` 528-534 and
`src/main.rs` 98-127, 201-217. -/
def Database.collectRowsWrap (d : Database) (α : Type) [RowVariant α] {β : Type} (f : α → Res β) :
    Res (List β) × Database :=
  match d.iterRows α with
  | .ok it => ((it.collectWrap α f).1, d.after (it.collectWrap α f).2.pages)
  | .err e => (.err e, d)
  | .panic => (.panic, d)

/-- The loop with a body that only keeps the row.  The loop is that of `src/main.rs` 108-116. -/
def Database.allRowsWrap (d : Database) (α : Type) [RowVariant α] : Res (List α) × Database :=
  d.collectRowsWrap α Res.ok

/-- `get_playlists`, `src/device.rs` 525-565. -/
def getPlaylistsWrap (n : Nat) (d : Database) : Option (Res (List PlaylistNode)) :=
  match (d.allRowsWrap PlaylistTreeNode).1 with
  | .ok rows => childNodes (ChildMap.build rows) n 0
  | .err e => some (.err e)
  | .panic => some .panic

/-- The four loops of `list_playlists`, `src/main.rs` 100-124. -/
def listDataWrap (d : Database) : Res (List PlaylistTreeNode × List Artist × List Track × List PlaylistEntry) :=
  match d.allRowsWrap PlaylistTreeNode with
  | (.err e, _) => .err e
  | (.panic, _) => .panic
  | (.ok nodes, d1) =>
    match d1.allRowsWrap Artist with
    | (.err e, _) => .err e
    | (.panic, _) => .panic
    | (.ok artists, d2) =>
      match d2.allRowsWrap Track with
      | (.err e, _) => .err e
      | (.panic, _) => .panic
      | (.ok tracks, d3) =>
        match d3.allRowsWrap PlaylistEntry with
        | (.err e, _) => .err e
        | (.panic, _) => .panic
        | (.ok entries, _) => .ok (nodes, artists, tracks, entries)

/-- `list_playlists` after the file was opened, `src/main.rs` 95-189. -/
def listPlaylistsOfWrap (lossy : Bytes → String) (n : Nat) (d : Database) : Printed :=
  match listDataWrap d with
  | .err e => ⟨[], some (.err e)⟩
  | .panic => ⟨[], some .panic⟩
  | .ok (nodes, artists, tracks, entries) =>
    printChildren lossy (ChildMap.build nodes) (EntryMap.build entries) (idMap Artist.id artists)
      (idMap Track.id tracks) n 0 0

/-- `list_playlists`, `src/main.rs` 88-190. -/
def listPlaylistsWrap (lossy : Bytes → String) (n : Nat) (file : Option Bytes) : Printed :=
  match file with
  | none => ⟨[], some (.err .io)⟩
  | some bs =>
    match Database.openAt bs 0 .plain with
    | .err e => ⟨[], some (.err e)⟩
    | .panic => ⟨[], some .panic⟩
    | .ok d => listPlaylistsOfWrap lossy n d

/-- The data that `export_playlists` collects before it writes, `src/main.rs` 197-217. -/
def exportDataWrap (n : Nat) (d : Database) :
    Option (Res (List PlaylistNode × List PlaylistEntry × List (UInt32 × String))) :=
  match getPlaylistsWrap n d with
  | none => none
  | some (.err e) => some (.err e)
  | some .panic => some .panic
  | some (.ok tree) =>
    let d1 := (d.allRowsWrap PlaylistTreeNode).2
    match d1.allRowsWrap PlaylistEntry with
    | (.err e, _) => some (.err e)
    | (.panic, _) => some .panic
    | (.ok entries, d2) =>
      match (d2.collectRowsWrap Track fun t => do
          let s ← t.offsets.inner.filePath.intoString
          .ok (t.id, s)).1 with
      | .err e => some (.err e)
      | .panic => some .panic
      | .ok tracks => some (.ok (tree, entries, tracks))

/-- `export_playlists`, `src/main.rs` 191-257. -/
def exportPlaylistsWrap (n : Nat) (file : Option Bytes) (root out : FsPath) (works : List FsOp → FsOp → Bool) :
    Option (List FsOp × Res Unit) :=
  match file with
  | none => some ([], .err .io)
  | some bs =>
    match Database.openAt bs 0 .plain with
    | .err e => some ([], .err e)
    | .panic => some ([], .panic)
    | .ok d =>
      match exportDataWrap n d with
      | none => none
      | some (.err e) => some ([], .err e)
      | some .panic => some ([], .panic)
      | some (.ok (tree, entries, tracks)) =>
        some (runOps works []
          (walkTrees (visitOps (EntryMap.build entries) (TrackMap.build tracks) root) out tree))

/-- The loop of `dump_table`, `src/main.rs` 286-301. -/
def dumpPagesWrap (it : PageIterator) : List DumpItem × Res Unit × PageIterator :=
  match h : it.nextWrap with
  | (.ok none, it') => ([], .ok (), it')
  | (.err e, it') => ([], .err e, it')
  | (.panic, it') => ([], .panic, it')
  | (.ok (some slot), it') =>
    match it'.pages[slot]? with
    | some (.loaded pg) =>
      match printItems (pageItems pg) with
      | (l, .ok ()) =>
        let r := dumpPagesWrap it'
        (l ++ r.1, r.2)
      | (l, .err e) => (l, .err e, it')
      | (l, .panic) => (l, .panic, it')
    | _ => ([], .panic, it')
termination_by it.len
decreasing_by exact PageIterator.nextWrap_len h

/-- `dump_table`, `src/main.rs` 284-303. -/
def dumpTableWrap (d : Database) (i : Nat) : List DumpItem × Res Unit × Database :=
  match d.iterPagesForTable i with
  | .err e => ([], .err e, d)
  | .panic => ([], .panic, d)
  | .ok it => ((dumpPagesWrap it).1, (dumpPagesWrap it).2.1, d.after (dumpPagesWrap it).2.2)

/-- The loop over the tables, `src/main.rs` 306-319. -/
def dumpTablesWrap (parseUnknown : Bool) (i : Nat) : List Table → Database → List DumpItem × Res Unit
  | [], _ => ([], .ok ())
  | t :: ts, d =>
    if t.pageType.isUnknown && !parseUnknown then
      let r := dumpTablesWrap parseUnknown (i + 1) ts d
      (.table i t.pageType :: .skipped :: r.1, r.2)
    else
      match dumpTableWrap d i with
      | (l, .ok (), d') =>
        let r := dumpTablesWrap parseUnknown (i + 1) ts d'
        (.table i t.pageType :: (l ++ r.1), r.2)
      | (l, .err e, d') =>
        let r := dumpTablesWrap parseUnknown (i + 1) ts d'
        (.table i t.pageType :: (l ++ .failed i e :: r.1), r.2)
      | (l, .panic, _) => (.table i t.pageType :: l, .panic)

/-- `dump_pdb`, `src/main.rs` 278-322. -/
def dumpPdbWrap (file : Option Bytes) (db : DatabaseType) (parseUnknown : Bool) : List DumpItem × Res Unit :=
  match file with
  | none => ([], .err .io)
  | some bs =>
    match Database.openAt bs 0 db with
    | .err e => ([], .err e)
    | .panic => ([], .panic)
    | .ok d =>
      let r := dumpTablesWrap parseUnknown 0 d.content.header.tables d
      (.header d.content.header :: r.1, r.2)

/-- `dump_anlz`, `src/main.rs` 270-276. -/
def dumpAnlzWrap {R : Xml.FloatText} (file : Option Bytes) : Outcome R :=
  match file with
  | none => .silent (.err .io)
  | some bs =>
    match Anlz.AnlzFile.readWrap bs 0 with
    | .ok (a, _) => ⟨[.anlz a], [], some (.ok ())⟩
    | .err e => .silent (.err e)
    | .panic => .silent .panic

/-- `main`, `src/main.rs` 413-441: the commands that read settings and XML are those of `runMain`. -/
def runMainWrap (L : Libraries) (n : Nat) (w : World) : Command → Outcome L.floats
  | .listPlaylists path =>
    let r := listPlaylistsWrap L.lossy n (w.file path)
    ⟨[.text r.text], [], r.outcome⟩
  | .exportPlaylists path out =>
    match exportPlaylistsWrap n (w.file (exportPdbPath path)) (w.canonical path) out w.works with
    | none => ⟨[], [], none⟩
    | some (ops, r) => ⟨[], ops, some r⟩
  | .dumpPdb path dbType parseUnknownTables =>
    match guessDbType path dbType with
    | .ok (some t) =>
      let r := dumpPdbWrap (w.file path) t parseUnknownTables
      ⟨r.1.map .pdb, [], some r.2⟩
    | .ok none => .silent (.ok ())
    | .err e => .silent (.err e)
    | .panic => .silent .panic
  | .dumpAnlz path => dumpAnlzWrap (w.file path)
  | .listSettings path => runMain L n w (.listSettings path)
  | .dumpSetting path settingType => runMain L n w (.dumpSetting path settingType)
  | .dumpXml path => runMain L n w (.dumpXml path)

end Rekordcrate
