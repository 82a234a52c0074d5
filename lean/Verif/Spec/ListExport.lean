import Verif.Spec.Listing

/-! # Specification vocabulary for comparing `list-playlists` and `export-playlists` -/

namespace Rekordcrate

/-- The playlists among some rows and below the folders among them, in order, with the directory that the names of
the folders lead to. -/
inductive Filed (rows : List PlaylistTreeNode) :
    FsPath → List PlaylistTreeNode → List (PlaylistTreeNode × FsPath) → Prop where
  | nil {dir : FsPath} : Filed rows dir [] []
  | playlist {dir : FsPath} {r : PlaylistTreeNode} {rs : List PlaylistTreeNode} {ps : List (PlaylistTreeNode × FsPath)}
      (h : r.nodeIsFolder = 0) (t : Filed rows dir rs ps) : Filed rows dir (r :: rs) ((r, dir) :: ps)
  | folder {dir : FsPath} {r : PlaylistTreeNode} {rs : List PlaylistTreeNode} {name : String}
      {below ps : List (PlaylistTreeNode × FsPath)} (h : r.nodeIsFolder ≠ 0) (hn : r.name.intoString = .ok name)
      (b : Filed rows (dir.join name.toList) (rows.filter fun s => s.parentId = r.id) below)
      (t : Filed rows dir rs ps) : Filed rows dir (r :: rs) (below ++ ps)

/-- The playlists among listed rows. -/
def playlistsOf (hs : List (Nat × PlaylistTreeNode)) : List PlaylistTreeNode :=
  (hs.map Prod.snd).filter fun r => r.nodeIsFolder = 0

/-- The line for an entry: none if there is no row for the track, otherwise the path in the last row. -/
inductive EntryLine (tracks : List Track) (root : FsPath) (e : UInt32 × UInt32) : List (List Char) → Prop where
  | noTrack (h : rowWith Track.id tracks e.2 = none) : EntryLine tracks root e []
  | path {t : Track} {s : String} (h : rowWith Track.id tracks e.2 = some t)
      (hs : t.offsets.inner.filePath.intoString = .ok s) :
      EntryLine tracks root e [root.join (withoutSlash s.toList)]

end Rekordcrate
