import Verif.Model.Cli
import Verif.Spec.Device

/-! # Specification vocabulary for the command line tool -/

namespace Rekordcrate

/-! ## Exported playlists -/

mutual
/-- The playlists in a tree, in order, with the directory they are exported to. -/
def PlaylistNode.exported (dir : FsPath) : PlaylistNode → List (UInt32 × String × FsPath)
  | .folder _ name children => exportedOf (dir.join name.toList) children
  | .playlist id name => [(id, name, dir)]
/-- The playlists in a list of trees. -/
def exportedOf (dir : FsPath) : List PlaylistNode → List (UInt32 × String × FsPath)
  | [] => []
  | x :: xs => x.exported dir ++ exportedOf dir xs
end

/-- The file of a playlist. -/
def playlistFile (name : String) (dir : FsPath) : FsPath := dir.join (name ++ ".m3u").toList

/-- The track at index `i` of a playlist: the last row with the playlist and the index counts. -/
def trackAt (entries : List PlaylistEntry) (playlist i : UInt32) : Option UInt32 :=
  ((entries.filter fun e => e.playlistId = playlist ∧ e.entryIndex = i).getLast?).map PlaylistEntry.trackId

/-- The path of a track: the last row with the id counts. -/
def pathOf (tracks : List (UInt32 × String)) (id : UInt32) : Option String :=
  ((tracks.filter fun t => t.1 = id).getLast?).map Prod.snd

/-- A path without the slash it may begin with. -/
def withoutSlash (p : List Char) : List Char := if p.head? = some '/' then p.tail else p

/-- The lines belong in the file of the playlist: there is a list of all its indices and tracks in increasing
order of the indices, and the lines are the paths of these tracks, without those that do not exist. -/
def LinesOf (entries : List PlaylistEntry) (tracks : List (UInt32 × String)) (root : FsPath) (playlist : UInt32)
    (lines : List (List Char)) : Prop :=
  ∃ l : List (UInt32 × UInt32), l.Pairwise (fun a b => a.1 < b.1) ∧
    (∀ i t, (i, t) ∈ l ↔ trackAt entries playlist i = some t) ∧
    lines = l.filterMap fun x => (pathOf tracks x.2).map fun s => root.join (withoutSlash s.toList)

/-- What a request does to the lines in a file; `none` if the file was not created. -/
def FsOp.effect (path : FsPath) (lines : Option (List (List Char))) : FsOp → Option (List (List Char))
  | .createFile p => if p = path then some [] else lines
  | .writeLine p line => if p = path then lines.map (· ++ [line]) else lines
  | _ => lines

/-- The lines in a file after some requests. -/
def linesIn (path : FsPath) (ops : List FsOp) : Option (List (List Char)) := ops.foldl (FsOp.effect path) none

/-! ## Paths -/

/-- `..` is a component of the path. -/
def HasDotDot (p : FsPath) : Prop :=
  ∃ a b, p = a ++ '.' :: '.' :: b ∧ (a = [] ∨ a.getLast? = some '/') ∧ (b = [] ∨ b.head? = some '/')

/-- The path is the directory or continues it with components other than `..`. -/
def Inside (dir p : FsPath) : Prop :=
  ∃ rest, p = dir ++ rest ∧ ¬ HasDotDot rest ∧
    (rest = [] ∨ (dir = [] ∧ rest.head? ≠ some '/') ∨
      (dir ≠ [] ∧ (dir.getLast? = some '/' ∨ rest.head? = some '/')))

/-- The text can be appended to a path without leaving it. -/
def StaysBelow (p : FsPath) : Prop := p.head? ≠ some '/' ∧ ¬ HasDotDot p

/-- The names in a tree do not lead out of a directory. -/
def HarmlessNames (tree : List PlaylistNode) : Prop :=
  ∀ id l, ListedUnder tree id l → ∀ x ∈ l, match x with
    | .folder _ name _ => StaysBelow name.toList
    | .playlist _ name => StaysBelow (name ++ ".m3u").toList

/-- The path a request is about. -/
def FsOp.path? : FsOp → Option FsPath
  | .createDirs p => some p
  | .createFile p => some p
  | .canonicalize => none
  | .writeLine p _ => some p

end Rekordcrate
