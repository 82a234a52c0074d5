import Verif.Model.Listing
import Verif.Spec.Cli

/-! # Specification vocabulary for `list-playlists` -/

namespace Rekordcrate

/-- The table has a node with the id `b`, folder or not, whose parent is `a`. -/
def NodeIn (rows : List PlaylistTreeNode) (a b : UInt32) : Prop := ∃ r ∈ rows, r.parentId = a ∧ r.id = b

/-- The node `b` is below `a`, through one or more nodes. -/
inductive Under (rows : List PlaylistTreeNode) : UInt32 → UInt32 → Prop where
  | one {a b : UInt32} (h : NodeIn rows a b) : Under rows a b
  | step {a b c : UInt32} (t : Under rows a b) (h : NodeIn rows b c) : Under rows a c

/-- The id is the root or that of a node below the root. -/
def Linked (rows : List PlaylistTreeNode) (id : UInt32) : Prop := id = 0 ∨ Under rows 0 id

/-- The rows in the order in which a tree is read, with their depth: below every row stand, one level deeper,
the rows that have it as parent, in the order of the table. -/
inductive Outline (rows : List PlaylistTreeNode) : Nat → List PlaylistTreeNode → List (Nat × PlaylistTreeNode) → Prop where
  | nil {depth : Nat} : Outline rows depth [] []
  | cons {depth : Nat} {r : PlaylistTreeNode} {rs : List PlaylistTreeNode} {below rest : List (Nat × PlaylistTreeNode)}
      (h : Outline rows (depth + 1) (rows.filter fun s => s.parentId = r.id) below) (t : Outline rows depth rs rest) :
      Outline rows depth (r :: rs) ((depth, r) :: (below ++ rest))

/-- The last row with an id. -/
def rowWith {α : Type} (key : α → UInt32) (rows : List α) (id : UInt32) : Option α :=
  (rows.filter fun r => key r = id).getLast?

/-- The line for a track, without what stands before it. -/
inductive TrackText (lossy : Bytes → String) (artists : List Artist) (tracks : List Track) (id : UInt32) :
    String → Prop where
  | full {t : Track} {a : Artist} {title name : String} (ht : rowWith Track.id tracks id = some t)
      (ha : rowWith Artist.id artists t.artistId = some a) (h1 : t.offsets.inner.title.display lossy = .ok title)
      (h2 : a.offsets.inner.name.display lossy = .ok name) :
      TrackText lossy artists tracks id (name ++ " - " ++ title)
  | noArtist {t : Track} {title : String} (ht : rowWith Track.id tracks id = some t)
      (ha : rowWith Artist.id artists t.artistId = none) (h1 : t.offsets.inner.title.display lossy = .ok title) :
      TrackText lossy artists tracks id
        ("<Artist for ArtistId(" ++ toString t.artistId.toNat ++ ") not found> - " ++ title)
  | noTrack (ht : rowWith Track.id tracks id = none) :
      TrackText lossy artists tracks id ("<Track for TrackId(" ++ toString id.toNat ++ ") not found>")

/-- The entries of a playlist: every index with its track, in increasing order of the indices. -/
def EntriesOf (entries : List PlaylistEntry) (playlist : UInt32) (l : List (UInt32 × UInt32)) : Prop :=
  l.Pairwise (fun a b => a.1 < b.1) ∧ ∀ i t, (i, t) ∈ l ↔ trackAt entries playlist i = some t

/-- Four blanks for every level. -/
def blanks (depth : Nat) : String := String.ofList (List.replicate (4 * depth) ' ')

/-- The lines for a node: its name behind a sign for folders or playlists, and a line for every entry. -/
def NodeText (lossy : Bytes → String) (artists : List Artist) (tracks : List Track) (entries : List PlaylistEntry)
    (x : Nat × PlaylistTreeNode) (lines : List String) : Prop :=
  ∃ name l texts, x.2.name.display lossy = .ok name ∧ EntriesOf entries x.2.id l ∧
    Pointwise (fun e t => ∃ s, TrackText lossy artists tracks e.2 s ∧
      t = blanks x.1 ++ "  ♫ " ++ toString e.1.toNat ++ ": " ++ s) l texts ∧
    lines = (blanks x.1 ++ (if x.2.nodeIsFolder = 0 then "🗎" else "🗀") ++ " " ++ name) :: texts

/-- Lines as text. -/
def linesText (lines : List String) : List Char := lines.flatMap fun s => s.toList ++ ['\n']

/-- A string that can be displayed. -/
def Displayable (lossy : Bytes → String) (s : DString) : Prop := ∃ t, s.display lossy = .ok t

/-- `list_playlists` comes to an end with this outcome. -/
def ListingReturns (lossy : Bytes → String) (d : Database) (p : List Char × Res Unit) : Prop :=
  ∃ n, listPlaylistsOf lossy n d = ⟨p.1, some p.2⟩

end Rekordcrate
