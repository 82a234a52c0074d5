import Verif.Model.Cli

/-! # Model of the command `list-playlists` (`src/main.rs` 88-190) -/

namespace Rekordcrate

/-- What was handed to the standard output, and how it ended; no outcome means that the bound on the recursion
was reached.  Writing to the standard output is assumed to work.  The output of `src/main.rs` 126-186. -/
structure Printed where
  text : List Char
  outcome : Option (Res Unit)
  deriving DecidableEq, Repr

namespace Printed

/-- `print!` of a text.  For instance `src/main.rs` 171. -/
def say (s : String) : Printed := ⟨s.toList, some (.ok ())⟩

/-- One statement after the other.  For instance `src/main.rs` 171-172. -/
def andThen (a b : Printed) : Printed :=
  match a.outcome with
  | some (.ok ()) => ⟨a.text ++ b.text, b.outcome⟩
  | _ => a

/-- Formatting a string with `{}`; `lossy` as in `DString.display`.  Used at `src/main.rs` 148 and 163-168. -/
def showString (lossy : Bytes → String) (s : DString) : Printed :=
  match s.display lossy with
  | .ok t => say t
  | .err e => ⟨[], some (.err e)⟩
  | .panic => ⟨[], some .panic⟩

end Printed

open Printed

/-- `HashMap<ArtistId, Artist>` and `HashMap<TrackId, Track>`, `src/main.rs` 97-98, 108-116: later rows replace
earlier ones. -/
def idMap {α : Type} (key : α → UInt32) (rows : List α) : UInt32 → Option α :=
  rows.foldl (fun m r k => if k = key r then some r else m k) fun _ => none

/-- `print_track`, `src/main.rs` 126-149. -/
def printTrack (lossy : Bytes → String) (artists : UInt32 → Option Artist) (tracks : UInt32 → Option Track)
    (id : UInt32) : Printed :=
  match tracks id with
  | none => say ("<Track for TrackId(" ++ toString id.toNat ++ ") not found>\n")
  | some t =>
    match artists t.artistId with
    | none =>
      (say ("<Artist for ArtistId(" ++ toString t.artistId.toNat ++ ") not found> - ")).andThen
        ((showString lossy t.offsets.inner.title).andThen (say "\n"))
    | some a =>
      (showString lossy a.offsets.inner.name).andThen
        ((say " - ").andThen ((showString lossy t.offsets.inner.title).andThen (say "\n")))

/-- `"    ".repeat(level)`, `src/main.rs` 162. -/
def indentation : Nat → String
  | 0 => ""
  | n + 1 => "    " ++ indentation n

/-- The loop over the entries of a playlist, `src/main.rs` 169-174. -/
def printEntries (lossy : Bytes → String) (artists : UInt32 → Option Artist) (tracks : UInt32 → Option Track)
    (level : Nat) : List (UInt32 × UInt32) → Printed
  | [] => say ""
  | (index, id) :: es =>
    (say (indentation level ++ "  ♫ " ++ toString index.toNat ++ ": ")).andThen
      ((printTrack lossy artists tracks id).andThen (printEntries lossy artists tracks level es))

/-- The closure of `print_children_of`, `src/main.rs` 161-176; `sub` is the recursive call. -/
def printNode (lossy : Bytes → String) (entries : EntryMap) (artists : UInt32 → Option Artist)
    (tracks : UInt32 → Option Track) (sub : UInt32 → Printed) (level : Nat) (r : PlaylistTreeNode) : Printed :=
  (say (indentation level ++ (if r.isFolder then "🗀" else "🗎") ++ " ")).andThen
    ((showString lossy r.name).andThen
      ((say "\n").andThen
        ((match entries r.id with
          | some es => printEntries lossy artists tracks level es
          | none => say "").andThen (sub r.id))))

/-- `for_each` over the children, `src/main.rs` 158-176. -/
def printNodes (lossy : Bytes → String) (entries : EntryMap) (artists : UInt32 → Option Artist)
    (tracks : UInt32 → Option Track) (sub : UInt32 → Printed) (level : Nat) : List PlaylistTreeNode → Printed
  | [] => say ""
  | r :: rs =>
    (printNode lossy entries artists tracks sub level r).andThen
      (printNodes lossy entries artists tracks sub level rs)

/-- `print_children_of`, `src/main.rs` 150-177, with at most `n` calls nested in each other. -/
def printChildren (lossy : Bytes → String) (m : ChildMap) (entries : EntryMap) (artists : UInt32 → Option Artist)
    (tracks : UInt32 → Option Track) : Nat → Nat → UInt32 → Printed
  | 0, _, _ => ⟨[], none⟩
  | n + 1, level, id =>
    printNodes lossy entries artists tracks (printChildren lossy m entries artists tracks n (level + 1)) level
      ((m id).getD [])

/-- The four loops of `list_playlists`, `src/main.rs` 100-124. -/
def listData (d : Database) : Res (List PlaylistTreeNode × List Artist × List Track × List PlaylistEntry) :=
  match d.allRows PlaylistTreeNode with
  | (.err e, _) => .err e
  | (.panic, _) => .panic
  | (.ok nodes, d1) =>
    match d1.allRows Artist with
    | (.err e, _) => .err e
    | (.panic, _) => .panic
    | (.ok artists, d2) =>
      match d2.allRows Track with
      | (.err e, _) => .err e
      | (.panic, _) => .panic
      | (.ok tracks, d3) =>
        match d3.allRows PlaylistEntry with
        | (.err e, _) => .err e
        | (.panic, _) => .panic
        | (.ok entries, _) => .ok (nodes, artists, tracks, entries)

/-- `list_playlists` after the file was opened, `src/main.rs` 95-189. -/
def listPlaylistsOf (lossy : Bytes → String) (n : Nat) (d : Database) : Printed :=
  match listData d with
  | .err e => ⟨[], some (.err e)⟩
  | .panic => ⟨[], some .panic⟩
  | .ok (nodes, artists, tracks, entries) =>
    printChildren lossy (ChildMap.build nodes) (EntryMap.build entries) (idMap Artist.id artists)
      (idMap Track.id tracks) n 0 0

/-- `list_playlists`, `src/main.rs` 88-190; `file` is the content of the file if it can be opened, `n` bounds
the recursion. -/
def listPlaylists (lossy : Bytes → String) (n : Nat) (file : Option Bytes) : Printed :=
  match file with
  | none => ⟨[], some (.err .io)⟩
  | some bs =>
    match Database.openAt bs 0 .plain with
    | .err e => ⟨[], some (.err e)⟩
    | .panic => ⟨[], some .panic⟩
    | .ok d => listPlaylistsOf lossy n d

end Rekordcrate
