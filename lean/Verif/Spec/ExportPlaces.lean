import Verif.Spec.ExportPath

/-! # Specification vocabulary for playlists that are exported to different files -/

namespace Rekordcrate

/-- The names can be names of files and directories: none is empty and none contains a separator. -/
def FileNames (names : List FsPath) : Prop := ∀ x ∈ names, x ≠ [] ∧ '/' ∉ x

/-- Two nodes are not both folders or both playlists with the same name. -/
def Differ : PlaylistNode → PlaylistNode → Prop
  | .folder _ a _, .folder _ b _ => a ≠ b
  | .playlist _ a, .playlist _ b => a ≠ b
  | _, _ => True

/-- The rows of the playlist table have names that can be names of files, and no two folders and no two playlists in the
same folder have the same name. -/
structure NamedApart (rows : List PlaylistTreeNode) : Prop where
  names : ∀ r ∈ rows, ∀ s, r.name.intoString = .ok s → '/' ∉ s.toList ∧ (r.nodeIsFolder ≠ 0 → s ≠ "")
  apart : rows.Pairwise fun r s => r.parentId = s.parentId → (r.nodeIsFolder = 0 ↔ s.nodeIsFolder = 0) →
    ∀ t, r.name.intoString = .ok t → s.name.intoString ≠ .ok t

end Rekordcrate
