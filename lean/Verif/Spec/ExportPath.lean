import Verif.Spec.Cli

/-! # Specification vocabulary for the paths of exported playlists -/

namespace Rekordcrate

mutual
/-- For each playlist in a tree, in order: the names of the folders that it is in, from the outermost, and the
name of its file. -/
def PlaylistNode.ways : PlaylistNode → List (List FsPath)
  | .folder _ name children => (waysOf children).map (name.toList :: ·)
  | .playlist _ name => [[(name ++ ".m3u").toList]]
/-- The same for a list of trees. -/
def waysOf : List PlaylistNode → List (List FsPath)
  | [] => []
  | x :: xs => x.ways ++ waysOf xs
end

/-- No name begins with a slash. -/
def RelativeNames (names : List FsPath) : Prop := ∀ x ∈ names, x.head? ≠ some '/'

/-- No name has `..` as a component. -/
def NoDotDot (names : List FsPath) : Prop := ∀ x ∈ names, ¬ HasDotDot x

end Rekordcrate
