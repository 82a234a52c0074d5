import Verif.Model.Device
import Verif.Spec.Database

/-! # Specification vocabulary for the playlist tree -/

namespace Rekordcrate

/-- A fallible function on the elements of a list in order, up to the first failure. -/
def mapRes {α β : Type} (f : α → Res β) : List α → Res (List β)
  | [] => .ok []
  | x :: xs =>
    match f x with
    | .ok y => match mapRes f xs with
      | .ok ys => .ok (y :: ys)
      | r => r
    | .err e => .err e
    | .panic => .panic

/-- The table has a folder with the id `b` whose parent is `a`. -/
def FolderIn (rows : List PlaylistTreeNode) (a b : UInt32) : Prop :=
  ∃ r ∈ rows, r.nodeIsFolder ≠ 0 ∧ r.parentId = a ∧ r.id = b

/-- The folder `b` is below `a`, through one or more folders. -/
inductive Below (rows : List PlaylistTreeNode) : UInt32 → UInt32 → Prop where
  | one {a b : UInt32} (h : FolderIn rows a b) : Below rows a b
  | step {a b c : UInt32} (t : Below rows a b) (h : FolderIn rows b c) : Below rows a c

/-- The root has the id 0; an id can be reached if it is the root or a folder below the root. -/
def Reached (rows : List PlaylistTreeNode) (id : UInt32) : Prop := id = 0 ∨ Below rows 0 id

/-- No folder that can be reached from the root is below itself. -/
def CycleFree (rows : List PlaylistTreeNode) : Prop := ∀ id, Reached rows id → ¬ Below rows id id

/-- No two rows have the same id, and no row has the id of the root. -/
structure ProperIds (rows : List PlaylistTreeNode) : Prop where
  unique : (rows.map PlaylistTreeNode.id).Nodup
  nonzero : ∀ r ∈ rows, r.id ≠ 0

/-- The names of all rows that can be reached are valid text. -/
def NamesValid (rows : List PlaylistTreeNode) : Prop :=
  ∀ r ∈ rows, Reached rows r.parentId → ∃ s, r.name.intoString = .ok s

/-- The node shows the row: same id, its name as text, folder or playlist as the row says. -/
def Shows (r : PlaylistTreeNode) : PlaylistNode → Prop
  | .folder id name _ => r.nodeIsFolder ≠ 0 ∧ id = r.id ∧ r.name.intoString = .ok name
  | .playlist id name => r.nodeIsFolder = 0 ∧ id = r.id ∧ r.name.intoString = .ok name

/-- The list of nodes stands directly below the id in the tree. -/
inductive ListedUnder (tree : List PlaylistNode) : UInt32 → List PlaylistNode → Prop where
  | top : ListedUnder tree 0 tree
  | sub {p id : UInt32} {name : String} {l children : List PlaylistNode} (t : ListedUnder tree p l)
      (h : .folder id name children ∈ l) : ListedUnder tree id children

mutual
/-- All ids in the tree, top down. -/
def PlaylistNode.ids : PlaylistNode → List UInt32
  | .folder id _ children => id :: idsOf children
  | .playlist id _ => [id]
/-- All ids in a list of trees, top down. -/
def idsOf : List PlaylistNode → List UInt32
  | [] => []
  | x :: xs => x.ids ++ idsOf xs
end

/-- `get_playlists` comes to an end with this outcome. -/
def PlaylistsReturn (d : Database) (r : Res (List PlaylistNode)) : Prop := ∃ n, getPlaylists n d = some r

end Rekordcrate
