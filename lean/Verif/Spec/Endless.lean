import Verif.Spec.Device

/-! # Specification of the outcome of loading the playlists, for all tables -/

namespace Rekordcrate

/-- The row has a valid name. -/
def PlaylistTreeNode.Named (r : PlaylistTreeNode) : Prop := ∃ s, r.name.intoString = .ok s

/-- Everything below the id has a valid name, and no folder there is below itself: there is a finite tree. -/
inductive Fine (rows : List PlaylistTreeNode) : UInt32 → Prop where
  | mk {id : UInt32} (names : ∀ r ∈ rows, r.parentId = id → r.Named)
      (folders : ∀ r ∈ rows, r.parentId = id → r.nodeIsFolder ≠ 0 → Fine rows r.id) : Fine rows id

/-- A walk through the rows below `a`, in their order and up to the first problem, goes into the folder `b`: it has a
valid name, and there is nothing wrong with the rows in front of it and what is below them. -/
def Enters (rows : List PlaylistTreeNode) (a b : UInt32) : Prop :=
  ∃ before r after, (rows.filter fun r => r.parentId = a) = before ++ r :: after ∧
    r.nodeIsFolder ≠ 0 ∧ r.id = b ∧ r.Named ∧
    ∀ x ∈ before, x.Named ∧ (x.nodeIsFolder ≠ 0 → Fine rows x.id)

/-- The walk that begins at the root comes to a folder that it then enters again inside of itself. -/
def Endless (rows : List PlaylistTreeNode) : Prop :=
  ∃ id, (id = 0 ∨ Relation.TransGen (Enters rows) 0 id) ∧ Relation.TransGen (Enters rows) id id

end Rekordcrate
