import Verif.Model.Database

/-! # Model of the playlist tree (`src/device.rs` 494-565) -/

namespace Rekordcrate

namespace RowIterator

theorem next_measure {α : Type} [RowVariant α] (it : RowIterator) {x : Nat × UInt16 × α} {it' : RowIterator}
    (h : it.next α = (.ok (some x), it')) :
    it'.pages.len < it.pages.len ∨ (it'.pages.len = it.pages.len ∧ it'.rest.length < it.rest.length) := by
  fun_induction RowIterator.next α it with
  | case1 it k r rest hr a ha =>
    injection h with _ h
    subst h
    exact .inr ⟨rfl, by simp [hr]⟩
  | case2 it k r rest hr ha => cases h
  | case3 it hr pages hp => cases h
  | case4 it hr e pages hp => cases h
  | case5 it hr pages hp => cases h
  | case6 it hr slot pages hp ih =>
    have h1 := PageIterator.next_len hp
    rcases ih h with h2 | h2
    · exact .inl (Nat.lt_trans h2 h1)
    · exact .inl (by rw [h2.1]; exact h1)

/-- Calling `next` and a fallible function on the row, until `next` returns `None` or something fails: the
loop in `map`, `for_each`, `fold` and `collect` of `fallible_iterator`.  The results, and the iterator
afterwards.  The loops at `src/device.rs` 528-534 and `src/main.rs` 100-124 and 202-217. -/
def collect (α : Type) [RowVariant α] {β : Type} (f : α → Res β) (it : RowIterator) : Res (List β) × RowIterator :=
  match _h : it.next α with
  | (.ok none, it') => (.ok [], it')
  | (.ok (some x), it') =>
    match f x.2.2 with
    | .ok y =>
      match collect α f it' with
      | (.ok ys, it'') => (.ok (y :: ys), it'')
      | r => r
    | .err e => (.err e, it')
    | .panic => (.panic, it')
  | (.err e, it') => (.err e, it')
  | (.panic, it') => (.panic, it')
termination_by (it.pages.len, it.rest.length)
decreasing_by
  rcases next_measure it _h with h | ⟨h1, h2⟩
  · exact Prod.Lex.left _ _ h
  · rw [← h1]
    exact Prod.Lex.right _ h2

end RowIterator

/-- `db.iter_rows::<α>()?` followed by a loop over all rows, as in `src/device.rs` 528-534 and
`src/main.rs` 98-127, 201-217: the results, and the database when the borrow of the iterator ends. -/
def Database.collectRows (d : Database) (α : Type) [RowVariant α] {β : Type} (f : α → Res β) :
    Res (List β) × Database :=
  match d.iterRows α with
  | .ok it => ((it.collect α f).1, d.after (it.collect α f).2.pages)
  | .err e => (.err e, d)
  | .panic => (.panic, d)

/-- The loop with a body that only keeps the row.  The loop is that of `src/main.rs` 108-116. -/
def Database.allRows (d : Database) (α : Type) [RowVariant α] : Res (List α) × Database :=
  d.collectRows α Res.ok

/-- `PlaylistNode`, `PlaylistFolder`, `Playlist`, `src/device.rs` 497-522. -/
inductive PlaylistNode where
  | folder (id : UInt32) (name : String) (children : List PlaylistNode)
  | playlist (id : UInt32) (name : String)
  deriving Repr

/-- `HashMap<PlaylistTreeNodeId, Vec<PlaylistTreeNode>>`, `src/device.rs` 526: only looked up, so a function. -/
abbrev ChildMap := UInt32 → Option (List PlaylistTreeNode)

/-- `playlists.entry(node.parent_id).or_default().push(node.clone())`, `src/device.rs` 529-532. -/
def ChildMap.push (m : ChildMap) (r : PlaylistTreeNode) : ChildMap := fun k =>
  if k = r.parentId then some ((m k).getD [] ++ [r]) else m k

/-- The loop of `get_playlists`, `src/device.rs` 526-534. -/
def ChildMap.build (rows : List PlaylistTreeNode) : ChildMap := rows.foldl ChildMap.push fun _ => none

/-- The closure of `get_child_nodes`, `src/device.rs` 544-560; `sub` is the recursive call.  `none` means
that the recursive call does not come to an end. -/
def nodeOf (sub : UInt32 → Option (Res (List PlaylistNode))) (r : PlaylistTreeNode) : Option (Res PlaylistNode) :=
  if r.isFolder then
    match r.name.intoString with
    | .ok name =>
      match sub r.id with
      | some (.ok children) => some (.ok (.folder r.id name children))
      | some (.err e) => some (.err e)
      | some .panic => some .panic
      | none => none
    | .err e => some (.err e)
    | .panic => some .panic
  else
    match r.name.intoString with
    | .ok name => some (.ok (.playlist r.id name))
    | .err e => some (.err e)
    | .panic => some .panic

/-- `collect::<Result<Vec<_>>>()` over the mapped rows, `src/device.rs` 550, 564: stops at the first error. -/
def collectNodes (sub : UInt32 → Option (Res (List PlaylistNode))) :
    List PlaylistTreeNode → Option (Res (List PlaylistNode))
  | [] => some (.ok [])
  | r :: rs =>
    match nodeOf sub r with
    | some (.ok x) =>
      match collectNodes sub rs with
      | some (.ok xs) => some (.ok (x :: xs))
      | o => o
    | some (.err e) => some (.err e)
    | some .panic => some .panic
    | none => none

/-- `get_child_nodes` and the `collect` of its result, `src/device.rs` 536-564, with at most `n` calls
nested in each other: `none` if more are needed.  The depth of the stack is not modelled otherwise. -/
def childNodes (m : ChildMap) : Nat → UInt32 → Option (Res (List PlaylistNode))
  | 0, _ => none
  | n + 1, id => collectNodes (childNodes m n) ((m id).getD [])

/-- `get_playlists`, `src/device.rs` 525-565, with at most `n` nested calls of `get_child_nodes`. -/
def getPlaylists (n : Nat) (d : Database) : Option (Res (List PlaylistNode)) :=
  match (d.allRows PlaylistTreeNode).1 with
  | .ok rows => childNodes (ChildMap.build rows) n 0
  | .err e => some (.err e)
  | .panic => some .panic

end Rekordcrate
