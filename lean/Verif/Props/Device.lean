import Verif.Lemmas.Device
import Verif.Props.RowIter

/-! # C57, C58: the playlist tree -/

namespace Rekordcrate

/-! ## The rows of the table -/

/-- C58, C59: for a table with a well-formed chain whose rows are of the type of the table, a loop over
`iter_rows` sees the rows of the data pages of the chain in order; the pages look the same afterwards. -/
theorem collect_rows_of_chain {α β : Type} [RowVariant α] (hα : RowVariant.Lawful α) (f : α → Res β) {d : Database}
    {k : Nat} {t : Table} (ht : d.content.header.findTable (RowVariant.pageType α) = some (k, t))
    {l : List (Nat × Page)} (hc : d.Chain t.lastPage.val.toNat t.firstPage.val.toNat l)
    (hf : ∀ x ∈ rowsOf l, x.2.2.Fits (RowVariant.pageType α)) :
    ∃ rows, Pointwise (fun x r => RowVariant.fromRow x.2.2 = some r) (rowsOf l) rows ∧
      (d.collectRows α f).1 = mapRes f rows ∧
      ((∃ ys, mapRes f rows = .ok ys) → (d.collectRows α f).2.content.header = d.content.header ∧
        ∀ n, 1 ≤ n → (d.collectRows α f).2.view n = d.view n) := by
  obtain ⟨it, rows, it', h1, h2, h3, h4⟩ := row_iteration_exact hα ht hc hf
  obtain ⟨h5, h6⟩ := RowIterator.collect_of_runs f h2
  refine ⟨rows.map fun x => x.2.2, ?_, ?_, ?_⟩
  · clear h1 h2 h5 h6
    generalize rowsOf l = xs at h3
    induction h3 with
    | nil => exact .nil
    | cons h _ ih => exact .cons h.2.2 ih
  · unfold Database.collectRows
    rw [h1]
    exact h5
  · intro hy
    have h6 := h6 hy
    unfold Database.collectRows
    rw [h1]
    simp only
    rw [h6]
    exact ⟨rfl, h4⟩

/-- C58: the same for a database straight from a file. -/
theorem all_rows_of_file {α : Type} [RowVariant α] (hα : RowVariant.Lawful α) {d : Database} {k : Nat}
    {t : Table} (ht : d.content.header.findTable (RowVariant.pageType α) = some (k, t)) {l : List (Nat × Page)}
    (hc : d.Chain t.lastPage.val.toNat t.firstPage.val.toNat l)
    (hn : ∀ x ∈ d.content.pages, x = .notLoaded)
    (hp : ∀ x ∈ l, x.2.header.pageType = RowVariant.pageType α) :
    ∃ rows, (d.allRows α).1 = .ok rows ∧
      Pointwise (fun x r => RowVariant.fromRow x.2.2 = some r) (rowsOf l) rows ∧
      (d.allRows α).2.content.header = d.content.header ∧ ∀ n, 1 ≤ n → (d.allRows α).2.view n = d.view n := by
  obtain ⟨rows, h1, h2, h3⟩ := collect_rows_of_chain hα Res.ok ht hc (chain_rows_fit hc hn hp)
  rw [mapRes_ok] at h2 h3
  exact ⟨rows, h2, h1, h3 ⟨_, rfl⟩⟩

/-! ## C57 -/

/-- C57, what holds: `get_playlists` returns if the rows cannot be read, or if no folder that can be reached
from the root is below itself.  Missing: it does not return on the other tables, see
`get_playlists_diverges`. -/
theorem get_playlists_terminates_partial (d : Database)
    (h : ∀ rows, (d.allRows PlaylistTreeNode).1 = .ok rows → CycleFree rows) : ∃ r, PlaylistsReturn d r := by
  cases hr : (d.allRows PlaylistTreeNode).1 with
  | ok rows =>
    have h1 := childNodes_isSome (h rows hr) (id := 0) (.inl rfl) (Nat.lt_succ_self _)
    obtain ⟨r, h2⟩ := Option.isSome_iff_exists.1 h1
    exact ⟨r, belowCount rows 0 + 1, by unfold getPlaylists; rw [hr]; exact h2⟩
  | err e => exact ⟨.err e, 0, by unfold getPlaylists; rw [hr]⟩
  | panic => exact ⟨.panic, 0, by unfold getPlaylists; rw [hr]⟩

/-- C57: with valid names this is exact: `get_playlists` returns if and only if no folder that can be
reached from the root is below itself. -/
theorem get_playlists_terminates_iff {d : Database} {rows : List PlaylistTreeNode}
    (hr : (d.allRows PlaylistTreeNode).1 = .ok rows) (hv : NamesValid rows) :
    (∃ r, PlaylistsReturn d r) ↔ CycleFree rows := by
  constructor
  · rintro ⟨r, n, h⟩ x hx hc
    unfold getPlaylists at h
    rw [hr] at h
    have := childNodes_none hv hc (n := n) (id := 0) (.inl rfl) (by
      rcases hx with rfl | hx
      · exact .inl rfl
      · exact .inr hx)
    simp only [this] at h
    cases h
  · intro hc
    exact get_playlists_terminates_partial d fun rows' h => by
      rw [hr] at h
      injection h with h
      rw [← h]
      exact hc

/-- C57: unique ids different from 0 are enough. -/
theorem get_playlists_terminates_for_proper_ids (d : Database)
    (h : ∀ rows, (d.allRows PlaylistTreeNode).1 = .ok rows → ProperIds rows) : ∃ r, PlaylistsReturn d r :=
  get_playlists_terminates_partial d fun rows hr => (h rows hr).cycleFree

/-- C57: the outcome does not depend on how much recursion is allowed. -/
theorem get_playlists_deterministic {d : Database} {x y : Res (List PlaylistNode)} (h : PlaylistsReturn d x)
    (h' : PlaylistsReturn d y) : x = y := h.unique h'

/-! ## C58 -/

/-- C58: for a table with unique ids different from 0 and valid names, `get_playlists` returns a tree.
Directly below every folder of the tree, and below the root, stand the rows that have it as parent, in the
order of the table, folders as folders and playlists as playlists.  The ids in the tree are those of the rows
that can be reached from the root, each exactly once. -/
theorem get_playlists_tree {d : Database} {rows : List PlaylistTreeNode}
    (hr : (d.allRows PlaylistTreeNode).1 = .ok rows) (hp : ProperIds rows) (hv : NamesValid rows) :
    ∃ tree, PlaylistsReturn d (.ok tree) ∧
      (∀ p l, ListedUnder tree p l → Pointwise Shows (rows.filter fun r => r.parentId = p) l) ∧
      (idsOf tree).Nodup ∧
      ∀ id, id ∈ idsOf tree ↔ ∃ r ∈ rows, r.id = id ∧ Reached rows r.parentId := by
  obtain ⟨x, n, h⟩ := (get_playlists_terminates_iff hr hv).2 hp.cycleFree
  have h0 := h
  unfold getPlaylists at h
  rw [hr] at h
  simp only at h
  have hok : ∃ tree, x = .ok tree := by
    apply Classical.byContradiction
    intro hno
    obtain ⟨-, r, h1, h2, h3⟩ := childNodes_not_ok h (fun l e => hno ⟨l, e⟩) (.inl rfl)
    obtain ⟨s, h4⟩ := hv r h1 h2
    rw [h3] at h4
    cases h4
  obtain ⟨tree, rfl⟩ := hok
  refine ⟨tree, ⟨n, h0⟩, ?_, nodup_idsOf hp (.inl rfl) h, ?_⟩
  · intro p l hl
    obtain ⟨k, hk⟩ := listedUnder_childNodes h hl
    rw [childNodes, ChildMap.build_getD] at hk
    exact (collectNodes_ok hk).1
  · intro id
    rw [mem_idsOf_childNodes h]
    constructor
    · rintro ⟨r, h1, h2, h3⟩
      exact ⟨r, h1, h2, h3⟩
    · rintro ⟨r, h1, h2, h3⟩
      exact ⟨r, h1, h2, h3⟩

/-- C58: whatever the table, a tree that is returned has the rows of the table under their parents, in
order, and contains the ids of exactly the rows that can be reached. -/
theorem get_playlists_tree_of_any_table {d : Database} {rows : List PlaylistTreeNode} {tree : List PlaylistNode}
    (hr : (d.allRows PlaylistTreeNode).1 = .ok rows) (h : PlaylistsReturn d (.ok tree)) :
    (∀ p l, ListedUnder tree p l → Pointwise Shows (rows.filter fun r => r.parentId = p) l) ∧
      ∀ id, id ∈ idsOf tree ↔ ∃ r ∈ rows, r.id = id ∧ Reached rows r.parentId := by
  obtain ⟨n, h⟩ := h
  unfold getPlaylists at h
  rw [hr] at h
  simp only at h
  constructor
  · intro p l hl
    obtain ⟨k, hk⟩ := listedUnder_childNodes h hl
    rw [childNodes, ChildMap.build_getD] at hk
    exact (collectNodes_ok hk).1
  · intro id
    rw [mem_idsOf_childNodes h]
    constructor
    · rintro ⟨r, h1, h2, h3⟩
      exact ⟨r, h1, h2, h3⟩
    · rintro ⟨r, h1, h2, h3⟩
      exact ⟨r, h1, h2, h3⟩

/-- C58: the only failures are failures to read the rows, and names of reachable rows that are not valid
text. -/
theorem get_playlists_failure {d : Database} {x : Res (List PlaylistNode)} (h : PlaylistsReturn d x)
    (hx : ∀ tree, x ≠ .ok tree) :
    (∃ e, (d.allRows PlaylistTreeNode).1 = .err e ∧ x = .err e) ∨
    ((d.allRows PlaylistTreeNode).1 = .panic ∧ x = .panic) ∨
    (∃ rows, (d.allRows PlaylistTreeNode).1 = .ok rows ∧ x = .err .encoding ∧
      ∃ r ∈ rows, Reached rows r.parentId ∧ r.name.intoString = .err .encoding) := by
  obtain ⟨n, h⟩ := h
  unfold getPlaylists at h
  cases hr : (d.allRows PlaylistTreeNode).1 with
  | ok rows =>
    rw [hr] at h
    obtain ⟨h1, h2⟩ := childNodes_not_ok h hx (.inl rfl)
    exact .inr (.inr ⟨rows, rfl, h1, h2⟩)
  | err e =>
    rw [hr] at h
    injection h with h
    exact .inl ⟨e, rfl, h.symm⟩
  | panic =>
    rw [hr] at h
    injection h with h
    exact .inr (.inl ⟨rfl, h.symm⟩)

/-! ## Examples -/

/-- A row with a name of one letter. -/
def treeRow (parent id isFolder : UInt32) (name : UInt8) : PlaylistTreeNode where
  parentId := parent
  unknown := 0
  sortOrder := 0
  id := id
  nodeIsFolder := isFolder
  name := .short [name]

/-- The bytes of such a row, padded to 24. -/
def treeRowBytes (r : PlaylistTreeNode) : Bytes :=
  match r.enc with
  | .ok bs => bs ++ [0, 0]
  | _ => []

/-- A data page of 172 bytes with four rows of the playlist tree. -/
def treePage (rows : List PlaylistTreeNode) : Bytes :=
  (Page.fresh 46 ⟨1⟩ ⟨2⟩ (.plain .playlistTree) ⟨1, 0, 0, 0⟩).header.enc.take 24 ++ PackedRowCounts.enc ⟨4, 4⟩ ++
    [0x24, 0, 0, 96, 0] ++ [4, 0, 0, 0, 0, 0, 0, 0] ++ rows.flatMap treeRowBytes ++
    List.replicate 24 0 ++ [72, 0, 48, 0, 24, 0, 0, 0] ++ [15, 0, 0, 0]

/-- A file with one table that consists of this page. -/
def treeHeader : Header where
  pageSize := 172
  numTables := 1
  nextUnusedPage := ⟨2⟩
  unknown := 5
  sequence := 1
  tables := [{ pageType := .plain .playlistTree, emptyCandidate := 0, firstPage := ⟨1⟩, lastPage := ⟨1⟩ }]

/-- A file with one table that consists of this page. -/
def treeFile (rows : List PlaylistTreeNode) : Bytes :=
  treeHeader.enc ++ List.replicate 128 0 ++ treePage rows

/-- The database opened from the file. -/
def treeDb (rows : List PlaylistTreeNode) : Database where
  io := treeFile rows
  dbType := .plain
  content := { header := treeHeader, pages := [.notLoaded] }

/-- The page of the database. -/
def treeDbPage (rows : List PlaylistTreeNode) : Page :=
  match (treeDb rows).view 1 with
  | .ok pg => pg
  | _ => Page.fresh 0 ⟨0⟩ ⟨0⟩ (.plain .playlistTree) ⟨0, 0, 0, 0⟩

theorem treeDb_rows {rows : List PlaylistTreeNode} (hv : (treeDb rows).view 1 = .ok (treeDbPage rows))
    (ht : (treeDbPage rows).header.pageType = .plain .playlistTree)
    (hr : (rowsOf [(1, treeDbPage rows)]).filterMap (fun x => RowVariant.fromRow (α := PlaylistTreeNode) x.2.2) = rows) :
    ((treeDb rows).allRows PlaylistTreeNode).1 = .ok rows := by
  obtain ⟨rs, h1, h2, -⟩ := all_rows_of_file (α := PlaylistTreeNode) (k := 0) (d := treeDb rows)
    (t := { pageType := .plain .playlistTree, emptyCandidate := 0, firstPage := ⟨1⟩, lastPage := ⟨1⟩ })
    row_variants_lawful.2.2.2.2.2.2.2.2.2.2.1 (by
      show treeHeader.findTable _ = _
      decide +kernel) (l := [(1, treeDbPage rows)]) (.last (by decide) hv)
    (by simp [treeDb]) (by simpa [RowVariant.pageType] using ht)
  rw [h1, ← hr]
  clear h1 hr
  generalize rowsOf [(1, treeDbPage rows)] = xs at h2
  induction h2 with
  | nil => rfl
  | cons h _ ih =>
    injection ih with ih
    rw [List.filterMap_cons, h, ih]

/-- A folder with a playlist, a playlist beside it, and a playlist whose parent does not exist. -/
def exampleTree : List PlaylistTreeNode :=
  [treeRow 1 2 0 0x42, treeRow 0 1 1 0x41, treeRow 0 3 0 0x43, treeRow 9 5 0 0x44]

theorem exampleTree_open : Database.openAt (treeFile exampleTree) 0 .plain = .ok (treeDb exampleTree) := by
  decide +kernel

/-- C57, C58: the rows that the loop sees in the example. -/
theorem exampleTree_rows : ((treeDb exampleTree).allRows PlaylistTreeNode).1 = .ok exampleTree :=
  treeDb_rows (by decide +kernel) (by decide +kernel) (by decide +kernel)

theorem exampleTree_ids : ProperIds exampleTree := ⟨by decide +kernel, by decide +kernel⟩

theorem exampleTree_names : NamesValid exampleTree := by
  intro r hr _
  have h : ∀ r ∈ exampleTree, r.name.intoString = .ok "A" ∨ r.name.intoString = .ok "B" ∨
      r.name.intoString = .ok "C" ∨ r.name.intoString = .ok "D" := by decide +kernel
  rcases h r hr with h | h | h | h <;> exact ⟨_, h⟩

/-- C58: the example meets the hypotheses; the tree is as expected. -/
example : ∃ tree, PlaylistsReturn (treeDb exampleTree) (.ok tree) ∧ (idsOf tree).Nodup := by
  obtain ⟨tree, h1, -, h2, -⟩ := get_playlists_tree exampleTree_rows exampleTree_ids exampleTree_names
  exact ⟨tree, h1, h2⟩

/-- C58: the tree of the example. -/
theorem exampleTree_tree : PlaylistsReturn (treeDb exampleTree)
    (.ok [.folder 1 "A" [.playlist 2 "B"], .playlist 3 "C"]) := by
  refine ⟨2, ?_⟩
  unfold getPlaylists
  rw [exampleTree_rows]
  have hA : DString.intoString (.short [0x41]) = .ok "A" := by decide +kernel
  have hB : DString.intoString (.short [0x42]) = .ok "B" := by decide +kernel
  have hC : DString.intoString (.short [0x43]) = .ok "C" := by decide +kernel
  simp [childNodes, ChildMap.build_getD, exampleTree, treeRow, collectNodes, nodeOf, PlaylistTreeNode.isFolder,
    hA, hB, hC]

/-- A folder in the root, and a folder with the same id in it: one wrong id. -/
def cyclicTree : List PlaylistTreeNode :=
  [treeRow 0 1 1 0x41, treeRow 1 1 1 0x42, treeRow 0 3 0 0x43, treeRow 1 4 0 0x44]

theorem cyclicTree_open : Database.openAt (treeFile cyclicTree) 0 .plain = .ok (treeDb cyclicTree) := by
  decide +kernel

theorem cyclicTree_rows : ((treeDb cyclicTree).allRows PlaylistTreeNode).1 = .ok cyclicTree :=
  treeDb_rows (by decide +kernel) (by decide +kernel) (by decide +kernel)

/-- C57: the full property is false: there is a file that can be opened, all rows and names of which are
valid, on which `get_playlists` does not return. -/
theorem get_playlists_diverges : ∃ file d, Database.openAt file 0 .plain = .ok d ∧
    ((d.allRows PlaylistTreeNode).1 = .ok cyclicTree) ∧ ∀ n, getPlaylists n d = none := by
  refine ⟨_, _, cyclicTree_open, cyclicTree_rows, ?_⟩
  have hv : NamesValid cyclicTree := by
    intro r hr _
    have h : ∀ r ∈ cyclicTree, r.name.intoString = .ok "A" ∨ r.name.intoString = .ok "B" ∨
        r.name.intoString = .ok "C" ∨ r.name.intoString = .ok "D" := by decide +kernel
    rcases h r hr with h | h | h | h <;> exact ⟨_, h⟩
  have h1 : FolderIn cyclicTree 0 1 := ⟨treeRow 0 1 1 0x41, by decide +kernel, by decide, rfl, rfl⟩
  have h2 : FolderIn cyclicTree 1 1 := ⟨treeRow 1 1 1 0x42, by decide +kernel, by decide, rfl, rfl⟩
  intro n
  unfold getPlaylists
  rw [cyclicTree_rows]
  exact childNodes_none hv (x := 1) (.one h2) (.inl rfl) (.inr (.one h1))

end Rekordcrate
