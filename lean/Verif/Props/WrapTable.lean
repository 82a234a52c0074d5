import Verif.Lemmas.WrapTable
import Verif.Props.WrapTool

/-! # C91: damaged databases in builds without overflow checks -/

namespace Rekordcrate

/-! ## Tables -/

theorem Database.About.table {α β : Type} [RowVariant α] {file : Bytes} {h : Header} {db : DatabaseType} {d : Database}
    (a : d.About file h db) (f : α → Res β) : FileTable file h db f (d.collectRowsWrap α f).1 := by
  unfold Database.collectRowsWrap Database.iterRows Database.iterPages
  cases hf : d.content.header.findTable (RowVariant.pageType α) with
  | none =>
    have := findFrom_none hf
    rw [a.header] at this
    exact .missing this
  | some x =>
    obtain ⟨j, t⟩ := x
    obtain ⟨b, c, h1, h2, h3⟩ := findFrom_split hf
    rw [a.header] at h1
    obtain ⟨l, r, hl⟩ := FileTrail.exists (file := file) (h := h) (db := db) t.lastPage.val.toNat _ 1
      t.firstPage.val.toNat (Nat.le_refl _)
    exact .rows h1 h2 h3 hl (RowIterator.collectWrap_trail f hl (Nat.le_refl _) 0 (a.nears t))

theorem FileTable.unique {α β : Type} [RowVariant α] {file : Bytes} {h : Header} {db : DatabaseType} {f : α → Res β}
    {x y : Res (List β)} (a : FileTable file h db f x) (b : FileTable file h db f y) : x = y := by
  cases a with
  | missing h1 =>
    cases b with
    | missing _ => rfl
    | @rows _ _ t _ _ _ ht hp _ _ _ => exact absurd hp (h1 t (by rw [ht]; simp))
  | @rows _ _ t _ _ _ ht hp hb hl hv =>
    cases b with
    | missing h1 => exact absurd hp (h1 t (by rw [ht]; simp))
    | rows ht' hp' hb' hl' hv' =>
      rw [ht] at ht'
      cases first_unique ht' hp hp' hb hb'
      obtain ⟨rfl, rfl⟩ := FileTrail.unique hl hl'
      exact hv.unique hv'

section
variable {file : Bytes} {db : DatabaseType} {d : Database}

/-- C91: what a loop over the rows of a table does with any file that can be opened: it finds the rows of the pages on
the way from the first page to the last page of the first table of the type, in order, up to the first page that
cannot be read, and fails there, or at the first row that is not of the type.  This determines the outcome. -/
theorem release_rows_of_table {α β : Type} [RowVariant α] (ho : Database.openAt file 0 db = .ok d) (f : α → Res β)
    (out : Res (List β)) : (d.collectRowsWrap α f).1 = out ↔ FileTable file d.content.header db f out := by
  have h := (openAt_about ho).table f
  exact ⟨fun he => he ▸ h, fun h' => h.unique h'⟩

/-- Reading one table after another. -/
theorem seq_rows_wrap {α : Type} [RowVariant α] {h : Header} (a : d.About file h db) {x : Res (List α)}
    (ht : FileTable file h db Res.ok x) :
    (d.allRowsWrap α).1 = x ∧ (d.allRowsWrap α).2.About file h db :=
  ⟨(a.table Res.ok).unique ht, (d.collectRowsWrap_spec Res.ok a).1⟩

/-- C91: reading all rows panics exactly if the file has a row of another type among the pages of the table. -/
theorem release_table_panics_iff {α : Type} [RowVariant α] (ho : Database.openAt file 0 .plain = .ok d) :
    FileTable (α := α) file d.content.header .plain Res.ok .panic ↔ ForeignRow file d.content.header α := by
  rw [← release_rows_of_table ho, ← rows_release_panics_iff ho]
  rfl

end

/-! ## `list-playlists` -/

section
variable {file : Bytes} {d : Database} {nodes : Res (List PlaylistTreeNode)} {artists : Res (List Artist)}
  {tracks : Res (List Track)} {entries : Res (List PlaylistEntry)}

theorem listDataWrap_tables {h : Header} {db : DatabaseType} (a : d.About file h db) (h1 : FileTable file h db Res.ok nodes)
    (h2 : FileTable file h db Res.ok artists) (h3 : FileTable file h db Res.ok tracks)
    (h4 : FileTable file h db Res.ok entries) :
    listDataWrap d = nodes.seq (artists.seq (tracks.seq entries)) := by
  unfold listDataWrap
  obtain ⟨a1, b1⟩ := seq_rows_wrap a h1
  generalize d.allRowsWrap PlaylistTreeNode = y1 at a1 b1 ⊢
  obtain ⟨x1, d1⟩ := y1
  simp only at a1 b1
  subst a1
  cases x1 with
  | err e => rfl
  | panic => rfl
  | ok ns =>
    simp only
    obtain ⟨a2, b2⟩ := seq_rows_wrap b1 h2
    generalize d1.allRowsWrap Artist = y2 at a2 b2 ⊢
    obtain ⟨x2, d2⟩ := y2
    simp only at a2 b2
    subst a2
    cases x2 with
    | err e => rfl
    | panic => rfl
    | ok as =>
      simp only
      obtain ⟨a3, b3⟩ := seq_rows_wrap b2 h3
      generalize d2.allRowsWrap Track = y3 at a3 b3 ⊢
      obtain ⟨x3, d3⟩ := y3
      simp only at a3 b3
      subst a3
      cases x3 with
      | err e => rfl
      | panic => rfl
      | ok ts =>
        simp only
        obtain ⟨a4, b4⟩ := seq_rows_wrap b3 h4
        generalize d3.allRowsWrap PlaylistEntry = y4 at a4 b4 ⊢
        obtain ⟨x4, d4⟩ := y4
        simp only at a4
        subst a4
        cases x4 <;> rfl

variable (lossy : Bytes → String)

theorem listPlaylistsWrap_eq (ho : Database.openAt file 0 .plain = .ok d)
    (h1 : FileTable file d.content.header .plain Res.ok nodes) (h2 : FileTable file d.content.header .plain Res.ok artists)
    (h3 : FileTable file d.content.header .plain Res.ok tracks)
    (h4 : FileTable file d.content.header .plain Res.ok entries) (n : Nat) :
    listPlaylistsWrap lossy n (some file) = match nodes.seq (artists.seq (tracks.seq entries)) with
      | .err e => ⟨[], some (.err e)⟩
      | .panic => ⟨[], some .panic⟩
      | .ok (ns, as, ts, es) => printChildren lossy (ChildMap.build ns) (EntryMap.build es) (rowWith Artist.id as)
          (rowWith Track.id ts) n 0 0 := by
  simp only [listPlaylistsWrap, ho, listPlaylistsOfWrap, listDataWrap_tables (openAt_about ho) h1 h2 h3 h4, idMap_eq]
  rfl

/-- C91: if one of the four tables cannot be read, the first problem in the order nodes, artists, tracks, entries is
reported, and nothing is printed. -/
theorem list_playlists_release_problem (ho : Database.openAt file 0 .plain = .ok d)
    (h1 : FileTable file d.content.header .plain Res.ok nodes) (h2 : FileTable file d.content.header .plain Res.ok artists)
    (h3 : FileTable file d.content.header .plain Res.ok tracks)
    (h4 : FileTable file d.content.header .plain Res.ok entries) (n : Nat) :
    (∀ e, nodes.seq (artists.seq (tracks.seq entries)) = .err e →
      listPlaylistsWrap lossy n (some file) = ⟨[], some (.err e)⟩) ∧
    (nodes.seq (artists.seq (tracks.seq entries)) = .panic →
      listPlaylistsWrap lossy n (some file) = ⟨[], some .panic⟩) := by
  rw [listPlaylistsWrap_eq lossy ho h1 h2 h3 h4 n]
  exact ⟨fun e he => by rw [he], fun he => by rw [he]⟩

end

section
variable {file : Bytes} {d : Database} {nodes : List PlaylistTreeNode} {artists : List Artist}
  {tracks : List Track} {entries : List PlaylistEntry} (lossy : Bytes → String)

/-- C91: if the four tables can be read and the command comes to an end, it has printed exactly the nodes that are
linked to the root, every node below its parent, with its entries. -/
theorem list_playlists_release_text (ho : Database.openAt file 0 .plain = .ok d)
    (h1 : FileTable file d.content.header .plain Res.ok (.ok nodes))
    (h2 : FileTable file d.content.header .plain Res.ok (.ok artists))
    (h3 : FileTable file d.content.header .plain Res.ok (.ok tracks))
    (h4 : FileTable file d.content.header .plain Res.ok (.ok entries)) {n : Nat} {text : List Char}
    (h : listPlaylistsWrap lossy n (some file) = ⟨text, some (.ok ())⟩) :
    ∃ hs paras, Outline nodes 0 (nodes.filter fun r => r.parentId = 0) hs ∧
      (∀ r, (∃ k, (k, r) ∈ hs) ↔ r ∈ nodes ∧ Linked nodes r.parentId) ∧
      Pointwise (NodeText lossy artists tracks entries) hs paras ∧ text = linesText paras.flatten := by
  rw [listPlaylistsWrap_eq lossy ho h1 h2 h3 h4 n] at h
  obtain ⟨hs, paras, a1, a2, a3⟩ := printChildren_ok h
  exact ⟨hs, paras, a1, fun r => a1.mem_of_parent r, a2, a3⟩

/-- C91: then it succeeds exactly if everything that is to be listed can be displayed; otherwise it panics. -/
theorem list_playlists_release_outcome (ho : Database.openAt file 0 .plain = .ok d)
    (h1 : FileTable file d.content.header .plain Res.ok (.ok nodes))
    (h2 : FileTable file d.content.header .plain Res.ok (.ok artists))
    (h3 : FileTable file d.content.header .plain Res.ok (.ok tracks))
    (h4 : FileTable file d.content.header .plain Res.ok (.ok entries)) {n : Nat} {x : Res Unit}
    (h : (listPlaylistsWrap lossy n (some file)).outcome = some x) :
    (x = .ok () ↔ AllShowable lossy nodes artists tracks entries) ∧ (x = .ok () ∨ x = .panic) := by
  have hfail : x ≠ .ok () → x = .panic ∧ ¬ AllShowable lossy nodes artists tracks entries := by
    intro hne
    rw [listPlaylistsWrap_eq lossy ho h1 h2 h3 h4 n] at h
    obtain ⟨g0, r, g1, g2, g3⟩ := printChildren_fail (x := x) (.inl rfl) h hne
    exact ⟨g0, fun hs => g3 (hs r g1 g2)⟩
  refine ⟨⟨?_, fun hs => Classical.byContradiction fun hne => (hfail hne).2 hs⟩, ?_⟩
  · rintro rfl
    have he : listPlaylistsWrap lossy n (some file) = ⟨(listPlaylistsWrap lossy n (some file)).text, some (.ok ())⟩ := by
      rw [← h]
    obtain ⟨hs, paras, -, g2, g3, -⟩ := list_playlists_release_text lossy ho h1 h2 h3 h4 he
    intro r hr hl
    obtain ⟨k, hk⟩ := (g2 r).2 ⟨hr, hl⟩
    obtain ⟨lines, -, name, l, texts, g4, g5, g6, -⟩ := g3.mem_left hk
    refine ⟨⟨name, g4⟩, fun i t ht => ?_⟩
    obtain ⟨_, -, s, g7, -⟩ := g6.mem_left ((g5.2 i t).2 ht)
    exact ⟨s, g7⟩
  · by_cases hx : x = .ok ()
    · exact .inl hx
    · exact .inr (hfail hx).1

/-- C91: it comes to an end if no node linked to the root is below itself. -/
theorem list_playlists_release_returns (ho : Database.openAt file 0 .plain = .ok d)
    (h1 : FileTable file d.content.header .plain Res.ok (.ok nodes))
    (h2 : FileTable file d.content.header .plain Res.ok (.ok artists))
    (h3 : FileTable file d.content.header .plain Res.ok (.ok tracks))
    (h4 : FileTable file d.content.header .plain Res.ok (.ok entries)) (hc : LoopFree nodes) :
    ∃ n x, (listPlaylistsWrap lossy n (some file)).outcome = some x := by
  have := printChildren_some (lossy := lossy) (m := EntryMap.build entries) (am := rowWith Artist.id artists)
    (tm := rowWith Track.id tracks) hc (level := 0) (.inl rfl) (Nat.lt_succ_self _)
  obtain ⟨x, hx⟩ := Option.isSome_iff_exists.1 this
  exact ⟨_, x, by rw [listPlaylistsWrap_eq lossy ho h1 h2 h3 h4]; exact hx⟩

end

/-- C91: for a file that can be opened and whose nodes are not below themselves, `list-playlists` panics exactly if
reading nodes, artists, tracks and entries, in this order, panics, or if they can be read and something that is to be
listed cannot be displayed. -/
theorem list_playlists_release_panics_iff (lossy : Bytes → String) {file : Bytes} {d : Database}
    (ho : Database.openAt file 0 .plain = .ok d) {nodes : Res (List PlaylistTreeNode)} {artists : Res (List Artist)}
    {tracks : Res (List Track)} {entries : Res (List PlaylistEntry)}
    (h1 : FileTable file d.content.header .plain Res.ok nodes) (h2 : FileTable file d.content.header .plain Res.ok artists)
    (h3 : FileTable file d.content.header .plain Res.ok tracks)
    (h4 : FileTable file d.content.header .plain Res.ok entries) (hc : ∀ ns, nodes = .ok ns → LoopFree ns) :
    (∃ n, (listPlaylistsWrap lossy n (some file)).outcome = some .panic) ↔
      nodes = .panic ∨ (∃ ns, nodes = .ok ns ∧ (artists = .panic ∨ ∃ as, artists = .ok as ∧
        (tracks = .panic ∨ ∃ ts, tracks = .ok ts ∧
          (entries = .panic ∨ ∃ es, entries = .ok es ∧ ¬ AllShowable lossy ns as ts es)))) := by
  cases nodes with
  | err e =>
    refine ⟨fun ⟨n, h⟩ => ?_, fun h => ?_⟩
    · rw [(list_playlists_release_problem lossy ho h1 h2 h3 h4 n).1 e rfl] at h
      cases h
    · rcases h with h | ⟨_, h, -⟩ <;> cases h
  | panic => exact ⟨fun _ => .inl rfl, fun _ => ⟨0, by rw [(list_playlists_release_problem lossy ho h1 h2 h3 h4 0).2 rfl]⟩⟩
  | ok ns =>
    cases artists with
    | err e =>
      refine ⟨fun ⟨n, h⟩ => ?_, fun h => ?_⟩
      · rw [(list_playlists_release_problem lossy ho h1 h2 h3 h4 n).1 e rfl] at h
        cases h
      · rcases h with h | ⟨_, -, h | ⟨_, h, -⟩⟩ <;> cases h
    | panic =>
      exact ⟨fun _ => .inr ⟨_, rfl, .inl rfl⟩,
        fun _ => ⟨0, by rw [(list_playlists_release_problem lossy ho h1 h2 h3 h4 0).2 rfl]⟩⟩
    | ok as =>
      cases tracks with
      | err e =>
        refine ⟨fun ⟨n, h⟩ => ?_, fun h => ?_⟩
        · rw [(list_playlists_release_problem lossy ho h1 h2 h3 h4 n).1 e rfl] at h
          cases h
        · rcases h with h | ⟨_, -, h | ⟨_, -, h | ⟨_, h, -⟩⟩⟩ <;> cases h
      | panic =>
        exact ⟨fun _ => .inr ⟨_, rfl, .inr ⟨_, rfl, .inl rfl⟩⟩,
          fun _ => ⟨0, by rw [(list_playlists_release_problem lossy ho h1 h2 h3 h4 0).2 rfl]⟩⟩
      | ok ts =>
        cases entries with
        | err e =>
          refine ⟨fun ⟨n, h⟩ => ?_, fun h => ?_⟩
          · rw [(list_playlists_release_problem lossy ho h1 h2 h3 h4 n).1 e rfl] at h
            cases h
          · rcases h with h | ⟨_, -, h | ⟨_, -, h | ⟨_, -, h | ⟨_, h, -⟩⟩⟩⟩ <;> cases h
        | panic =>
          exact ⟨fun _ => .inr ⟨_, rfl, .inr ⟨_, rfl, .inr ⟨_, rfl, .inl rfl⟩⟩⟩,
            fun _ => ⟨0, by rw [(list_playlists_release_problem lossy ho h1 h2 h3 h4 0).2 rfl]⟩⟩
        | ok es =>
          constructor
          · rintro ⟨n, h⟩
            refine .inr ⟨_, rfl, .inr ⟨_, rfl, .inr ⟨_, rfl, .inr ⟨_, rfl, fun hs => ?_⟩⟩⟩⟩
            cases (list_playlists_release_outcome lossy ho h1 h2 h3 h4 h).1.2 hs
          · intro h
            rcases h with h | ⟨_, g, h | ⟨_, g2, h | ⟨_, g3, h | ⟨_, g4, h⟩⟩⟩⟩
            · cases h
            · cases h
            · cases h
            · cases h
            · cases g
              cases g2
              cases g3
              cases g4
              obtain ⟨n, x, hx⟩ := list_playlists_release_returns lossy ho h1 h2 h3 h4 (hc _ rfl)
              obtain ⟨k1, rfl | rfl⟩ := list_playlists_release_outcome lossy ho h1 h2 h3 h4 hx
              · exact absurd (k1.1 rfl) h
              · exact ⟨n, hx⟩

/-! ## `export-playlists` -/

section
variable {file : Bytes} {d : Database} {nodes : Res (List PlaylistTreeNode)} {entries : Res (List PlaylistEntry)}
  {tracks : Res (List (UInt32 × String))}

/-- `get_playlists` comes to an end with this outcome. -/
def PlaylistsReturnRelease (d : Database) (r : Res (List PlaylistNode)) : Prop := ∃ n, getPlaylistsWrap n d = some r

/-- C91: the tree that is exported, for any table that can be read: below every folder, and below the root, stand the rows
that have it as parent, in the order of the table. -/
theorem release_tree {rows : List PlaylistTreeNode} {tree : List PlaylistNode} (ho : Database.openAt file 0 .plain = .ok d)
    (h1 : FileTable file d.content.header .plain Res.ok (.ok rows)) (h : PlaylistsReturnRelease d (.ok tree)) :
    (∀ p l, ListedUnder tree p l → Pointwise Shows (rows.filter fun r => r.parentId = p) l) ∧
      ∀ id, id ∈ idsOf tree ↔ ∃ r ∈ rows, r.id = id ∧ Reached rows r.parentId := by
  obtain ⟨n, h⟩ := h
  unfold getPlaylistsWrap at h
  rw [(seq_rows_wrap (openAt_about ho) h1).1] at h
  simp only at h
  constructor
  · intro p l hl
    obtain ⟨k, hk⟩ := listedUnder_childNodes h hl
    rw [childNodes, ChildMap.build_getD] at hk
    exact (collectNodes_ok hk).1
  · intro id
    rw [mem_idsOf_childNodes h]
    constructor
    · rintro ⟨r, h1, h2, h3⟩
      exact ⟨r, h1, h2, h3⟩
    · rintro ⟨r, h1, h2, h3⟩
      exact ⟨r, h1, h2, h3⟩

/-- C91: if there is no tree, the table cannot be read or the name of a row that can be reached is not valid. -/
theorem release_tree_failure {x : Res (List PlaylistNode)} (ho : Database.openAt file 0 .plain = .ok d)
    (h1 : FileTable file d.content.header .plain Res.ok nodes) (h : PlaylistsReturnRelease d x)
    (hx : ∀ tree, x ≠ .ok tree) :
    (∃ e, nodes = .err e ∧ x = .err e) ∨ (nodes = .panic ∧ x = .panic) ∨
    (∃ rows, nodes = .ok rows ∧ x = .err .encoding ∧
      ∃ r ∈ rows, Reached rows r.parentId ∧ r.name.intoString = .err .encoding) := by
  obtain ⟨n, h⟩ := h
  unfold getPlaylistsWrap at h
  rw [(seq_rows_wrap (openAt_about ho) h1).1] at h
  cases nodes with
  | ok rows =>
    obtain ⟨h1, h2⟩ := childNodes_not_ok h hx (.inl rfl)
    exact .inr (.inr ⟨rows, rfl, h1, h2⟩)
  | err e =>
    injection h with h
    exact .inl ⟨e, rfl, h.symm⟩
  | panic =>
    injection h with h
    exact .inr (.inl ⟨rfl, h.symm⟩)

theorem exportDataWrap_tables {h : Header} {db : DatabaseType} (a : d.About file h db) {n : Nat}
    {tree : Res (List PlaylistNode)} (h1 : getPlaylistsWrap n d = some tree) (h2 : FileTable file h db Res.ok entries)
    (h3 : FileTable file h db trackPath tracks) : exportDataWrap n d = some (tree.seq (entries.seq tracks)) := by
  unfold exportDataWrap
  rw [h1]
  cases tree with
  | err e => rfl
  | panic => rfl
  | ok tree =>
    simp only
    have b1 := (d.allRowsWrap_spec (α := PlaylistTreeNode) a).1
    generalize (d.allRowsWrap PlaylistTreeNode).2 = d1 at b1 ⊢
    obtain ⟨a2, b2⟩ := seq_rows_wrap b1 h2
    generalize d1.allRowsWrap PlaylistEntry = y2 at a2 b2 ⊢
    obtain ⟨x2, d2⟩ := y2
    simp only at a2 b2
    subst a2
    cases x2 with
    | err e => rfl
    | panic => rfl
    | ok es =>
      simp only
      have hf : (fun t : Track => (do
          let s ← t.offsets.inner.filePath.intoString
          .ok (t.id, s) : Res (UInt32 × String))) = trackPath := by
        funext t
        unfold trackPath
        cases t.offsets.inner.filePath.intoString <;> rfl
      rw [hf, (b2.table trackPath).unique h3]
      cases tracks <;> rfl

/-- C91: `export-playlists` reads the tree, then the entries, then the paths of the tracks; at the first problem it
ends without a request to the file system. -/
theorem export_playlists_release_problem (ho : Database.openAt file 0 .plain = .ok d) {n : Nat}
    {tree : Res (List PlaylistNode)} (h1 : getPlaylistsWrap n d = some tree)
    (h2 : FileTable file d.content.header .plain Res.ok entries)
    (h3 : FileTable file d.content.header .plain trackPath tracks) (root out : FsPath) (works : List FsOp → FsOp → Bool) :
    (∀ e, tree.seq (entries.seq tracks) = .err e → exportPlaylistsWrap n (some file) root out works = some ([], .err e)) ∧
    (tree.seq (entries.seq tracks) = .panic → exportPlaylistsWrap n (some file) root out works = some ([], .panic)) := by
  simp only [exportPlaylistsWrap, ho, exportDataWrap_tables (openAt_about ho) h1 h2 h3]
  exact ⟨fun e h => by rw [h], fun h => by rw [h]⟩

/-- C91: if everything can be read, it asks for the files of all playlists of the tree with their tracks, as a build with
overflow checks does, and stops at the first request that fails. -/
theorem export_playlists_release_requests (ho : Database.openAt file 0 .plain = .ok d) {n : Nat}
    {tree : List PlaylistNode} {es : List PlaylistEntry} {ts : List (UInt32 × String)}
    (h1 : getPlaylistsWrap n d = some (.ok tree)) (h2 : FileTable file d.content.header .plain Res.ok (.ok es))
    (h3 : FileTable file d.content.header .plain trackPath (.ok ts)) {root out : FsPath} {works : List FsOp → FsOp → Bool}
    {done : List FsOp} {res : Res Unit} (h : exportPlaylistsWrap n (some file) root out works = some (done, res)) :
    res ≠ .panic ∧ ∃ files, Pointwise (fun y f => f.1 = y.2.2 ∧ f.2.1 = playlistFile y.2.1 y.2.2 ∧
        LinesOf es ts root y.1 f.2.2) (exportedOf out tree) files ∧
      (∃ k, done = (requestsFor files).take k) ∧ (res = .ok () → done = requestsFor files) := by
  simp only [exportPlaylistsWrap, ho, exportDataWrap_tables (openAt_about ho) h1 h2 h3, Res.seq, Option.some.injEq] at h
  refine ⟨fun hr => ?_, ?_⟩
  · have := runOps_np works
      (walkTrees (visitOps (EntryMap.build es) (TrackMap.build ts) root) out tree) []
    rw [h] at this
    exact this hr
  · obtain ⟨files, g1, g2⟩ := visitor_requests es ts root out works tree
    exact ⟨files, g1, g2 done res h⟩

/-- C91: for a file that can be opened, `export-playlists` panics exactly if reading the nodes panics, or if there is a tree
and reading the entries panics, or they can be read and reading the tracks panics. -/
theorem export_playlists_release_panics_iff (ho : Database.openAt file 0 .plain = .ok d)
    (h1 : FileTable file d.content.header .plain Res.ok nodes) (h2 : FileTable file d.content.header .plain Res.ok entries)
    (h3 : FileTable file d.content.header .plain trackPath tracks) (root out : FsPath) (works : List FsOp → FsOp → Bool) :
    (∃ n ops, exportPlaylistsWrap n (some file) root out works = some (ops, .panic)) ↔
      nodes = .panic ∨ (∃ tree, PlaylistsReturnRelease d (.ok tree)) ∧
        (entries = .panic ∨ ∃ es, entries = .ok es ∧ tracks = .panic) := by
  constructor
  · rintro ⟨n, ops, h⟩
    cases hg : getPlaylistsWrap n d with
    | none => simp only [exportPlaylistsWrap, ho, exportDataWrap, hg] at h; cases h
    | some tree =>
      obtain ⟨p1, p2⟩ := export_playlists_release_problem ho hg h2 h3 root out works
      cases tree with
      | err e => rw [p1 e rfl] at h; cases h
      | panic =>
        rcases release_tree_failure ho h1 ⟨n, hg⟩ (fun _ h => (by cases h)) with ⟨e, -, h⟩ | ⟨h, -⟩ | ⟨_, -, h, -⟩
        · cases h
        · exact .inl h
        · cases h
      | ok t =>
        refine .inr ⟨⟨t, n, hg⟩, ?_⟩
        cases entries with
        | err e => rw [p1 e rfl] at h; cases h
        | panic => exact .inl rfl
        | ok es =>
          refine .inr ⟨es, rfl, ?_⟩
          cases tracks with
          | err e => rw [p1 e rfl] at h; cases h
          | panic => rfl
          | ok ts => exact absurd rfl (export_playlists_release_requests ho hg h2 h3 h).1
  · rintro (rfl | ⟨⟨t, n, hg⟩, h⟩)
    · have hg : getPlaylistsWrap 0 d = some .panic := by
        unfold getPlaylistsWrap
        rw [(seq_rows_wrap (openAt_about ho) h1).1]
      exact ⟨0, [], (export_playlists_release_problem ho hg h2 h3 root out works).2 rfl⟩
    · refine ⟨n, [], (export_playlists_release_problem ho hg h2 h3 root out works).2 ?_⟩
      rcases h with rfl | ⟨es, rfl, rfl⟩ <;> rfl

end

/-! ## `dump-pdb` -/

/-- C91: `dump-pdb` shows the header and then, for every table in order, its pages up to the first problem, as they
are in the file. -/
theorem dump_pdb_release_outline {file : Bytes} {db : DatabaseType} {d : Database} (b : Bool)
    (ho : Database.openAt file 0 db = .ok d) :
    ∃ out r, dumpPdbWrap (some file) db b = (.header d.content.header :: out, r) ∧
      FileDump file d.content.header db b 0 d.content.header.tables out r :=
  ⟨_, _, by simp only [dumpPdbWrap, ho], dumpTablesWrap_outline b _ 0 d (openAt_about ho) rfl⟩

/-! ## Concrete cases -/

/-- If the data could be read, all four tables could. -/
theorem tables_of_data {file : Bytes} {d : Database} (ho : Database.openAt file 0 .plain = .ok d)
    {nodes : List PlaylistTreeNode} {artists : List Artist} {tracks : List Track} {entries : List PlaylistEntry}
    (h : listDataWrap d = .ok (nodes, artists, tracks, entries)) :
    FileTable file d.content.header .plain Res.ok (.ok nodes) ∧ FileTable file d.content.header .plain Res.ok (.ok artists) ∧
    FileTable file d.content.header .plain Res.ok (.ok tracks) ∧
    FileTable file d.content.header .plain Res.ok (.ok entries) := by
  have a := openAt_about ho
  have h1 := a.table (α := PlaylistTreeNode) Res.ok
  have h2 := a.table (α := Artist) Res.ok
  have h3 := a.table (α := Track) Res.ok
  have h4 := a.table (α := PlaylistEntry) Res.ok
  rw [listDataWrap_tables a h1 h2 h3 h4] at h
  generalize (d.collectRowsWrap PlaylistTreeNode Res.ok).1 = x1 at h h1
  generalize (d.collectRowsWrap Artist Res.ok).1 = x2 at h h2
  generalize (d.collectRowsWrap Track Res.ok).1 = x3 at h h3
  generalize (d.collectRowsWrap PlaylistEntry Res.ok).1 = x4 at h h4
  cases x1 <;> cases x2 <;> cases x3 <;> cases x4 <;> cases h
  exact ⟨h1, h2, h3, h4⟩

/-- A file with pages of 20 bytes and the four tables, which lead to a page without rows. -/
def narrowList : Bytes :=
  [0, 0, 0, 0, 20, 0, 0, 0, 4, 0, 0, 0, 8, 0, 0, 0, 0, 0, 0, 0, 0, 0, 0, 0, 0, 0, 0, 0,
    7, 0, 0, 0, 0, 0, 0, 0, 5, 0, 0, 0, 5, 0, 0, 0,
    2, 0, 0, 0, 0, 0, 0, 0, 5, 0, 0, 0, 5, 0, 0, 0,
    0, 0, 0, 0, 0, 0, 0, 0, 5, 0, 0, 0, 5, 0, 0, 0,
    8, 0, 0, 0, 0, 0, 0, 0, 5, 0, 0, 0, 5, 0, 0, 0] ++ List.replicate 96 0

/-- The page can be read only in a build without overflow checks, and has no rows. -/
theorem narrowList_page : (∃ pg q, Page.readWrap 20 .plain narrowList (5 * 20) = .ok (pg, q) ∧ rowsOf [(5, pg)] = []) ∧
    Page.read 20 .plain narrowList (5 * 20) = .panic := by
  have h : (match Page.readWrap 20 .plain narrowList (5 * 20), Page.read 20 .plain narrowList (5 * 20) with
    | .ok (pg, _), .panic => (rowsOf [(5, pg)]).isEmpty
    | _, _ => false) = true := by decide +kernel
  split at h
  · rename_i pg q h1 h2
    exact ⟨⟨pg, q, h1, List.isEmpty_iff.1 h⟩, h2⟩
  · cases h

theorem narrowList_open : ∃ d, Database.openAt narrowList 0 .plain = .ok d ∧ d.content.header.pageSize = 20 ∧
    d.content.header.nextUnusedPage.val = 8 ∧ d.content.header.tables =
      [⟨.plain .playlistTree, 0, ⟨5⟩, ⟨5⟩⟩, ⟨.plain .artists, 0, ⟨5⟩, ⟨5⟩⟩, ⟨.plain .tracks, 0, ⟨5⟩, ⟨5⟩⟩,
        ⟨.plain .playlistEntries, 0, ⟨5⟩, ⟨5⟩⟩] ∧ d.view 5 = .panic := by
  have h : (match Database.openAt narrowList 0 .plain with
    | .ok d => decide (d.content.header.pageSize = 20 ∧ d.content.header.nextUnusedPage.val = 8 ∧
        d.content.header.tables =
      [⟨.plain .playlistTree, 0, ⟨5⟩, ⟨5⟩⟩, ⟨.plain .artists, 0, ⟨5⟩, ⟨5⟩⟩, ⟨.plain .tracks, 0, ⟨5⟩, ⟨5⟩⟩,
        ⟨.plain .playlistEntries, 0, ⟨5⟩, ⟨5⟩⟩]) && (match d.view 5 with | .panic => true | _ => false)
    | _ => false) = true := by decide +kernel
  split at h
  · rename_i d hd
    rw [Bool.and_eq_true] at h
    obtain ⟨h1, h2⟩ := h
    obtain ⟨a, b, c⟩ := of_decide_eq_true h1
    refine ⟨d, hd, a, b, c, ?_⟩
    split at h2
    · assumption
    · cases h2
  · cases h

/-- The tables are empty, and `list-playlists` prints nothing; with overflow checks it panics. -/
theorem narrowList_listed (lossy : Bytes → String) : ∃ d, Database.openAt narrowList 0 .plain = .ok d ∧
    FileTable (α := PlaylistTreeNode) narrowList d.content.header .plain Res.ok (.ok []) ∧
    FileTable (α := Artist) narrowList d.content.header .plain Res.ok (.ok []) ∧
    FileTable (α := Track) narrowList d.content.header .plain Res.ok (.ok []) ∧
    FileTable (α := PlaylistEntry) narrowList d.content.header .plain Res.ok (.ok []) ∧
    (listPlaylistsWrap lossy 1 (some narrowList)) = ⟨[], some (.ok ())⟩ ∧
    (listPlaylists lossy 1 (some narrowList)) = ⟨[], some .panic⟩ := by
  obtain ⟨⟨pg, q, p1, p2⟩, -⟩ := narrowList_page
  obtain ⟨d, ho, e1, e2, e3, e4⟩ := narrowList_open
  have tr : ∀ t : Table, t.firstPage = ⟨5⟩ → t.lastPage = ⟨5⟩ →
      FileTrailOf narrowList d.content.header .plain t [(5, pg)] (.ok ()) := by
    intro t h1 h2
    unfold FileTrailOf
    rw [h1, h2]
    exact .last (by decide) (.there (by rw [e2]; decide) (by rw [e1]; exact p1))
  have vi : ∀ {α : Type} [RowVariant α], Visited (α := α) Res.ok (.ok ()) ((rowsOf [(5, pg)]).map fun x => x.2.2) (.ok []) := by
    intro α _
    rw [p2]
    exact .done rfl
  have t1 : FileTable (α := PlaylistTreeNode) narrowList d.content.header .plain Res.ok (.ok []) :=
    .rows (before := []) e3 rfl (fun _ h => (by cases h)) (tr _ rfl rfl) vi
  have t2 : FileTable (α := Artist) narrowList d.content.header .plain Res.ok (.ok []) :=
    .rows (before := [⟨.plain .playlistTree, 0, ⟨5⟩, ⟨5⟩⟩]) e3 rfl
      (fun t h hc => by rcases List.mem_singleton.1 h with rfl; cases hc) (tr _ rfl rfl) vi
  have t3 : FileTable (α := Track) narrowList d.content.header .plain Res.ok (.ok []) :=
    .rows (before := [⟨.plain .playlistTree, 0, ⟨5⟩, ⟨5⟩⟩, ⟨.plain .artists, 0, ⟨5⟩, ⟨5⟩⟩]) e3 rfl
      (fun t h hc => by
        simp only [List.mem_cons, List.not_mem_nil, or_false] at h
        rcases h with rfl | rfl <;> cases hc) (tr _ rfl rfl) vi
  have t4 : FileTable (α := PlaylistEntry) narrowList d.content.header .plain Res.ok (.ok []) :=
    .rows (before := [⟨.plain .playlistTree, 0, ⟨5⟩, ⟨5⟩⟩, ⟨.plain .artists, 0, ⟨5⟩, ⟨5⟩⟩,
      ⟨.plain .tracks, 0, ⟨5⟩, ⟨5⟩⟩]) e3 rfl
      (fun t h hc => by
        simp only [List.mem_cons, List.not_mem_nil, or_false] at h
        rcases h with rfl | rfl | rfl <;> cases hc) (tr _ rfl rfl) vi
  refine ⟨d, ho, t1, t2, t3, t4, ?_, ?_⟩
  · rw [listPlaylistsWrap_eq lossy ho t1 t2 t3 t4]
    rfl
  · obtain ⟨d', nodes, artists, tracks, entries, g0, g1, -, -, -, -, g2⟩ :=
      ((list_playlists_problem lossy 1 (some narrowList)).2 _ rfl).resolve_left fun ⟨e, he, _⟩ => by
        rw [ho] at he
        cases he
    rw [ho] at g0
    cases g0
    have hp : d.Table (α := PlaylistTreeNode) Res.ok .panic :=
      .rows (before := []) e3 rfl (fun _ h => (by cases h)) (l := []) (.panics (by decide) e4) (.panics rfl)
    obtain ⟨x, -, hu⟩ := table_exists_unique (α := PlaylistTreeNode) d Res.ok
    rw [hu _ g1, ← hu _ hp] at g2
    exact g2 rfl

/-- A name that is not valid. -/
example : ∃ d nodes artists tracks entries, Database.openAt badNameFile 0 .plain = .ok d ∧
    FileTable badNameFile d.content.header .plain Res.ok (.ok nodes) ∧
    FileTable badNameFile d.content.header .plain Res.ok (.ok artists) ∧
    FileTable badNameFile d.content.header .plain Res.ok (.ok tracks) ∧
    FileTable badNameFile d.content.header .plain Res.ok (.ok entries) ∧ LoopFree nodes ∧
    ¬ AllShowable (fun _ => "") nodes artists tracks entries := by
  have hd : listDataWrap (listDb badNameFile) = .ok (badNameNodes, oneArtist, listTracks, []) := by
    rw [listDataWrap_same _ (by rw [listDb_data badNameFile_rows]; exact fun h => (by cases h)),
      listDb_data badNameFile_rows]
  obtain ⟨t1, t2, t3, t4⟩ := tables_of_data badNameFile_open hd
  refine ⟨_, _, _, _, _, badNameFile_open, t1, t2, t3, t4, ?_, fun hs => ?_⟩
  · have hp : ProperIds badNameNodes := ⟨by decide +kernel, by decide +kernel⟩
    exact fun id h h' => hp.asFolders.cycleFree id (linked_iff.1 h) (under_iff.1 h')
  · have h : (listPlaylistsWrap (fun _ => "") 3 (some badNameFile)).outcome = some .panic := by
      rw [listPlaylistsWrap_eq _ badNameFile_open t1 t2 t3 t4]
      simp only [Res.seq]
      decide +kernel
    cases (list_playlists_release_outcome _ badNameFile_open t1 t2 t3 t4 h).1.2 hs

/-- A table with a row of another type. -/
example : FileTable (α := PlaylistTreeNode) (exampleFile .playlistTree 2 3) (exampleDb .playlistTree 2 3).content.header
    .plain Res.ok .panic :=
  (release_table_panics_iff mixed_open).2 mixed_foreign

end Rekordcrate
