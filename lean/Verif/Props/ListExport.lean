import Verif.Lemmas.ListExport
import Verif.Props.ListingFile
import Verif.Props.Table

/-! # C92: what is exported is what is listed -/

namespace Rekordcrate

theorem visited_both {α β : Type} [RowVariant α] {f : α → Res β} {r : Res Unit} {xs : List Row} {as : List α}
    {out : Res (List β)} (h1 : Visited Res.ok r xs (.ok as)) (h2 : Visited f r xs out) :
    (∃ bs, out = .ok bs ∧ Pointwise (fun a b => f a = .ok b) as bs) ∨
    (∃ a ∈ as, ∃ e, f a = .err e ∧ out = .err e) ∨ (∃ a ∈ as, f a = .panic ∧ out = .panic) := by
  induction xs generalizing as out with
  | nil =>
    cases h1 with
    | done h =>
      cases h2 with
      | done _ => exact .inl ⟨[], rfl, .nil⟩
      | fails h' => rw [h] at h'; cases h'
      | panics h' => rw [h] at h'; cases h'
  | cons x xs ih =>
    cases h1 with
    | next h hf t =>
      injection hf with hf
      subst hf
      cases h2 with
      | misfit h' => rw [h] at h'; cases h'
      | refused h' hf => rw [h] at h'; cases h'; exact .inr (.inl ⟨_, by simp, _, hf, rfl⟩)
      | refusedPanic h' hf => rw [h] at h'; cases h'; exact .inr (.inr ⟨_, by simp, hf, rfl⟩)
      | next h' hf t' =>
        rw [h] at h'; cases h'
        rcases ih t t' with ⟨bs, g1, g2⟩ | ⟨a, _, e, _, g⟩ | ⟨a, _, _, g⟩
        · cases g1
          exact .inl ⟨_, rfl, .cons hf g2⟩
        · cases g
        · cases g
      | nextFails h' hf t' =>
        rcases ih t t' with ⟨bs, g1, g2⟩ | ⟨a, ha, e, he, g⟩ | ⟨a, _, _, g⟩
        · cases g1
        · exact .inr (.inl ⟨a, by simp [ha], e, he, g⟩)
        · cases g
      | nextPanics h' hf t' =>
        rcases ih t t' with ⟨bs, g1, g2⟩ | ⟨a, ha, e, he, g⟩ | ⟨a, ha, he, g⟩
        · cases g1
        · cases g
        · exact .inr (.inr ⟨a, by simp [ha], he, g⟩)

/-- A loop over a table whose rows can all be read: what the body makes of the rows, or its failure. -/
theorem table_both {α β : Type} [RowVariant α] {d : Database} {f : α → Res β} {as : List α} {out : Res (List β)}
    (h1 : d.Table Res.ok (.ok as)) (h2 : d.Table f out) :
    (∃ bs, out = .ok bs ∧ Pointwise (fun a b => f a = .ok b) as bs) ∨
    (∃ a ∈ as, ∃ e, f a = .err e ∧ out = .err e) ∨ (∃ a ∈ as, f a = .panic ∧ out = .panic) := by
  cases h1 with
  | @rows b a t l r _ ht hp hb hl hv =>
    cases h2 with
    | missing h => exact absurd hp (h t (by rw [ht]; simp))
    | @rows b' a' t' l' r' _ ht' hp' hb' hl' hv' =>
      rw [ht] at ht'
      cases first_unique ht' hp hp' hb hb'
      obtain ⟨rfl, rfl⟩ := hl.unique hl'
      exact visited_both hv hv'

theorem trackPath_cases (t : Track) :
    (∃ s, t.offsets.inner.filePath.intoString = .ok s ∧ trackPath t = .ok (t.id, s)) ∨
      (t.offsets.inner.filePath.intoString = .err .encoding ∧ trackPath t = .err .encoding) := by
  unfold trackPath
  rcases intoString_cases t.offsets.inner.filePath with ⟨s, h⟩ | h
  · exact .inl ⟨s, h, by rw [h]⟩
  · exact .inr ⟨h, by rw [h]⟩

theorem pathOf_eq {tracks : List Track} {paths : List (UInt32 × String)}
    (h : Pointwise (fun a b => trackPath a = .ok b) tracks paths) (id : UInt32) :
    (rowWith Track.id tracks id = none ∧ pathOf paths id = none) ∨
    ∃ t s, rowWith Track.id tracks id = some t ∧ t.offsets.inner.filePath.intoString = .ok s ∧
      pathOf paths id = some s := by
  have hid : ∀ t p, trackPath t = .ok p → p.1 = t.id ∧ t.offsets.inner.filePath.intoString = .ok p.2 := by
    intro t p ht
    rcases trackPath_cases t with ⟨s, g1, g2⟩ | ⟨-, g⟩
    · rw [g2] at ht
      cases ht
      exact ⟨rfl, g1⟩
    · rw [g] at ht
      cases ht
  have hf := pointwise_filter (p := fun t : Track => decide (t.id = id))
    (q := fun p : UInt32 × String => decide (p.1 = id)) (fun a b hab => by rw [(hid a b hab).1]) h
  unfold rowWith pathOf
  rcases pointwise_getLast hf with ⟨h1, h2⟩ | ⟨t, p, h1, h2, h3⟩
  · exact .inl ⟨h1, by rw [h2]; rfl⟩
  · exact .inr ⟨t, p.2, h1, (hid t p h3).2, by rw [h2]; rfl⟩

theorem lines_of_entries {tracks : List Track} {paths : List (UInt32 × String)}
    (h : Pointwise (fun a b => trackPath a = .ok b) tracks paths) (root : FsPath) (l : List (UInt32 × UInt32)) :
    ∃ lines, Pointwise (EntryLine tracks root) l lines ∧
      (l.filterMap fun x => (pathOf paths x.2).map fun s => root.join (withoutSlash s.toList)) = lines.flatten := by
  induction l with
  | nil => exact ⟨[], .nil, rfl⟩
  | cons e l ih =>
    obtain ⟨lines, h1, h2⟩ := ih
    rcases pathOf_eq h e.2 with ⟨g1, g2⟩ | ⟨t, s, g1, g2, g3⟩
    · exact ⟨[] :: lines, .cons (.noTrack g1) h1, by rw [List.filterMap_cons, g2]; simpa using h2⟩
    · exact ⟨_ :: lines, .cons (.path g1 g2) h1, by rw [List.filterMap_cons, g3]; simpa using h2⟩

/-- What `list-playlists` has read. -/
theorem listed_tables {lossy : Bytes → String} {m : Nat} {file : Bytes} {text : List Char}
    (hl : listPlaylists lossy m (some file) = ⟨text, some (.ok ())⟩) :
    ∃ d nodes artists tracks entries, Database.openAt file 0 .plain = .ok d ∧
      d.Table (α := PlaylistTreeNode) Res.ok (.ok nodes) ∧ d.Table (α := Artist) Res.ok (.ok artists) ∧
      d.Table (α := Track) Res.ok (.ok tracks) ∧ d.Table (α := PlaylistEntry) Res.ok (.ok entries) ∧
      listData d = .ok (nodes, artists, tracks, entries) ∧ ListingReturns lossy d (text, .ok ()) := by
  unfold listPlaylists at hl
  simp only at hl
  cases ho : Database.openAt file 0 .plain with
  | err e => rw [ho] at hl; cases hl
  | panic => rw [ho] at hl; cases hl
  | ok d =>
    simp only [ho] at hl
    obtain ⟨x1, h1, -⟩ := table_exists_unique (α := PlaylistTreeNode) d Res.ok
    obtain ⟨x2, h2, -⟩ := table_exists_unique (α := Artist) d Res.ok
    obtain ⟨x3, h3, -⟩ := table_exists_unique (α := Track) d Res.ok
    obtain ⟨x4, h4, -⟩ := table_exists_unique (α := PlaylistEntry) d Res.ok
    have hd := list_data_tables h1 h2 h3 h4
    have hr : ListingReturns lossy d (text, .ok ()) := ⟨m, hl⟩
    unfold listPlaylistsOf at hl
    rw [hd] at hl
    cases x1 with
    | err e => simp [Res.seq] at hl
    | panic => simp [Res.seq] at hl
    | ok nodes =>
      cases x2 with
      | err e => simp [Res.seq] at hl
      | panic => simp [Res.seq] at hl
      | ok artists =>
        cases x3 with
        | err e => simp [Res.seq] at hl
        | panic => simp [Res.seq] at hl
        | ok tracks =>
          cases x4 with
          | err e => simp [Res.seq] at hl
          | panic => simp [Res.seq] at hl
          | ok entries => exact ⟨d, nodes, artists, tracks, entries, rfl, h1, h2, h3, h4, hd, hr⟩

theorem listed_tree {n : Nat} {d : Database} {nodes : List PlaylistTreeNode}
    (h : d.Table (α := PlaylistTreeNode) Res.ok (.ok nodes)) : (d.allRows PlaylistTreeNode).1 = .ok nodes ∧
      getPlaylists n d = childNodes (ChildMap.build nodes) n 0 := by
  have h1 : (d.allRows PlaylistTreeNode).1 = .ok nodes := by
    obtain ⟨out, -, hu⟩ := table_exists_unique (α := PlaylistTreeNode) d Res.ok
    rw [hu _ h]
    exact hu _ (collect_rows_table (α := PlaylistTreeNode) d Res.ok).1
  refine ⟨h1, ?_⟩
  unfold getPlaylists
  rw [h1]

/-- C92: if the playlists of a file can be listed, then what the export asks for is described by the same rows.
The exported playlists are among the listed ones, in the same order; they are all of them exactly if no playlist
is below a playlist.  Every file has the name that is listed, in the directory that the folders lead to, and for
every listed entry the path of the track, unless the listing says that there is no such track.  Otherwise nothing
is requested, and a name or path that the export needs is not text. -/
theorem export_matches_listing {lossy : Bytes → String} {m n : Nat} {file : Bytes} {text : List Char}
    {root out : FsPath} {works : List FsOp → FsOp → Bool} {done : List FsOp} {res : Res Unit}
    (hl : listPlaylists lossy m (some file) = ⟨text, some (.ok ())⟩)
    (he : exportPlaylists n (some file) root out works = some (done, res)) :
    ∃ d nodes artists tracks entries hs paras, Database.openAt file 0 .plain = .ok d ∧
      d.Table (α := PlaylistTreeNode) Res.ok (.ok nodes) ∧ d.Table (α := Artist) Res.ok (.ok artists) ∧
      d.Table (α := Track) Res.ok (.ok tracks) ∧ d.Table (α := PlaylistEntry) Res.ok (.ok entries) ∧
      Outline nodes 0 (nodes.filter fun r => r.parentId = 0) hs ∧
      Pointwise (NodeText lossy artists tracks entries) hs paras ∧ text = linesText paras.flatten ∧
      ((res = .err .encoding ∧ done = [] ∧
          ((∃ r ∈ nodes, Reached nodes r.parentId ∧ r.name.intoString = .err .encoding) ∨
            ∃ t ∈ tracks, t.offsets.inner.filePath.intoString = .err .encoding)) ∨
        ∃ ps files, Filed nodes out (nodes.filter fun r => r.parentId = 0) ps ∧
          (ps.map Prod.fst).Sublist (playlistsOf hs) ∧
          (ps.map Prod.fst = playlistsOf hs ↔ ∀ x ∈ playlistsOf hs, ∀ r ∈ nodes, r.nodeIsFolder = 0 →
            ¬ (r.parentId = x.id ∨ Under nodes x.id r.parentId)) ∧
          Pointwise (fun p f => ∃ name l lines, p.1.name.display lossy = .ok name ∧ EntriesOf entries p.1.id l ∧
            Pointwise (EntryLine tracks root) l lines ∧ f = (p.2, playlistFile name p.2, lines.flatten)) ps files ∧
          (∃ k, done = (requestsFor files).take k) ∧ (res = .ok () → done = requestsFor files)) := by
  obtain ⟨d, nodes, artists, tracks, entries, ho, h1, h2, h3, h4, hd, hr⟩ := listed_tables hl
  obtain ⟨hs, paras, g1, -, g3, g4⟩ := listing_text hd hr
  refine ⟨d, nodes, artists, tracks, entries, hs, paras, ho, h1, h2, h3, h4, g1, g3, g4, ?_⟩
  obtain ⟨paths, h5, -⟩ := table_exists_unique d trackPath
  obtain ⟨a1, a2⟩ := listed_tree (n := n) h1
  have he' := he
  unfold exportPlaylists at he'
  simp only [ho] at he'
  cases hp : getPlaylists n d with
  | none =>
    unfold exportData at he'
    rw [hp] at he'
    cases he'
  | some x =>
    have hx := export_data_tables hp h4 h5
    rw [hx] at he'
    cases x with
    | ok tree =>
      rcases table_both h3 h5 with ⟨bs, rfl, hb⟩ | ⟨t, ht, e, g5, rfl⟩ | ⟨t, ht, g5, rfl⟩
      · refine .inr ?_
        rw [a2] at hp
        obtain ⟨ps, b1, b2⟩ := filed_of_childNodes hp out
        obtain ⟨files, b3, b4⟩ := export_requests he ho hx
        refine ⟨ps, files, b1, g1.filed_sublist b1, g1.filed_all_iff b1, ?_, b4⟩
        clear b1 b4 hx hp he he'
        generalize exportedOf out tree = ys at b2 b3
        induction b2 generalizing files with
        | nil => cases b3; exact .nil
        | @cons p y ps ys e1 _ ih =>
          cases b3 with
          | @cons _ f _ files e2 t =>
            refine .cons ?_ (ih _ t)
            obtain ⟨c1, c2, c3⟩ := e1
            obtain ⟨c4, c5, l, c6, c7, c8⟩ := e2
            obtain ⟨lines, c9, c10⟩ := lines_of_entries hb root l
            refine ⟨y.2.1, l, lines, (string_display_partial lossy _).2 _ c2, ⟨c6, ?_⟩, c9, ?_⟩
            · rw [← c1]; exact c7
            · rw [← c10, ← c8, ← c3, ← c5, ← c4]
      · have g6 := trackPath_cases t
        rw [g5] at g6
        obtain ⟨s, -, g⟩ | ⟨g6, g⟩ := g6
        · cases g
        · cases g
          injection he' with he'
          injection he' with e1 e2
          exact .inl ⟨e2.symm, e1.symm, .inr ⟨t, ht, g6⟩⟩
      · have g6 := trackPath_cases t
        rw [g5] at g6
        obtain ⟨s, -, g⟩ | ⟨g6, g⟩ := g6 <;> cases g
    | err e =>
      injection he' with he'
      injection he' with e1 e2
      rcases get_playlists_failure ⟨n, hp⟩ (by simp) with ⟨_, g, -⟩ | ⟨g, -⟩ | ⟨rows, g5, g6, g7⟩
      · rw [a1] at g; cases g
      · rw [a1] at g; cases g
      · rw [a1] at g5
        cases g5
        cases g6
        exact .inl ⟨e2.symm, e1.symm, .inl g7⟩
    | panic =>
      rcases get_playlists_failure ⟨n, hp⟩ (by simp) with ⟨_, g, -⟩ | ⟨g, -⟩ | ⟨rows, g5, g6, g7⟩
      · rw [a1] at g; cases g
      · rw [a1] at g; cases g
      · cases g6

/-- Folders below folders are nodes below nodes. -/
theorem Below.under {rows : List PlaylistTreeNode} {a b : UInt32} (h : Below rows a b) : Under rows a b := by
  induction h with
  | one h => obtain ⟨r, h1, -, h2, h3⟩ := h; exact .one ⟨r, h1, h2, h3⟩
  | step t h ih => obtain ⟨r, h1, -, h2, h3⟩ := h; exact .step ih ⟨r, h1, h2, h3⟩

/-- C92: if the listing comes to an end, so does the export. -/
theorem export_ends_if_listing_ends {lossy : Bytes → String} {m : Nat} {file : Bytes} {text : List Char}
    (hl : listPlaylists lossy m (some file) = ⟨text, some (.ok ())⟩) (root out : FsPath)
    (works : List FsOp → FsOp → Bool) : ∃ n x, exportPlaylists n (some file) root out works = some x := by
  obtain ⟨d, nodes, artists, tracks, entries, ho, h1, h2, h3, h4, hd, hr⟩ := listed_tables hl
  have hf := (listing_returns_iff hd ((listing_outcome hd hr).1.1 rfl)).1 ⟨_, hr⟩
  obtain ⟨a1, -⟩ := listed_tree (n := 0) h1
  obtain ⟨r, n, hn⟩ := get_playlists_terminates_partial d fun rows h => by
    rw [a1] at h
    cases h
    intro id hi hb
    exact hf id (hi.imp (fun h => h) Below.under) hb.under
  obtain ⟨paths, h5, -⟩ := table_exists_unique d trackPath
  refine ⟨n, ?_⟩
  unfold exportPlaylists
  simp only [ho, export_data_tables hn h4 h5]
  cases r.seq (Res.seq (.ok entries) paths) with
  | ok x => exact ⟨_, rfl⟩
  | err e => exact ⟨_, rfl⟩
  | panic => exact ⟨_, rfl⟩

/-! ## Examples -/

theorem listRows_tables {file : Bytes} {nodes : List PlaylistTreeNode} {artists : List Artist} {tracks : List Track}
    {entries : List PlaylistEntry} (hr : ListRows file nodes artists tracks entries) :
    (listDb file).Table (α := PlaylistTreeNode) Res.ok (.ok nodes) ∧
      (listDb file).Table (α := Track) Res.ok (.ok tracks) ∧
      (listDb file).Table (α := PlaylistEntry) Res.ok (.ok entries) := by
  have hd := listDb_data hr
  obtain ⟨x1, h1, -⟩ := table_exists_unique (α := PlaylistTreeNode) (listDb file) Res.ok
  obtain ⟨x2, h2, -⟩ := table_exists_unique (α := Artist) (listDb file) Res.ok
  obtain ⟨x3, h3, -⟩ := table_exists_unique (α := Track) (listDb file) Res.ok
  obtain ⟨x4, h4, -⟩ := table_exists_unique (α := PlaylistEntry) (listDb file) Res.ok
  rw [list_data_tables h1 h2 h3 h4] at hd
  cases x1 <;> cases x2 <;> cases x3 <;> cases x4 <;> simp [Res.seq] at hd
  obtain ⟨rfl, -, rfl, rfl⟩ := hd
  exact ⟨h1, h3, h4⟩

theorem listRows_export {file : Bytes} {nodes : List PlaylistTreeNode} {artists : List Artist} {tracks : List Track}
    {entries : List PlaylistEntry} (hr : ListRows file nodes artists tracks entries)
    {paths : List (UInt32 × String)} (hp : Pointwise (fun a b => trackPath a = .ok b) tracks paths) {n : Nat}
    {tree : List PlaylistNode} (ht : childNodes (ChildMap.build nodes) n 0 = some (.ok tree)) :
    exportData n (listDb file) = some (.ok (tree, entries, paths)) := by
  obtain ⟨h1, h3, h4⟩ := listRows_tables hr
  obtain ⟨x, h5, -⟩ := table_exists_unique (listDb file) trackPath
  rw [export_data_tables ((listed_tree h1).2.trans ht) h4 h5]
  have hu : ∀ {as : List Track} {bs cs : List (UInt32 × String)}, Pointwise (fun a b => trackPath a = .ok b) as bs →
      Pointwise (fun a b => trackPath a = .ok b) as cs → bs = cs := by
    intro as bs cs h1 h2
    induction h1 generalizing cs with
    | nil => cases h2; rfl
    | cons h _ ih =>
      cases h2 with
      | cons h' t' =>
        rw [h] at h'
        injection h' with h'
        rw [h', ih t']
  rcases table_both h3 h5 with ⟨bs, rfl, hb⟩ | ⟨t, ht, e, g, rfl⟩ | ⟨t, ht, g, rfl⟩
  · rw [hu hb hp]
    rfl
  · obtain ⟨p, -, hp⟩ := hp.mem_left ht
    rw [g] at hp
    cases hp
  · obtain ⟨p, -, hp⟩ := hp.mem_left ht
    rw [g] at hp
    cases hp

/-- What the export of the listed file asks for; see `listedFile_text` for what is listed. -/
theorem listedFile_export : exportPlaylists 2 (some listedFile) "/usb".toList "out".toList (fun _ _ => true) =
    some ([.createDirs "out/F".toList, .createFile "out/F/P.m3u".toList,
      .canonicalize, .writeLine "out/F/P.m3u".toList "/usb/n".toList,
      .canonicalize, .writeLine "out/F/P.m3u".toList "/usb/m".toList,
      .createDirs "out".toList, .createFile "out/P.m3u".toList,
      .canonicalize, .writeLine "out/P.m3u".toList "/usb/m".toList], .ok ()) := by
  have ht : childNodes (ChildMap.build goodNodes) 2 0 = some (.ok goodTree) := by
    have hF : DString.intoString (.short [70]) = .ok "F" := by decide +kernel
    have hP : DString.intoString (.short [80]) = .ok "P" := by decide +kernel
    simp [childNodes, ChildMap.build_getD, goodNodes, namedRow, treeRow, collectNodes, nodeOf, goodTree,
      PlaylistTreeNode.isFolder, hF, hP]
  have hp : Pointwise (fun a b => trackPath a = .ok b) listTracks [(1, "/m"), (2, "n")] :=
    .cons (by decide +kernel) (.cons (by decide +kernel) .nil)
  unfold exportPlaylists
  simp only [listedFile_open, listRows_export listedFile_rows hp ht]
  decide +kernel

/-- C92: the example meets the hypotheses of `export_matches_listing`. -/
example : ∃ text done, listPlaylists (fun _ => "") 3 (some listedFile) = ⟨text, some (.ok ())⟩ ∧
    exportPlaylists 2 (some listedFile) "/usb".toList "out".toList (fun _ _ => true) = some (done, .ok ()) :=
  ⟨_, _, listedFile_text, listedFile_export⟩

/-- A playlist, and a playlist below it. -/
def nestedNodes : List PlaylistTreeNode := [namedRow 0 1 0 [80], namedRow 1 2 0 [81]]

/-- The file with these rows. -/
def nestedFile : Bytes := listFile nestedNodes [] [] []

theorem nestedFile_open : Database.openAt nestedFile 0 .plain = .ok (listDb nestedFile) := by decide +kernel

theorem nestedFile_rows : ListRows nestedFile nestedNodes [] [] [] := by decide +kernel

/-- C92: the full property is false: a playlist below a playlist is listed but not exported, and nothing reports
it. -/
theorem export_leaves_out_listed : ∃ file,
    listPlaylists (fun _ => "") 3 (some file) = ⟨linesText ["🗎 P", "    🗎 Q"], some (.ok ())⟩ ∧
    ∀ works, (∀ done op, works done op = true) → exportPlaylists 1 (some file) "/usb".toList "out".toList works =
      some ([.createDirs "out".toList, .createFile "out/P.m3u".toList], .ok ()) := by
  refine ⟨nestedFile, ?_, fun works hw => ?_⟩
  · unfold listPlaylists
    simp only [nestedFile_open]
    unfold listPlaylistsOf
    rw [listDb_data nestedFile_rows]
    decide +kernel
  · have ht : childNodes (ChildMap.build nestedNodes) 1 0 = some (.ok [.playlist 1 "P"]) := by
      have hP : DString.intoString (.short [80]) = .ok "P" := by decide +kernel
      simp [childNodes, ChildMap.build_getD, nestedNodes, namedRow, treeRow, collectNodes, nodeOf,
        PlaylistTreeNode.isFolder, hP]
    have hw : works = fun _ _ => true := by
      funext a b
      exact hw a b
    subst hw
    unfold exportPlaylists
    simp only [nestedFile_open, listRows_export nestedFile_rows .nil ht]
    decide +kernel

/-- C92: the converse of `export_ends_if_listing_ends` is false: the export of a file whose listing never ends. -/
theorem export_ends_listing_does_not : ∃ file,
    (∀ lossy n, (listPlaylists lossy n (some file)).outcome = none) ∧
    ∀ root out works, ∃ n x, exportPlaylists n (some file) root out works = some x := by
  obtain ⟨file, d, nodes, artists, tracks, entries, ho, hd, hc, hv, hn⟩ := listing_diverges
  refine ⟨file, fun lossy n => ?_, fun root out works => ?_⟩
  · unfold listPlaylists
    simp only [ho]
    exact hn lossy n
  · obtain ⟨x1, h1, -⟩ := table_exists_unique (α := PlaylistTreeNode) d Res.ok
    obtain ⟨x2, h2, -⟩ := table_exists_unique (α := Artist) d Res.ok
    obtain ⟨x3, h3, -⟩ := table_exists_unique (α := Track) d Res.ok
    obtain ⟨x4, h4, -⟩ := table_exists_unique (α := PlaylistEntry) d Res.ok
    obtain ⟨x5, h5, -⟩ := table_exists_unique d trackPath
    rw [list_data_tables h1 h2 h3 h4] at hd
    cases x1 <;> cases x2 <;> cases x3 <;> cases x4 <;> simp [Res.seq] at hd
    obtain ⟨rfl, -, rfl, rfl⟩ := hd
    obtain ⟨r, n, hr⟩ := get_playlists_terminates_partial d fun rows h => by
      rw [(listed_tree (n := 0) h1).1] at h
      cases h
      exact hc
    refine ⟨n, ?_⟩
    unfold exportPlaylists
    simp only [ho, export_data_tables hr h4 h5]
    generalize r.seq (Res.seq _ x5) = y
    cases y with
    | ok x => exact ⟨_, rfl⟩
    | err e => exact ⟨_, rfl⟩
    | panic => exact ⟨_, rfl⟩

end Rekordcrate
