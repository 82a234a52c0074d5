import Verif.Props.Cli

/-! # C59, C60: exports from files -/

namespace Rekordcrate

/-- The id and the path of a track row, as text. -/
def trackPath (t : Track) : Res (UInt32 × String) :=
  match t.offsets.inner.filePath.intoString with
  | .ok s => .ok (t.id, s)
  | .err e => .err e
  | .panic => .panic

/-- C59: what the export works on, for a file in which the three tables have well-formed chains of pages of
their type: the tree that `get_playlists` gives for the first table, the rows of the second, and ids and paths
of the rows of the third, all in the order of the file. -/
theorem export_data_of_file {d : Database} (hn : ∀ x ∈ d.content.pages, x = .notLoaded)
    {k1 k2 k3 : Nat} {t1 t2 t3 : Table} {l1 l2 l3 : List (Nat × Page)}
    (f1 : d.content.header.findTable (.plain .playlistTree) = some (k1, t1))
    (c1 : d.Chain t1.lastPage.val.toNat t1.firstPage.val.toNat l1)
    (p1 : ∀ x ∈ l1, x.2.header.pageType = .plain .playlistTree)
    (f2 : d.content.header.findTable (.plain .playlistEntries) = some (k2, t2))
    (c2 : d.Chain t2.lastPage.val.toNat t2.firstPage.val.toNat l2)
    (p2 : ∀ x ∈ l2, x.2.header.pageType = .plain .playlistEntries)
    (f3 : d.content.header.findTable (.plain .tracks) = some (k3, t3))
    (c3 : d.Chain t3.lastPage.val.toNat t3.firstPage.val.toNat l3)
    (p3 : ∀ x ∈ l3, x.2.header.pageType = .plain .tracks) :
    ∃ nodes entries tracks,
      Pointwise (fun x r => x.2.2 = .plain (.playlistTreeNode r)) (rowsOf l1) nodes ∧
      Pointwise (fun x r => x.2.2 = .plain (.playlistEntry r)) (rowsOf l2) entries ∧
      Pointwise (fun x r => x.2.2 = .plain (.track r)) (rowsOf l3) tracks ∧
      (d.allRows PlaylistTreeNode).1 = .ok nodes ∧
      ∀ n tree, getPlaylists n d = some (.ok tree) → exportData n d = some (match mapRes trackPath tracks with
        | .ok paths => .ok (tree, entries, paths)
        | .err e => .err e
        | .panic => .panic) := by
  obtain ⟨-, -, -, -, -, -, -, -, -, -, L1, L2, -, L3, -⟩ := row_variants_lawful
  obtain ⟨nodes, a1, a2, a3, a4⟩ := all_rows_of_file L1 f1 c1 hn p1
  have hh : ∀ {d' : Database} {pt : PageType} {r : Option (Nat × Table)}, d'.content.header = d.content.header →
      d.content.header.findTable pt = r → d'.content.header.findTable pt = r := fun h h' => by rw [h]; exact h'
  obtain ⟨entries, b1, b2, b0⟩ := collect_rows_of_chain L2 Res.ok (d := (d.allRows PlaylistTreeNode).2) (hh a3 f2)
    (c2.congr a4) (chain_rows_fit c2 hn p2)
  rw [mapRes_ok] at b2 b0
  obtain ⟨b3, b4⟩ := b0 ⟨_, rfl⟩
  obtain ⟨tracks, e1, e2, -⟩ := collect_rows_of_chain L3 (fun t => do
          let s ← t.offsets.inner.filePath.intoString
          .ok (t.id, s)) (d := ((d.allRows PlaylistTreeNode).2.allRows PlaylistEntry).2)
    (hh (b3.trans a3) f3) (c3.congr fun n h => (b4 n h).trans (a4 n h)) (chain_rows_fit c3 hn p3)
  refine ⟨nodes, entries, tracks, ?_, ?_, ?_, a1, ?_⟩
  · clear a1
    generalize rowsOf l1 = xs at a2
    induction a2 with
    | nil => exact .nil
    | cons h _ ih =>
      refine .cons ?_ ih
      simp only [RowVariant.fromRow] at h
      split at h
      · injection h with h
        rename_i e
        rw [e, h]
      · cases h
  · clear b0 b2 b3 b4 e1 e2
    generalize rowsOf l2 = xs at b1
    induction b1 with
    | nil => exact .nil
    | cons h _ ih =>
      refine .cons ?_ ih
      simp only [RowVariant.fromRow] at h
      split at h
      · injection h with h
        rename_i e
        rw [e, h]
      · cases h
  · clear e2
    generalize rowsOf l3 = xs at e1
    induction e1 with
    | nil => exact .nil
    | cons h _ ih =>
      refine .cons ?_ ih
      simp only [RowVariant.fromRow] at h
      split at h
      · injection h with h
        rename_i e
        rw [e, h]
      · cases h
  · intro n tree ht
    unfold exportData
    rw [ht]
    simp only
    change ((d.allRows PlaylistTreeNode).2.allRows PlaylistEntry).1 = _ at b2
    generalize (d.allRows PlaylistTreeNode).2.allRows PlaylistEntry = x at b2 e2
    obtain ⟨x1, x2⟩ := x
    simp only at b2 e2
    subst b2
    simp only
    rw [e2]
    have : (fun t : Track => (do
          let s ← t.offsets.inner.filePath.intoString
          .ok (t.id, s) : Res (UInt32 × String))) = trackPath := by
      funext t
      unfold trackPath
      show (t.offsets.inner.filePath.intoString).bind _ = _
      cases t.offsets.inner.filePath.intoString <;> rfl
    rw [this]
    cases mapRes trackPath tracks <;> rfl

/-! ## Example files -/

/-- A page of 512 bytes with some rows of `w` bytes. -/
def dataPage512 (pt : PlainPageType) (idx : UInt32) (w : Nat) (rows : List Bytes) : Bytes :=
  (Page.fresh 46 ⟨idx⟩ ⟨9⟩ (.plain pt) ⟨1, 0, 0, 0⟩).header.enc.take 24 ++
    PackedRowCounts.enc ⟨Fin.ofNat _ rows.length, Fin.ofNat _ rows.length⟩ ++
    [0x24, 0, 0] ++ encU16 (UInt16.ofNat (rows.length * w)) ++ [UInt8.ofNat rows.length, 0, 0, 0, 0, 0, 0, 0] ++
    rows.flatten ++ List.replicate (436 - rows.length * w) 0 ++ List.replicate (2 * (16 - rows.length)) 0 ++
    (List.range rows.length).reverse.flatMap (fun i => encU16 (UInt16.ofNat (i * w))) ++
    encU16 (UInt16.ofNat (2 ^ rows.length - 1)) ++ [0, 0]

/-- The bytes of a row, padded. -/
def rowBytes (w : Nat) (r : Row) : Bytes :=
  match r.write 0 with
  | .ok (_, _, ps) => (applyPatches [] ps ++ List.replicate w 0).take w
  | _ => []

/-- A header with the three tables, one page each. -/
def exportHeader : Header where
  pageSize := 512
  numTables := 3
  nextUnusedPage := ⟨4⟩
  unknown := 5
  sequence := 1
  tables := [⟨.plain .tracks, 0, ⟨3⟩, ⟨3⟩⟩, ⟨.plain .playlistTree, 0, ⟨1⟩, ⟨1⟩⟩, ⟨.plain .playlistEntries, 0, ⟨2⟩, ⟨2⟩⟩]

/-- A file with these rows. -/
def exportFile (nodes : List PlaylistTreeNode) (entries : List PlaylistEntry) (tracks : List Track) : Bytes :=
  exportHeader.enc ++ List.replicate 436 0 ++
    dataPage512 .playlistTree 1 24 (nodes.map fun r => rowBytes 24 (.plain (.playlistTreeNode r))) ++
    dataPage512 .playlistEntries 2 12 (entries.map fun r => rowBytes 12 (.plain (.playlistEntry r))) ++
    dataPage512 .tracks 3 200 (tracks.map fun r => rowBytes 200 (.plain (.track r)))

/-- The database opened from a file with this header. -/
def exportDb (file : Bytes) : Database where
  io := file
  dbType := .plain
  content := { header := exportHeader, pages := [.notLoaded, .notLoaded, .notLoaded] }

/-- A page of the database. -/
def exportDbPage (file : Bytes) (n : Nat) : Page :=
  match (exportDb file).view n with
  | .ok pg => pg
  | _ => Page.fresh 0 ⟨0⟩ ⟨0⟩ (.plain .playlistTree) ⟨0, 0, 0, 0⟩

theorem pointwise_map {α β γ : Type} {f : β → γ} {g : α → γ} {l : List α} {rows rows' : List β}
    (hf : ∀ a b, f a = f b → a = b) (h : Pointwise (fun x r => g x = f r) l rows) (h' : l.map g = rows'.map f) :
    rows = rows' := by
  induction h generalizing rows' with
  | nil =>
    cases rows' with
    | nil => rfl
    | cons _ _ => cases h'
  | cons h t ih =>
    cases rows' with
    | nil => cases h'
    | cons r rs =>
      injection h' with h1 h2
      rw [hf _ _ (h.symm.trans h1), ih h2]

/-- The pages of the file hold these rows. -/
def ExportRows (file : Bytes) (nodes : List PlaylistTreeNode) (entries : List PlaylistEntry) (tracks : List Track) :
    Prop :=
  ((exportDb file).view 1 = .ok (exportDbPage file 1) ∧
    (exportDbPage file 1).header.pageType = .plain .playlistTree ∧
    (rowsOf [(1, exportDbPage file 1)]).map (fun x => x.2.2) = nodes.map fun r => .plain (.playlistTreeNode r)) ∧
  ((exportDb file).view 2 = .ok (exportDbPage file 2) ∧
    (exportDbPage file 2).header.pageType = .plain .playlistEntries ∧
    (rowsOf [(2, exportDbPage file 2)]).map (fun x => x.2.2) = entries.map fun r => .plain (.playlistEntry r)) ∧
  (exportDb file).view 3 = .ok (exportDbPage file 3) ∧
    (exportDbPage file 3).header.pageType = .plain .tracks ∧
    (rowsOf [(3, exportDbPage file 3)]).map (fun x => x.2.2) = tracks.map fun r => .plain (.track r)

instance (file : Bytes) (nodes : List PlaylistTreeNode) (entries : List PlaylistEntry) (tracks : List Track) :
    Decidable (ExportRows file nodes entries tracks) := by unfold ExportRows; infer_instance

theorem exportDb_data {file : Bytes} {nodes : List PlaylistTreeNode} {entries : List PlaylistEntry}
    {tracks : List Track} (hr : ExportRows file nodes entries tracks)
    {paths : List (UInt32 × String)} {tree : List PlaylistNode} {n : Nat}
    (hp : mapRes trackPath tracks = .ok paths) (ht : childNodes (ChildMap.build nodes) n 0 = some (.ok tree)) :
    getPlaylists n (exportDb file) = some (.ok tree) ∧
    exportData n (exportDb file) = some (.ok (tree, entries, paths)) := by
  obtain ⟨⟨v1, h1, r1⟩, ⟨v2, h2, r2⟩, v3, h3, r3⟩ := hr
  obtain ⟨ns, es, ts, a1, a2, a3, a4, a5⟩ := export_data_of_file (d := exportDb file) (by simp [exportDb])
    (l1 := [(1, exportDbPage file 1)]) (l2 := [(2, exportDbPage file 2)]) (l3 := [(3, exportDbPage file 3)])
    (t1 := ⟨.plain .playlistTree, 0, ⟨1⟩, ⟨1⟩⟩) (t2 := ⟨.plain .playlistEntries, 0, ⟨2⟩, ⟨2⟩⟩)
    (t3 := ⟨.plain .tracks, 0, ⟨3⟩, ⟨3⟩⟩) (k1 := 1) (k2 := 2) (k3 := 0)
    (by show exportHeader.findTable _ = _; decide +kernel) (.last (by decide) v1) (by simpa using h1)
    (by show exportHeader.findTable _ = _; decide +kernel) (.last (by decide) v2) (by simpa using h2)
    (by show exportHeader.findTable _ = _; decide +kernel) (.last (by decide) v3) (by simpa using h3)
  have e1 := pointwise_map (fun a b h => by injection h with h; injection h) a1 r1
  have e2 := pointwise_map (fun a b h => by injection h with h; injection h) a2 r2
  have e3 := pointwise_map (fun a b h => by injection h with h; injection h) a3 r3
  subst e1 e2 e3
  have hg : getPlaylists n (exportDb file) = some (.ok tree) := by
    unfold getPlaylists
    rw [a4]
    exact ht
  refine ⟨hg, ?_⟩
  rw [a5 n tree hg, hp]

/-- Two tracks, with the offsets that the reader keeps. -/
def twoTracks : List Track :=
  let offsets := some (OffsetArray.u16 [136, 154, 155, 157, 159, 160, 161, 162, 165, 166, 167, 172, 173, 174, 175,
    178, 181, 184, 192, 193, 195])
  [{ exampleTrack with offsets := ⟨offsets, exampleTrack.offsets.inner⟩ },
    { exampleTrack with id := 2, offsets := ⟨offsets, { exampleTrack.offsets.inner with filePath := .short [110] }⟩ }]

/-- A row for a folder or a playlist. -/
def namedRow (parent id isFolder : UInt32) (name : Bytes) : PlaylistTreeNode :=
  { treeRow parent id isFolder 0 with name := .short name }

/-- Entries out of order, with a second row for an index, and with a track that does not exist. -/
def someEntries : List PlaylistEntry := [⟨7, 1, 2⟩, ⟨3, 1, 2⟩, ⟨5, 9, 2⟩, ⟨4, 1, 3⟩, ⟨3, 2, 2⟩]

theorem twoTracks_paths : mapRes trackPath twoTracks = .ok [(1, "/m"), (2, "n")] := by decide +kernel

/-- A folder "F" with a playlist "P", and a playlist "P" beside the folder. -/
def goodNodes : List PlaylistTreeNode := [namedRow 0 1 1 [70], namedRow 1 2 0 [80], namedRow 0 3 0 [80]]

/-- The file with these rows. -/
def goodFile : Bytes := exportFile goodNodes someEntries twoTracks

theorem goodFile_open : Database.openAt goodFile 0 .plain = .ok (exportDb goodFile) := by decide +kernel

theorem goodFile_rows : ExportRows goodFile goodNodes someEntries twoTracks := by decide +kernel

/-- The tree in the file. -/
def goodTree : List PlaylistNode := [.folder 1 "F" [.playlist 2 "P"], .playlist 3 "P"]

theorem goodFile_data : getPlaylists 2 (exportDb goodFile) = some (.ok goodTree) ∧
    exportData 2 (exportDb goodFile) = some (.ok (goodTree, someEntries, [(1, "/m"), (2, "n")])) := by
  refine exportDb_data goodFile_rows twoTracks_paths ?_
  have hF : DString.intoString (.short [70]) = .ok "F" := by decide +kernel
  have hP : DString.intoString (.short [80]) = .ok "P" := by decide +kernel
  simp [childNodes, ChildMap.build_getD, goodNodes, namedRow, treeRow, collectNodes, nodeOf, goodTree,
    PlaylistTreeNode.isFolder, hF, hP]

/-- What the export of the example asks for. -/
theorem goodFile_export : exportPlaylists 2 (some goodFile) "/usb".toList "out".toList (fun _ _ => true) =
    some ([.createDirs "out/F".toList, .createFile "out/F/P.m3u".toList,
      .canonicalize, .writeLine "out/F/P.m3u".toList "/usb/n".toList,
      .canonicalize, .writeLine "out/F/P.m3u".toList "/usb/m".toList,
      .createDirs "out".toList, .createFile "out/P.m3u".toList,
      .canonicalize, .writeLine "out/P.m3u".toList "/usb/m".toList], .ok ()) := by
  unfold exportPlaylists
  simp only [goodFile_open, goodFile_data.2]
  decide +kernel

/-- C59: the example meets the hypotheses of `export_file_lines_partial`: the playlists have different paths. -/
example : ∃ done, exportPlaylists 2 (some goodFile) "/usb".toList "out".toList (fun _ _ => true) =
      some (done, .ok ()) ∧
    Database.openAt goodFile 0 .plain = .ok (exportDb goodFile) ∧
    exportData 2 (exportDb goodFile) = some (.ok (goodTree, someEntries, [(1, "/m"), (2, "n")])) ∧
    ((exportedOf "out".toList goodTree).map fun y => playlistFile y.2.1 y.2.2).Nodup ∧
    (2, "P", "out/F".toList) ∈ exportedOf "out".toList goodTree ∧
    linesIn "out/F/P.m3u".toList done = some ["/usb/n".toList, "/usb/m".toList] :=
  ⟨_, goodFile_export, goodFile_open, goodFile_data.2, by decide +kernel, by decide +kernel, by decide +kernel⟩

/-- C60: the example meets the hypotheses of `export_inside_partial`. -/
example : HarmlessNames goodTree := by
  have hdd : ∀ p : FsPath, '.' ∉ p → ¬ HasDotDot p := by
    rintro p hp ⟨a, b, rfl, -⟩
    simp at hp
  have hm3u : ¬ HasDotDot ("P" ++ ".m3u").toList := by
    rintro ⟨a, b, h, -⟩
    have h' : ['P', '.', 'm', '3', 'u'] = a ++ '.' :: '.' :: b := h
    rcases a with _ | ⟨a1, _ | ⟨a2, _ | ⟨a3, _ | ⟨a4, a5⟩⟩⟩⟩
    all_goals simp at h'
    have h' := congrArg List.length h'.2.2.2.2
    simp at h'
    omega
  have hP : StaysBelow ("P" ++ ".m3u").toList := ⟨by decide +kernel, hm3u⟩
  have hF : StaysBelow "F".toList := ⟨by decide +kernel, hdd _ (by decide +kernel)⟩
  intro id l hl
  have hl : l = goodTree ∨ l = [.playlist 2 "P"] := by
    induction hl with
    | top => exact .inl rfl
    | sub t h ih =>
      rcases ih with rfl | rfl
      · simp only [goodTree, List.mem_cons, List.not_mem_nil, or_false, PlaylistNode.folder.injEq, reduceCtorEq] at h
        exact .inr h.2.2
      · simp at h
  rcases hl with rfl | rfl
  · intro x hx
    simp only [goodTree, List.mem_cons, List.not_mem_nil, or_false] at hx
    rcases hx with rfl | rfl
    · exact hF
    · exact hP
  · intro x hx
    simp only [List.mem_cons, List.not_mem_nil, or_false] at hx
    subst hx
    exact hP

/-! ## C59: the witness -/

/-- Two playlists with the same name. -/
def sameNameNodes : List PlaylistTreeNode := [namedRow 0 2 0 [80], namedRow 0 3 0 [80]]

/-- The file with these rows. -/
def sameNameFile : Bytes := exportFile sameNameNodes someEntries twoTracks

theorem sameNameFile_open : Database.openAt sameNameFile 0 .plain = .ok (exportDb sameNameFile) := by decide +kernel

theorem sameNameFile_rows : ExportRows sameNameFile sameNameNodes someEntries twoTracks := by decide +kernel

/-- C59: the full property is false: of two playlists with the same name and parent, the export succeeds and
leaves only the lines of the second; those of the first, two tracks, are lost. -/
theorem export_same_name_overwrites : ∃ file d tree tracks done,
    Database.openAt file 0 .plain = .ok d ∧ exportData 2 d = some (.ok (tree, someEntries, tracks)) ∧
    exportPlaylists 2 (some file) "/usb".toList "out".toList (fun _ _ => true) = some (done, .ok ()) ∧
    (2, "P", "out".toList) ∈ exportedOf "out".toList tree ∧
    LinesOf someEntries tracks "/usb".toList 2 ["/usb/n".toList, "/usb/m".toList] ∧
    linesIn (playlistFile "P" "out".toList) done = some ["/usb/m".toList] := by
  have hd : getPlaylists 2 (exportDb sameNameFile) = some (.ok [.playlist 2 "P", .playlist 3 "P"]) ∧
      exportData 2 (exportDb sameNameFile) =
        some (.ok ([.playlist 2 "P", .playlist 3 "P"], someEntries, [(1, "/m"), (2, "n")])) := by
    refine exportDb_data sameNameFile_rows twoTracks_paths ?_
    have hP : DString.intoString (.short [80]) = .ok "P" := by decide +kernel
    simp [childNodes, ChildMap.build_getD, sameNameNodes, namedRow, treeRow, collectNodes, nodeOf,
      PlaylistTreeNode.isFolder, hP]
  have he : exportPlaylists 2 (some sameNameFile) "/usb".toList "out".toList (fun _ _ => true) =
      some ([.createDirs "out".toList, .createFile "out/P.m3u".toList,
        .canonicalize, .writeLine "out/P.m3u".toList "/usb/n".toList,
        .canonicalize, .writeLine "out/P.m3u".toList "/usb/m".toList,
        .createDirs "out".toList, .createFile "out/P.m3u".toList,
        .canonicalize, .writeLine "out/P.m3u".toList "/usb/m".toList], .ok ()) := by
    unfold exportPlaylists
    simp only [sameNameFile_open, hd.2]
    decide +kernel
  refine ⟨sameNameFile, _, _, _, _, sameNameFile_open, hd.2, he, by decide +kernel, ?_, by decide +kernel⟩
  obtain ⟨lines, h1, h2⟩ := visitOps_eq someEntries [(1, "/m"), (2, "n")] "/usb".toList 2 "P" "out".toList
  have h3 : linesIn (playlistFile "P" "out".toList) (visitOps (EntryMap.build someEntries)
      (TrackMap.build [(1, "/m"), (2, "n")]) "/usb".toList 2 "P" "out".toList) =
      some ["/usb/n".toList, "/usb/m".toList] := by decide +kernel
  have h4 := linesIn_files [("out".toList, playlistFile "P" "out".toList, lines)] (playlistFile "P" "out".toList) none
  rw [h2] at h3
  have h5 : some lines = some ["/usb/n".toList, "/usb/m".toList] := by
    rw [← h3]
    unfold linesIn
    simpa using h4.symm
  injection h5 with h5
  rw [← h5]
  exact h1

/-! ## C60: the witness -/

/-- A folder with the name `..` and a playlist in it. -/
def escapingNodes : List PlaylistTreeNode := [namedRow 0 1 1 [46, 46], namedRow 1 2 0 [80], namedRow 0 3 0 [47, 80]]

/-- The file with these rows. -/
def escapingFile : Bytes := exportFile escapingNodes [] []

theorem escapingFile_open : Database.openAt escapingFile 0 .plain = .ok (exportDb escapingFile) := by decide +kernel

theorem escapingFile_rows : ExportRows escapingFile escapingNodes [] [] := by decide +kernel

/-- C60: the full property is false: a folder named `..` leads out of the output directory, and a playlist
whose name starts with `/` is created at that absolute path. -/
theorem export_leaves_directory : ∃ file done,
    exportPlaylists 2 (some file) "/usb".toList "/home/out".toList (fun _ _ => true) = some (done, .ok ()) ∧
    .createFile "/home/out/../P.m3u".toList ∈ done ∧ ¬ Inside "/home/out".toList "/home/out/../P.m3u".toList ∧
    .createFile "/P.m3u".toList ∈ done ∧ ¬ Inside "/home/out".toList "/P.m3u".toList := by
  have hd : getPlaylists 2 (exportDb escapingFile) =
        some (.ok [.folder 1 ".." [.playlist 2 "P"], .playlist 3 "/P"]) ∧
      exportData 2 (exportDb escapingFile) =
        some (.ok ([.folder 1 ".." [.playlist 2 "P"], .playlist 3 "/P"], [], [])) := by
    refine exportDb_data escapingFile_rows rfl ?_
    have hD : DString.intoString (.short [46, 46]) = .ok ".." := by decide +kernel
    have hP : DString.intoString (.short [80]) = .ok "P" := by decide +kernel
    have hS : DString.intoString (.short [47, 80]) = .ok "/P" := by decide +kernel
    simp [childNodes, ChildMap.build_getD, escapingNodes, namedRow, treeRow, collectNodes, nodeOf,
      PlaylistTreeNode.isFolder, hD, hP, hS]
  have he : exportPlaylists 2 (some escapingFile) "/usb".toList "/home/out".toList (fun _ _ => true) =
      some ([.createDirs "/home/out/..".toList, .createFile "/home/out/../P.m3u".toList,
        .createDirs "/home/out".toList, .createFile "/P.m3u".toList], .ok ()) := by
    unfold exportPlaylists
    simp only [escapingFile_open, hd.2]
    decide +kernel
  refine ⟨_, _, he, by simp, ?_, by simp, ?_⟩
  · rintro ⟨rest, h, h2, -⟩
    have h : "/home/out".toList ++ "/../P.m3u".toList = "/home/out".toList ++ rest := by
      rw [← h]
      decide +kernel
    rw [← List.append_cancel_left h] at h2
    exact h2 ⟨"/".toList, "/P.m3u".toList, by decide +kernel, .inr (by decide +kernel), .inr (by decide +kernel)⟩
  · rintro ⟨rest, h, -⟩
    have h := congrArg List.length h
    rw [List.length_append] at h
    have h1 : "/P.m3u".toList.length = 6 := by decide +kernel
    have h2 : "/home/out".toList.length = 9 := by decide +kernel
    omega

end Rekordcrate
