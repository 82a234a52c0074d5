import Verif.Props.Listing

/-! # C68: `list-playlists` on files -/

namespace Rekordcrate

/-- C68: what the command works on, for a file in which the four tables have well-formed chains of pages of
their type: the rows of the tables in the order of the file. -/
theorem list_data_of_file {d : Database} (hn : ∀ x ∈ d.content.pages, x = .notLoaded)
    {k1 k2 k3 k4 : Nat} {t1 t2 t3 t4 : Table} {l1 l2 l3 l4 : List (Nat × Page)}
    (f1 : d.content.header.findTable (.plain .playlistTree) = some (k1, t1))
    (c1 : d.Chain t1.lastPage.val.toNat t1.firstPage.val.toNat l1)
    (p1 : ∀ x ∈ l1, x.2.header.pageType = .plain .playlistTree)
    (f2 : d.content.header.findTable (.plain .artists) = some (k2, t2))
    (c2 : d.Chain t2.lastPage.val.toNat t2.firstPage.val.toNat l2)
    (p2 : ∀ x ∈ l2, x.2.header.pageType = .plain .artists)
    (f3 : d.content.header.findTable (.plain .tracks) = some (k3, t3))
    (c3 : d.Chain t3.lastPage.val.toNat t3.firstPage.val.toNat l3)
    (p3 : ∀ x ∈ l3, x.2.header.pageType = .plain .tracks)
    (f4 : d.content.header.findTable (.plain .playlistEntries) = some (k4, t4))
    (c4 : d.Chain t4.lastPage.val.toNat t4.firstPage.val.toNat l4)
    (p4 : ∀ x ∈ l4, x.2.header.pageType = .plain .playlistEntries) :
    ∃ nodes artists tracks entries,
      Pointwise (fun x r => x.2.2 = .plain (.playlistTreeNode r)) (rowsOf l1) nodes ∧
      Pointwise (fun x r => x.2.2 = .plain (.artist r)) (rowsOf l2) artists ∧
      Pointwise (fun x r => x.2.2 = .plain (.track r)) (rowsOf l3) tracks ∧
      Pointwise (fun x r => x.2.2 = .plain (.playlistEntry r)) (rowsOf l4) entries ∧
      listData d = .ok (nodes, artists, tracks, entries) := by
  obtain ⟨-, L2, -, -, -, -, -, -, -, -, L1, L4, -, L3, -⟩ := row_variants_lawful
  obtain ⟨nodes, a1, a2, a3, a4⟩ := all_rows_of_file L1 f1 c1 hn p1
  have hh : ∀ {d' : Database} {pt : PageType} {r : Option (Nat × Table)}, d'.content.header = d.content.header →
      d.content.header.findTable pt = r → d'.content.header.findTable pt = r := fun h h' => by rw [h]; exact h'
  generalize hd1 : d.allRows PlaylistTreeNode = y1 at a1 a3 a4
  obtain ⟨x1, d1⟩ := y1
  simp only at a1 a3 a4
  subst a1
  obtain ⟨artists, b1, b2, b0⟩ := collect_rows_of_chain L2 Res.ok (d := d1) (hh a3 f2)
    (c2.congr a4) (chain_rows_fit c2 hn p2)
  rw [mapRes_ok] at b2 b0
  obtain ⟨b3, b4⟩ := b0 ⟨_, rfl⟩
  change (d1.allRows Artist).1 = _ at b2
  change (d1.allRows Artist).2.content.header = _ at b3
  change ∀ n, _ → (d1.allRows Artist).2.view n = _ at b4
  generalize hd2 : d1.allRows Artist = y2 at b2 b3 b4
  obtain ⟨x2, d2⟩ := y2
  simp only at b2 b3 b4
  subst b2
  obtain ⟨tracks, e1, e2, e0⟩ := collect_rows_of_chain L3 Res.ok (d := d2)
    (hh (b3.trans a3) f3) (c3.congr fun n h => (b4 n h).trans (a4 n h)) (chain_rows_fit c3 hn p3)
  rw [mapRes_ok] at e2 e0
  obtain ⟨e3, e4⟩ := e0 ⟨_, rfl⟩
  change (d2.allRows Track).1 = _ at e2
  change (d2.allRows Track).2.content.header = _ at e3
  change ∀ n, _ → (d2.allRows Track).2.view n = _ at e4
  generalize hd3 : d2.allRows Track = y3 at e2 e3 e4
  obtain ⟨x3, d3⟩ := y3
  simp only at e2 e3 e4
  subst e2
  obtain ⟨entries, g1, g2, -⟩ := collect_rows_of_chain L4 Res.ok (d := d3)
    (hh (e3.trans (b3.trans a3)) f4) (c4.congr fun n h => (e4 n h).trans ((b4 n h).trans (a4 n h)))
    (chain_rows_fit c4 hn p4)
  rw [mapRes_ok] at g2
  change (d3.allRows PlaylistEntry).1 = _ at g2
  refine ⟨nodes, artists, tracks, entries, ?_, ?_, ?_, ?_, ?_⟩
  · generalize rowsOf l1 = xs at a2
    clear hd1
    induction a2 with
    | nil => exact .nil
    | cons h _ ih =>
      refine .cons ?_ ih
      simp only [RowVariant.fromRow] at h
      split at h
      · injection h with h
        rename_i e
        rw [e, h]
      · cases h
  · generalize rowsOf l2 = xs at b1
    clear hd2 b0
    induction b1 with
    | nil => exact .nil
    | cons h _ ih =>
      refine .cons ?_ ih
      simp only [RowVariant.fromRow] at h
      split at h
      · injection h with h
        rename_i e
        rw [e, h]
      · cases h
  · generalize rowsOf l3 = xs at e1
    clear hd3 e0
    induction e1 with
    | nil => exact .nil
    | cons h _ ih =>
      refine .cons ?_ ih
      simp only [RowVariant.fromRow] at h
      split at h
      · injection h with h
        rename_i e
        rw [e, h]
      · cases h
  · generalize rowsOf l4 = xs at g1
    clear g2
    induction g1 with
    | nil => exact .nil
    | cons h _ ih =>
      refine .cons ?_ ih
      simp only [RowVariant.fromRow] at h
      split at h
      · injection h with h
        rename_i e
        rw [e, h]
      · cases h
  · unfold listData
    rw [hd1]
    simp only
    rw [hd2]
    simp only
    rw [hd3]
    simp only
    generalize d3.allRows PlaylistEntry = y4 at g2
    obtain ⟨x4, d4⟩ := y4
    simp only at g2
    subst g2
    rfl

/-! ## Example files -/

/-- A header with the four tables, one page each. -/
def listHeader : Header where
  pageSize := 512
  numTables := 4
  nextUnusedPage := ⟨5⟩
  unknown := 5
  sequence := 1
  tables := [⟨.plain .tracks, 0, ⟨3⟩, ⟨3⟩⟩, ⟨.plain .artists, 0, ⟨2⟩, ⟨2⟩⟩, ⟨.plain .playlistTree, 0, ⟨1⟩, ⟨1⟩⟩,
    ⟨.plain .playlistEntries, 0, ⟨4⟩, ⟨4⟩⟩]

/-- A file with these rows. -/
def listFile (nodes : List PlaylistTreeNode) (artists : List Artist) (tracks : List Track)
    (entries : List PlaylistEntry) : Bytes :=
  listHeader.enc ++ List.replicate (512 - listHeader.enc.length) 0 ++
    dataPage512 .playlistTree 1 24 (nodes.map fun r => rowBytes 24 (.plain (.playlistTreeNode r))) ++
    dataPage512 .artists 2 16 (artists.map fun r => rowBytes 16 (.plain (.artist r))) ++
    dataPage512 .tracks 3 200 (tracks.map fun r => rowBytes 200 (.plain (.track r))) ++
    dataPage512 .playlistEntries 4 12 (entries.map fun r => rowBytes 12 (.plain (.playlistEntry r)))

/-- The database opened from a file with this header. -/
def listDb (file : Bytes) : Database where
  io := file
  dbType := .plain
  content := { header := listHeader, pages := [.notLoaded, .notLoaded, .notLoaded, .notLoaded] }

/-- A page of the database. -/
def listDbPage (file : Bytes) (n : Nat) : Page :=
  match (listDb file).view n with
  | .ok pg => pg
  | _ => Page.fresh 0 ⟨0⟩ ⟨0⟩ (.plain .playlistTree) ⟨0, 0, 0, 0⟩

/-- The pages of the file hold these rows. -/
def ListRows (file : Bytes) (nodes : List PlaylistTreeNode) (artists : List Artist) (tracks : List Track)
    (entries : List PlaylistEntry) : Prop :=
  ((listDb file).view 1 = .ok (listDbPage file 1) ∧
    (listDbPage file 1).header.pageType = .plain .playlistTree ∧
    (rowsOf [(1, listDbPage file 1)]).map (fun x => x.2.2) = nodes.map fun r => .plain (.playlistTreeNode r)) ∧
  ((listDb file).view 2 = .ok (listDbPage file 2) ∧
    (listDbPage file 2).header.pageType = .plain .artists ∧
    (rowsOf [(2, listDbPage file 2)]).map (fun x => x.2.2) = artists.map fun r => .plain (.artist r)) ∧
  ((listDb file).view 3 = .ok (listDbPage file 3) ∧
    (listDbPage file 3).header.pageType = .plain .tracks ∧
    (rowsOf [(3, listDbPage file 3)]).map (fun x => x.2.2) = tracks.map fun r => .plain (.track r)) ∧
  (listDb file).view 4 = .ok (listDbPage file 4) ∧
    (listDbPage file 4).header.pageType = .plain .playlistEntries ∧
    (rowsOf [(4, listDbPage file 4)]).map (fun x => x.2.2) = entries.map fun r => .plain (.playlistEntry r)

instance (file : Bytes) (nodes : List PlaylistTreeNode) (artists : List Artist) (tracks : List Track)
    (entries : List PlaylistEntry) : Decidable (ListRows file nodes artists tracks entries) := by
  unfold ListRows
  infer_instance

theorem listDb_data {file : Bytes} {nodes : List PlaylistTreeNode} {artists : List Artist} {tracks : List Track}
    {entries : List PlaylistEntry} (hr : ListRows file nodes artists tracks entries) :
    listData (listDb file) = .ok (nodes, artists, tracks, entries) := by
  obtain ⟨⟨v1, h1, r1⟩, ⟨v2, h2, r2⟩, ⟨v3, h3, r3⟩, v4, h4, r4⟩ := hr
  obtain ⟨ns, as, ts, es, a1, a2, a3, a4, a5⟩ := list_data_of_file (d := listDb file) (by simp [listDb])
    (l1 := [(1, listDbPage file 1)]) (l2 := [(2, listDbPage file 2)]) (l3 := [(3, listDbPage file 3)])
    (l4 := [(4, listDbPage file 4)])
    (t1 := ⟨.plain .playlistTree, 0, ⟨1⟩, ⟨1⟩⟩) (t2 := ⟨.plain .artists, 0, ⟨2⟩, ⟨2⟩⟩)
    (t3 := ⟨.plain .tracks, 0, ⟨3⟩, ⟨3⟩⟩) (t4 := ⟨.plain .playlistEntries, 0, ⟨4⟩, ⟨4⟩⟩)
    (k1 := 2) (k2 := 1) (k3 := 0) (k4 := 3)
    (by show listHeader.findTable _ = _; decide +kernel) (.last (by decide) v1) (by simpa using h1)
    (by show listHeader.findTable _ = _; decide +kernel) (.last (by decide) v2) (by simpa using h2)
    (by show listHeader.findTable _ = _; decide +kernel) (.last (by decide) v3) (by simpa using h3)
    (by show listHeader.findTable _ = _; decide +kernel) (.last (by decide) v4) (by simpa using h4)
  have e1 := pointwise_map (fun a b h => by injection h with h; injection h) a1 r1
  have e2 := pointwise_map (fun a b h => by injection h with h; injection h) a2 r2
  have e3 := pointwise_map (fun a b h => by injection h with h; injection h) a3 r3
  have e4 := pointwise_map (fun a b h => by injection h with h; injection h) a4 r4
  subst e1 e2 e3 e4
  exact a5

/-- An artist "A", with the offsets that the reader keeps. -/
def oneArtist : List Artist := [{ subtype := 0x60, indexShift := 0x20, id := 1, offsets := ⟨some (.u8 [10]), ⟨.short [65]⟩⟩ }]

/-- Two tracks; the artist of the second does not exist. -/
def listTracks : List Track := twoTracks.map fun t => { t with artistId := if t.id = 1 then 1 else 7 }

/-- A file with a folder "F" with a playlist "P", and a playlist "P" beside the folder. -/
def listedFile : Bytes := listFile goodNodes oneArtist listTracks someEntries

theorem listedFile_open : Database.openAt listedFile 0 .plain = .ok (listDb listedFile) := by decide +kernel

theorem listedFile_rows : ListRows listedFile goodNodes oneArtist listTracks someEntries := by decide +kernel

/-- What is printed for the example. -/
theorem listedFile_text : listPlaylists (fun _ => "") 3 (some listedFile) = ⟨linesText
    ["🗀 F",
     "    🗎 P",
     "      ♫ 3: <Artist for ArtistId(7) not found> - Är",
     "      ♫ 5: <Track for TrackId(9) not found>",
     "      ♫ 7: A - Är",
     "🗎 P",
     "  ♫ 4: A - Är"], some (.ok ())⟩ := by
  unfold listPlaylists
  simp only [listedFile_open]
  unfold listPlaylistsOf
  rw [listDb_data listedFile_rows]
  decide +kernel

/-- C68: the example meets the hypotheses of `listing_complete_partial`. -/
example : listData (listDb listedFile) = .ok (goodNodes, oneArtist, listTracks, someEntries) ∧ ProperIds goodNodes ∧
    AllShowable (fun _ => "") goodNodes oneArtist listTracks someEntries := by
  have hd := listDb_data listedFile_rows
  refine ⟨hd, ⟨by decide +kernel, by decide +kernel⟩, ?_⟩
  have h := listedFile_text
  unfold listPlaylists at h
  simp only [listedFile_open] at h
  exact (listing_outcome hd ⟨3, h⟩).1.1 rfl

/-! ## C68: the witnesses -/

/-- A playlist in the root, and a playlist with the same id below it. -/
def loopNodes : List PlaylistTreeNode := [namedRow 0 1 0 [80], namedRow 1 1 0 [81]]

/-- The file with these rows. -/
def loopFile : Bytes := listFile loopNodes oneArtist listTracks []

theorem loopFile_open : Database.openAt loopFile 0 .plain = .ok (listDb loopFile) := by decide +kernel

theorem loopFile_rows : ListRows loopFile loopNodes oneArtist listTracks [] := by decide +kernel

/-- C68: the full property is false: there is a file with valid rows and names on which the command does not come
to an end.  The loop goes through playlists: the tree that `get_playlists` makes of the same rows is finite. -/
theorem listing_diverges : ∃ file d nodes artists tracks entries,
    Database.openAt file 0 .plain = .ok d ∧ listData d = .ok (nodes, artists, tracks, entries) ∧
    CycleFree nodes ∧ NamesValid nodes ∧ ∀ lossy n, (listPlaylistsOf lossy n d).outcome = none := by
  refine ⟨_, _, _, _, _, _, loopFile_open, listDb_data loopFile_rows, ?_, ?_, ?_⟩
  · intro id _ h
    obtain ⟨b, ⟨r, h1, h2, -⟩, -⟩ := h.first
    have : ∀ r ∈ loopNodes, r.nodeIsFolder = 0 := by decide +kernel
    exact h2 (this r h1)
  · intro r hr _
    have h : ∀ r ∈ loopNodes, r.name.intoString = .ok "P" ∨ r.name.intoString = .ok "Q" := by decide +kernel
    rcases h r hr with h | h <;> exact ⟨_, h⟩
  · intro lossy n
    have hs : AllShowable lossy loopNodes oneArtist listTracks [] := by
      intro r hr _
      refine ⟨?_, fun i t h => by simp [trackAt] at h⟩
      have h : ∀ r ∈ loopNodes, r.name = .short [80] ∨ r.name = .short [81] := by decide +kernel
      have hP : fromUtf8 [80] = some "P" := by decide +kernel
      have hQ : fromUtf8 [81] = some "Q" := by decide +kernel
      rcases h r hr with h | h
      · exact ⟨"P", by rw [h]; simp only [DString.display, hP]⟩
      · exact ⟨"Q", by rw [h]; simp only [DString.display, hQ]⟩
    cases ho : (listPlaylistsOf lossy n (listDb loopFile)).outcome with
    | none => rfl
    | some x =>
      have h1 : NodeIn loopNodes 0 1 := ⟨namedRow 0 1 0 [80], by decide +kernel, rfl, rfl⟩
      have h2 : NodeIn loopNodes 1 1 := ⟨namedRow 1 1 0 [81], by decide +kernel, rfl, rfl⟩
      exact absurd (.one h2) ((listing_returns_iff (lossy := lossy) (listDb_data loopFile_rows) hs).1
        ⟨(_, x), n, by rw [← ho]⟩ 1 (.inr (.one h1)))

/-- A playlist with a name that is not UTF-8, between two others. -/
def badNameNodes : List PlaylistTreeNode := [namedRow 0 1 0 [80], namedRow 0 2 0 [0xC3], namedRow 0 3 0 [81]]

/-- The file with these rows. -/
def badNameFile : Bytes := listFile badNameNodes oneArtist listTracks []

theorem badNameFile_open : Database.openAt badNameFile 0 .plain = .ok (listDb badNameFile) := by decide +kernel

theorem badNameFile_rows : ListRows badNameFile badNameNodes oneArtist listTracks [] := by decide +kernel

/-- C68: the full property is false: there is a file in which one name is not valid, and the command panics in the
middle of a line; what follows is not listed. -/
theorem listing_panics : ∃ file, listPlaylists (fun _ => "") 3 (some file) =
    ⟨"🗎 P\n🗎 ".toList, some .panic⟩ := by
  refine ⟨badNameFile, ?_⟩
  unfold listPlaylists
  simp only [badNameFile_open]
  unfold listPlaylistsOf
  rw [listDb_data badNameFile_rows]
  decide +kernel

end Rekordcrate
