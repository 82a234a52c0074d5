import Verif.Props.Edit

/-! # C75, C76: examples and witnesses -/

namespace Rekordcrate

/-! ## A file with two tables -/

theorem sound_of_rows {pg : Page} {c : DataPageContent} (hc : pg.content = .data c) {db : DatabaseType}
    {pageSize w f : Nat} (ht : pg.header.pageType.ValidFor db) (hfl : pg.header.pageFlags.isIndexPage = false)
    (h1 : c.rowGroups.length = (pg.header.packedRowCounts.numRows.val + 15) / 16)
    (h2 : ∀ g ∈ c.rowGroups, g.rowOffsets.length = 16) (h3 : c.present = c.rows.map Prod.fst)
    (h4 : pg.header.packedRowCounts.numRowsValid.val = c.rows.length)
    (h5 : RowsStorable pg.header.pageType c.rows) (h6 : ∀ x ∈ c.rows, x.2.Coherent ∧ x.2.Extent w) (hw : 0 < w)
    (h7 : c.rows.Pairwise fun a b => a.1.toNat + w ≤ b.1.toNat)
    (h8 : ∀ x ∈ c.rows, 40 + x.1.toNat + w + f ≤ pageSize) (h9 : c.FooterWithin f) (h10 : 40 + f ≤ pageSize) :
    pg.Sound pageSize db := by
  refine ⟨ht, ?_, fun c' h => ?_, fun c' h => ?_⟩
  · rw [hfl, hc]
    simp
  · rw [hc] at h
    injection h with h
    subst h
    refine ⟨⟨h1, h2, ?_, fun o => by rw [h3], h4⟩, h5, ?_, fun x hx => (h6 x hx).1, f, h9, h10, fun x hx =>
      ⟨w, (h6 x hx).2, h8 x hx⟩⟩
    · exact h7.imp fun h => UInt16.lt_iff_toNat_lt.2 (by omega)
    · exact List.Pairwise.imp_of_mem (fun {a b} ha _ h => ⟨w, (h6 a ha).2, h⟩) h7
  · rw [hc] at h
    cases h

/-- A track, with the offsets that the reader keeps. -/
def oneTrack : Track := { exampleTrack with offsets :=
  ⟨some (OffsetArray.u16 [136, 154, 155, 157, 159, 160, 161, 162, 165, 166, 167, 172, 173, 174, 175,
    178, 181, 184, 192, 193, 195]), exampleTrack.offsets.inner⟩ }

/-- The track of the example has its strings in separate places, within 200 bytes. -/
theorem oneTrack_room : (Row.plain (.track oneTrack)).Storable ∧
    (Row.plain (.track oneTrack)).OffsetsFit ∧ oneTrack.offsets.Separate 92 .u16 ∧
    (Row.plain (.track oneTrack)).Coherent ∧ (Row.plain (.track oneTrack)).Extent 200 := by
  have hst : (Row.plain (.track oneTrack)).Storable ∧ (Row.plain (.track oneTrack)).OffsetsFit := by
    refine ⟨⟨exampleTrack_storable.1, exampleTrack_storable.2.1, ?_⟩, trivial⟩
    intro a ha
    injection ha with ha
    rw [← ha]
    rfl
  have hsep : oneTrack.offsets.Separate 92 .u16 := by
    unfold OffsetContainer.Separate OffsetContainer.Behind DisjointRanges
    decide +kernel
  have hsub : docWidth oneTrack.subtype = .u16 := by decide +kernel
  have hext : ∀ x ∈ (OffsetItems.asItems oneTrack.offsets.inner).zip oneTrack.offsets.givenOffsets,
      x.2 + x.1.size ≤ 200 := by decide +kernel
  have hw : (Row.plain (.track oneTrack)).write = (do Wr.emit oneTrack.head; oneTrack.offsets.write 92 .u16) := by
    rw [← hsub, ← offsetSizeOf_eq]
    rfl
  refine ⟨hst.1, hst.2, hsep, fun p p' ps h => ?_, fun p p' ps h => ?_⟩
  · rw [hw] at h
    exact OffsetContainer.crow_separate oneTrack.head_length hst.1.2.2 hsep h
  · rw [hw] at h
    exact OffsetContainer.crow_extent oneTrack.head_length hst.1.2.2 hsep.1.1 (by decide) hext h

/-- The content of a page with some rows, `w` bytes apart. -/
def contentOf (w : Nat) (rows : List Row) : DataPageContent where
  header := ⟨UInt16.ofNat rows.length, 0, 0, 0⟩
  rowGroups := [⟨List.replicate (16 - rows.length) 0 ++
    (List.range rows.length).reverse.map (fun i => UInt16.ofNat (i * w)), UInt16.ofNat (2 ^ rows.length - 1), 0⟩]
  rows := (List.range rows.length).map (fun i => UInt16.ofNat (i * w)) |>.zip rows

theorem contentOf_footer {w : Nat} {rows : List Row} {f : Nat}
    (h : ∀ g ∈ (contentOf w rows).rowGroups, 4 + 2 * g.slotsUsed ≤ f) : (contentOf w rows).FooterWithin f := by
  intro k g hk
  cases k with
  | zero =>
    have := h g (List.mem_of_getElem? hk)
    omega
  | succ k => simp [contentOf] at hk

theorem contentOf_mem {w : Nat} {rows : List Row} {x : UInt16 × Row} (h : x ∈ (contentOf w rows).rows) : x.2 ∈ rows :=
  (List.of_mem_zip h).2

/-- A page with these rows. -/
def pageOf (pt : PlainPageType) (idx : UInt32) (w : Nat) (rows : List Row) : Page where
  header := { (Page.fresh 46 ⟨idx⟩ ⟨9⟩ (.plain pt) ⟨1, 0, 0, 0⟩).header with
    packedRowCounts := ⟨Fin.ofNat _ rows.length, Fin.ofNat _ rows.length⟩
    freeSize := 0
    usedSize := UInt16.ofNat (rows.length * w) }
  content := .data (contentOf w rows)

/-- The page of tracks. -/
def tracksPage : Page := pageOf .tracks 1 200 [.plain (.track oneTrack)]

/-- The page of playlists: a folder "F" with a playlist "P", and a playlist "P" beside the folder. -/
def nodesPage : Page := pageOf .playlistTree 2 24 (goodNodes.map fun r => .plain (.playlistTreeNode r))

/-- The bytes of a page of 288 bytes with rows of `w` bytes. -/
def pageBytes (w : Nat) (pg : Page) (rows : List Row) : Bytes :=
  pg.header.enc ++ [UInt8.ofNat rows.length, 0, 0, 0, 0, 0, 0, 0] ++ rows.flatMap (rowBytes w) ++
    List.replicate (212 - rows.length * w) 0 ++ List.replicate (2 * (16 - rows.length)) 0 ++
    (List.range rows.length).reverse.flatMap (fun i => encU16 (UInt16.ofNat (i * w))) ++
    encU16 (UInt16.ofNat (2 ^ rows.length - 1)) ++ [0, 0]

/-- A header with two tables, one page each. -/
def smallHeader : Header where
  pageSize := 288
  numTables := 2
  nextUnusedPage := ⟨3⟩
  unknown := 5
  sequence := 1
  tables := [⟨.plain .tracks, 0, ⟨1⟩, ⟨1⟩⟩, ⟨.plain .playlistTree, 0, ⟨2⟩, ⟨2⟩⟩]

/-- The file. -/
def smallFile : Bytes :=
  smallHeader.enc ++ List.replicate 228 0 ++ pageBytes 200 tracksPage [.plain (.track oneTrack)] ++
    pageBytes 24 nodesPage (goodNodes.map fun r => .plain (.playlistTreeNode r))

/-- The database opened from the file. -/
def smallDb : Database where
  io := smallFile
  dbType := .plain
  content := { header := smallHeader, pages := [.notLoaded, .notLoaded] }

theorem smallFile_open : Database.openAt smallFile 0 .plain = .ok smallDb := by decide +kernel

theorem smallFile_read1 : Page.read 288 .plain smallFile 288 = .ok (tracksPage, 576) := by decide +kernel

theorem smallFile_read2 : Page.read 288 .plain smallFile 576 = .ok (nodesPage, 864) := by decide +kernel

theorem tracksPage_sound : tracksPage.Sound 288 .plain := by
  have hr : ∀ x ∈ (contentOf 200 [.plain (.track oneTrack)]).rows, x.2 = .plain (.track oneTrack) := fun x hx =>
    List.mem_singleton.1 (contentOf_mem hx)
  refine sound_of_rows (c := contentOf 200 [.plain (.track oneTrack)]) rfl (w := 200) (f := 40) ⟨0, rfl⟩
    (by decide +kernel) (by decide +kernel) (by decide +kernel) (by decide +kernel) (by decide +kernel) ?_ ?_
    (by decide) (by decide +kernel) (by decide +kernel) (contentOf_footer (by decide +kernel)) (by decide)
  · intro x hx
    rw [hr x hx]
    exact ⟨oneTrack_room.1, rfl, oneTrack_room.2.1⟩
  · intro x hx
    rw [hr x hx]
    exact oneTrack_room.2.2.2

theorem nodesPage_sound : nodesPage.Sound 288 .plain := by
  have hr : ∀ x ∈ (contentOf 24 (goodNodes.map fun r => .plain (.playlistTreeNode r))).rows,
      ∃ r ∈ goodNodes, x.2 = .plain (.playlistTreeNode r) := fun x hx => by
    obtain ⟨r, h1, h2⟩ := List.mem_map.1 (contentOf_mem hx)
    exact ⟨r, h1, h2.symm⟩
  refine sound_of_rows (c := contentOf 24 (goodNodes.map fun r => .plain (.playlistTreeNode r))) rfl (w := 22)
    (f := 40) ⟨7, rfl⟩ (by decide +kernel) (by decide +kernel)
    (by decide +kernel) (by decide +kernel) (by decide +kernel) ?_ ?_ (by decide) (by decide +kernel)
    (by decide +kernel) (contentOf_footer (by decide +kernel)) (by decide)
  · intro x hx
    obtain ⟨r, h1, h2⟩ := hr x hx
    rw [h2]
    refine ⟨⟨fun v hv => ?_, trivial, trivial⟩, rfl, trivial⟩
    change v ∈ [r.name] at hv
    rw [List.mem_singleton] at hv
    subst hv
    clear h2 hr hx
    have : ∃ b : Bytes, r.name = .short b ∧ b.length ≤ 126 := by
      simp only [goodNodes, List.mem_cons, List.not_mem_nil, or_false] at h1
      rcases h1 with rfl | rfl | rfl <;> exact ⟨_, rfl, by decide⟩
    obtain ⟨b, h3, h4⟩ := this
    rw [h3]
    exact h4
  · intro x hx
    obtain ⟨r, h1, h2⟩ := hr x hx
    have : x.2.packedSize = some 22 := by
      clear hr
      rw [h2]
      clear h2 hx
      simp only [goodNodes, List.mem_cons, List.not_mem_nil, or_false] at h1
      rcases h1 with rfl | rfl | rfl <;> rfl
    exact ⟨Row.packed_coherent this, Row.packed_extent this⟩

instance (img : Bytes) (p n : Nat) : Decidable (U16At img p n) :=
  match h1 : img[p]?, h2 : img[p + 1]? with
  | some lo, some hi =>
    if h : n = lo.toNat + 256 * hi.toNat then isTrue ⟨lo, hi, h1, h2, h⟩
    else isFalse fun ⟨lo', hi', e1, e2, e⟩ => h (by
      rw [h1] at e1
      rw [h2] at e2
      injection e1 with e1
      injection e2 with e2
      rw [e1, e2]
      exact e)
  | none, _ => isFalse fun ⟨_, _, e1, _⟩ => by rw [h1] at e1; cases e1
  | _, none => isFalse fun ⟨_, _, _, e2, _⟩ => by rw [h2] at e2; cases e2

instance (img : Bytes) (p : Nat) : (v : DString) → Decidable (v.ExactAt img p)
  | .long (.isrc c) => inferInstanceAs (Decidable (U16At img (p + 1) (c.length + 6)))
  | .long (.ascii _) => isTrue trivial
  | .long (.ucs2le _) => isTrue trivial
  | .short _ => isTrue trivial

theorem tracksPage_exact : tracksPage.Canonical 288 smallFile 288 := by
  refine ⟨?_, trivial⟩
  decide +kernel

theorem nodesPage_exact : nodesPage.Canonical 288 smallFile 576 := by
  refine ⟨?_, trivial⟩
  decide +kernel

theorem intact_of_pages {file : Bytes} {d : Database} {size q1 q2 : Nat} {pg1 pg2 : Page}
    (ho : Database.openAt file 0 .plain = .ok d) (hs : d.content.header.pageSize.toNat = size)
    (hn : d.content.header.nextUnusedPage.val.toNat = 3) (hf : 28 + 16 * d.content.header.tables.length ≤ size)
    (r1 : Page.read size .plain file (1 * size) = .ok (pg1, q1))
    (r2 : Page.read size .plain file (2 * size) = .ok (pg2, q2))
    (s1 : pg1.Sound size .plain) (s2 : pg2.Sound size .plain)
    (c1 : pg1.Canonical size file (1 * size)) (c2 : pg2.Canonical size file (2 * size)) : d.Intact := by
  subst hs
  refine open_intact ho hf fun n pg q h1 h2 hr => ?_
  rw [hn] at h2
  match n, h1, h2 with
  | 1, _, _ =>
    rw [r1] at hr
    simp only [Res.ok.injEq, Prod.mk.injEq] at hr
    rw [← hr.1]
    exact ⟨s1, c1⟩
  | 2, _, _ =>
    rw [r2] at hr
    simp only [Res.ok.injEq, Prod.mk.injEq] at hr
    rw [← hr.1]
    exact ⟨s2, c2⟩

/-- C75: the example file is in order. -/
theorem smallFile_intact : smallDb.Intact :=
  intact_of_pages smallFile_open rfl rfl (by decide) smallFile_read1 smallFile_read2 tracksPage_sound nodesPage_sound
    tracksPage_exact nodesPage_exact

theorem view_of_read {d : Database} {n size q : Nat} {pg : Page} (hs : d.content.header.pageSize.toNat = size)
    (hl : d.content.pages[n - 1]? = some .notLoaded) (hr : Page.read size d.dbType d.io (n * size) = .ok (pg, q)) :
    d.view n = .ok pg := by
  subst hs
  unfold Database.view
  rw [hl]
  simp only
  rw [hr]

theorem mapped_rows {X Y R S : Type} {g : X → R} {h : Y → S} {mk : S → R} {F : S → S}
    (inj : ∀ a b, mk a = mk b → a = b) {xs : List X} {ys : List Y} {ts : List S}
    (hp : Pointwise (fun x y => ∃ r, g x = mk r ∧ h y = F r) xs ys) (hx : xs.map g = ts.map mk) :
    ys.map h = ts.map F := by
  induction hp generalizing ts with
  | nil =>
    cases ts with
    | nil => rfl
    | cons t ts => cases hx
  | cons hr _ ih =>
    cases ts with
    | nil => cases hx
    | cons t ts =>
      rw [List.map_cons, List.map_cons] at hx
      injection hx with e1 e2
      obtain ⟨r, e3, e4⟩ := hr
      rw [e3] at e1
      rw [List.map_cons, List.map_cons, ih e2, e4, inj _ _ e1]

theorem track_inj (a b : Track) (h : Row.plain (.track a) = .plain (.track b)) : a = b := by
  injection h with h
  injection h

theorem single_type {n : Nat} {pg : Page} {pt : PageType} (h : pg.header.pageType = pt) :
    ∀ x ∈ [(n, pg)], x.2.header.pageType = pt := by
  intro x hx
  rw [List.mem_singleton] at hx
  rw [hx]
  exact h

theorem smallDb_view1 : smallDb.view 1 = .ok tracksPage := view_of_read rfl rfl smallFile_read1

theorem smallDb_view2 : smallDb.view 2 = .ok nodesPage := view_of_read rfl rfl smallFile_read2

theorem smallDb_chain1 : smallDb.Chain 1 1 [(1, tracksPage)] := .last (by decide) smallDb_view1

theorem smallDb_chain2 : smallDb.Chain 2 2 [(2, nodesPage)] := .last (by decide) smallDb_view2

theorem smallDb_tracks : smallHeader.findTable (.plain .tracks) = some (0, ⟨.plain .tracks, 0, ⟨1⟩, ⟨1⟩⟩) := by
  decide +kernel

theorem smallDb_tree : smallHeader.findTable (.plain .playlistTree) =
    some (1, ⟨.plain .playlistTree, 0, ⟨2⟩, ⟨2⟩⟩) := by
  decide +kernel

theorem tracks_type : ∀ x ∈ [(1, tracksPage)], x.2.header.pageType = .plain .tracks := single_type rfl

theorem nodes_type : ∀ x ∈ [(2, nodesPage)], x.2.header.pageType = .plain .playlistTree := single_type rfl

theorem tracks_rows : (rowsOf [(1, tracksPage)]).map (fun x => x.2.2) = [oneTrack].map fun r => .plain (.track r) := by
  decide +kernel

theorem nodes_rows : (rowsOf [(2, nodesPage)]).map (fun x => x.2.2) =
    goodNodes.map fun r => .plain (.playlistTreeNode r) := by
  decide +kernel

/-- C75: the track of the example survive. -/
example : ∃ d' d2 it rows it', smallDb.flush = .ok d' ∧ Database.openAt d'.io 0 .plain = .ok d2 ∧
    d2.iterRows Track = .ok it ∧ it.Runs Track rows it' ∧
    Pointwise RowStored (rowsOf [(1, tracksPage)]) rows := by
  obtain ⟨-, -, -, -, -, -, -, -, -, -, -, -, -, L, -⟩ := row_variants_lawful
  exact rows_survive_reopen L smallFile_intact smallDb_tracks smallDb_chain1 tracks_type

/-- C76: new ratings and artists for the track of the example. -/
example : ∃ it it' d' d2 it2 rows it2', smallDb.iterRows Track = .ok it ∧
    it.Edits Track (fun _ _ t => { t with rating := 5, artistId := 9 }) it' ∧
    (smallDb.after it'.pages).flush = .ok d' ∧ Database.openAt d'.io 0 .plain = .ok d2 ∧
    d2.iterRows Track = .ok it2 ∧ it2.Runs Track rows it2' ∧
    rows.map (fun x => x.2.2) = [oneTrack].map fun t => { t with rating := 5, artistId := 9 } := by
  obtain ⟨it, it', d', d2, it2, rows, it2', h1, h2, h3, h4, -, h5, h6, h7, -⟩ := edited_track_fields_survive
    (fun _ _ t => { t with rating := 5, artistId := 9 }) smallFile_intact smallDb_tracks smallDb_chain1 tracks_type (by
      intro x hx r hr
      have hm := List.mem_map_of_mem (f := fun x => x.2.2) hx
      rw [tracks_rows, hr] at hm
      obtain ⟨t, ht, he⟩ := List.mem_map.1 hm
      simp only [Row.plain.injEq, PlainRow.track.injEq] at he
      subst he
      rw [List.mem_singleton] at ht
      subst ht
      obtain ⟨g1, -, ⟨⟨g2, g3⟩, -⟩, -⟩ := oneTrack_room
      exact ⟨⟨g2, fun o ho => by have := g3 o ho; omega⟩, rfl, rfl, g1.2.1⟩)
  refine ⟨it, it', d', d2, it2, rows, it2', h1, h2, h3, h4, h5, h6, ?_⟩
  have hh : Pointwise (fun x y => ∃ r : Track, x.2.2 = .plain (.track r) ∧
      y.2.2 = { r with rating := 5, artistId := 9 }) (rowsOf [(1, tracksPage)]) rows :=
    h7.imp fun x _ y _ h => h.2.2
  exact mapped_rows track_inj hh tracks_rows

/-- C76: a shorter name for the playlists of the example. -/
example : ∃ it it' d' d2 it2 rows it2', smallDb.iterRows PlaylistTreeNode = .ok it ∧
    it.Edits PlaylistTreeNode (fun _ _ r => { r with name := .short [] }) it' ∧
    (smallDb.after it'.pages).flush = .ok d' ∧ Database.openAt d'.io 0 .plain = .ok d2 ∧
    d2.iterRows PlaylistTreeNode = .ok it2 ∧ it2.Runs PlaylistTreeNode rows it2' ∧
    ∀ x ∈ rows, x.2.2.name = .short [] := by
  obtain ⟨it, it', d', d2, it2, rows, it2', h1, h2, h3, h4, -, h5, h6, h7, -⟩ := renamed_playlists_survive_partial
    (fun _ _ r => { r with name := .short [] }) smallFile_intact smallDb_tree smallDb_chain2 nodes_type (by
      intro x hx r hr
      have hm := List.mem_map_of_mem (f := fun x => x.2.2) hx
      rw [nodes_rows, hr] at hm
      obtain ⟨t, ht, he⟩ := List.mem_map.1 hm
      simp only [Row.plain.injEq, PlainRow.playlistTreeNode.injEq] at he
      subst he
      refine ⟨Nat.zero_le _, ?_⟩
      simp only [goodNodes, List.mem_cons, List.not_mem_nil, or_false] at ht
      rcases ht with rfl | rfl | rfl <;> decide)
  refine ⟨it, it', d', d2, it2, rows, it2', h1, h2, h3, h4, h5, h6, fun y hy => ?_⟩
  obtain ⟨x, -, -, -, r, -, h⟩ := h7.mem_right hy
  rw [h]

/-! ## C76: the witnesses -/

/-- The page with its rows edited. -/
def editPage (g : Row → Row) (pg : Page) : Page :=
  match pg.content with
  | .data c => { pg with content := .data { c with rows := c.rows.map fun x => (x.1, g x.2) } }
  | .index _ => pg

theorem editPage_eq {α : Type} [RowVariant α] {f : Nat → UInt16 → α → α} {g : Row → Row} {n : Nat} {pg pg' : Page}
    (h : PageEdited f n pg pg')
    (hg : ∀ x y k a, RowVariant.fromRow x = some a → RowVariant.fromRow y = some (f n k a) → y = g x) :
    pg' = editPage g pg := by
  obtain ⟨hh, hc⟩ := h
  unfold editPage
  cases hd : pg.content with
  | index c =>
    rw [hd] at hc
    cases pg
    cases pg'
    simp only at *
    rw [hh, hc, hd]
  | data c =>
    rw [hd] at hc
    obtain ⟨rows, hc, hr⟩ := hc
    have : rows = c.rows.map fun x => (x.1, g x.2) := by
      clear hc hd
      generalize c.rows = rs at hr
      induction hr with
      | nil => rfl
      | @cons x y _ _ hr _ ih =>
        obtain ⟨e1, a, e2, e3⟩ := hr
        rw [List.map_cons, ← ih, ← hg x.2 y.2 x.1 a e2 e3, ← e1]
    cases pg'
    simp only at *
    rw [hh, hc, this]

/-- The example with one page in memory. -/
def smallLoaded (n : Nat) (pg : Page) : Database :=
  { smallDb with content := { header := smallHeader, pages := [.notLoaded, .notLoaded].set n (.loaded pg) } }

/-- A page after flushing and opening the file again. -/
def reopenedPage (d : Database) (n : Nat) : Res Page := do
  let d' ← d.flush
  let d2 ← Database.openAt d'.io 0 .plain
  d2.view n

/-- The rows of a page after flushing and opening the file again satisfy the condition. -/
def reopenedRows (d : Database) (n : Nat) (P : RowMap → Bool) : Bool :=
  match reopenedPage d n with
  | .ok ⟨_, .data c⟩ => P c.rows
  | _ => false

theorem reopenedRows_spec {d : Database} {n : Nat} {P : RowMap → Bool} (h : reopenedRows d n P = true) :
    ∃ d' d2 pg c, d.flush = .ok d' ∧ Database.openAt d'.io 0 .plain = .ok d2 ∧ d2.view n = .ok pg ∧
      pg.content = .data c ∧ P c.rows = true := by
  unfold reopenedRows at h
  split at h
  · rename_i hd c hp
    unfold reopenedPage at hp
    obtain ⟨d', h1, hp⟩ := Res.bind_eq_ok.1 hp
    obtain ⟨d2, h2, h3⟩ := Res.bind_eq_ok.1 hp
    exact ⟨d', d2, _, c, h1, h2, h3, rfl, h⟩
  · cases h

/-- Editing the rows of a single page of the example. -/
theorem edit_example {α : Type} [RowVariant α] [RowAssign α] (hα : RowVariant.Lawful α) (hm : RowAssign.Lawful α)
    {f : Nat → UInt16 → α → α} {g : Row → Row} {n m : Nat} {pg : Page} (hs : pg.Sound 288 .plain) (hn : n < 2) (hm' : m = n + 1) {k : Nat} {t : Table}
    (hg : ∀ x y k a, RowVariant.fromRow x = some a → RowVariant.fromRow y = some (f m k a) → y = g x)
    (ht : smallHeader.findTable (RowVariant.pageType α) = some (k, t))
    (hc : smallDb.Chain t.lastPage.val.toNat t.firstPage.val.toNat [(m, pg)])
    (hp : pg.header.pageType = RowVariant.pageType α) :
    ∃ it it', smallDb.iterRows α = .ok it ∧ it.Edits α f it' ∧
      smallDb.after it'.pages = smallLoaded n (editPage g pg) := by
  subst hm'
  obtain ⟨it, it', h1, h2, h3, h4, h5⟩ := edit_rows_exact hα hm f (d := smallDb) ht hc fun x hx c hcont => by
    rw [List.mem_singleton] at hx
    rw [hx] at hcont
    obtain ⟨g1, g2, -⟩ := hs.data c hcont
    refine ⟨g1.sorted, fun y hy => ?_⟩
    rw [← hp]
    exact (g2 y hy).2.1
  refine ⟨it, it', h1, h2, ?_⟩
  obtain ⟨pg', h6, h7⟩ := h4 _ (List.mem_singleton.2 rfl)
  rw [editPage_eq h7 hg] at h6
  simp only [Nat.add_sub_cancel] at h6
  have hpages : it'.pages.pages = [LazyPage.notLoaded, .notLoaded].set n
      (.loaded (editPage g pg)) := by
    apply List.ext_getElem?
    intro i
    by_cases hi : i = n
    · rw [hi]
      rw [List.getElem?_set_self (by simpa using hn)]
      exact h6
    · rw [List.getElem?_set_ne (by omega)]
      have := h5 (i + 1) (by omega) fun x hx => by
        rw [List.mem_singleton] at hx
        rw [hx]
        simp only
        omega
      exact this
  unfold Database.after smallLoaded
  rw [hpages]
  rfl

/-- A title of eleven characters. -/
def longTitle : DString := .short [72, 101, 108, 108, 111, 32, 87, 111, 114, 108, 100]

/-- The track with that title. -/
def withTitle (t : Track) : Track :=
  { t with offsets := ⟨t.offsets.offsets, { t.offsets.inner with title := longTitle }⟩ }

/-- The row with that title. -/
def retitle : Row → Row
  | .plain (.track t) => .plain (.track (withTitle t))
  | r => r

theorem retitle_spec (x y : Row) (a : Track) (hx : RowVariant.fromRow x = some a)
    (hy : RowVariant.fromRow y = some (withTitle a)) : y = retitle x := by
  simp only [RowVariant.fromRow] at hx hy
  split at hx <;> split at hy
  · injection hx with hx
    injection hy with hy
    rw [hy, ← hx]
    rfl
  all_goals first | (cases hy; done) | (cases hx; done)

theorem retitle_reopened : reopenedRows (smallLoaded 0 (editPage retitle tracksPage)) 1
    (fun rows => !rows.isEmpty && rows.all fun x =>
      match x.2 with
      | .plain (.track t) => t.offsets.inner.title ≠ longTitle
      | _ => false) = true := by decide +kernel

/-- C76: the full property is false: giving the tracks of an intact database a longer title, and flushing,
succeeds, and then no track has this title (the strings behind it are written over its end). -/
theorem longer_title_is_damaged : ∃ d : Database, d.Intact ∧ ∃ it it' d' d2 pg c,
    d.iterRows Track = .ok it ∧ it.Edits Track (fun _ _ t => withTitle t) it' ∧
    (d.after it'.pages).flush = .ok d' ∧ Database.openAt d'.io 0 .plain = .ok d2 ∧
    d2.view 1 = .ok pg ∧ pg.content = .data c ∧ c.rows ≠ [] ∧
    longTitle.Storable ∧ ∀ x ∈ c.rows, ∃ t, x.2 = .plain (.track t) ∧ t.offsets.inner.title ≠ longTitle := by
  obtain ⟨-, -, -, -, -, -, -, -, -, -, -, -, -, L, -⟩ := row_variants_lawful
  obtain ⟨-, -, -, -, -, -, -, -, -, -, -, -, -, M, -⟩ := row_assign_lawful
  obtain ⟨it, it', h1, h2, h3⟩ := edit_example (α := Track) L M (f := fun _ _ t => withTitle t) (g := retitle)
    (n := 0) (m := 1) tracksPage_sound (by decide) rfl (fun x y _ a => retitle_spec x y a) smallDb_tracks smallDb_chain1 rfl
  obtain ⟨d', d2, pg, c, h4, h5, h6, h7, h8⟩ := reopenedRows_spec retitle_reopened
  simp only [Bool.and_eq_true, Bool.not_eq_true', List.isEmpty_eq_false_iff, List.all_eq_true] at h8
  refine ⟨smallDb, smallFile_intact, it, it', d', d2, pg, c, h1, h2, h3 ▸ h4, h5, h6, h7, h8.1, ?_, ?_⟩
  · show _ ≤ 126
    decide
  · intro x hx
    have := h8.2 x hx
    split at this
    · rename_i t ht
      exact ⟨t, ht, by simpa using this⟩
    · cases this

/-- A name of six characters. -/
def longName : DString := .short [80, 108, 97, 121, 32, 49]

/-- The row with that name. -/
def rename : Row → Row
  | .plain (.playlistTreeNode r) => .plain (.playlistTreeNode { r with name := longName })
  | r => r

theorem rename_spec (x y : Row) (a : PlaylistTreeNode) (hx : RowVariant.fromRow x = some a)
    (hy : RowVariant.fromRow y = some { a with name := longName }) : y = rename x := by
  simp only [RowVariant.fromRow] at hx hy
  split at hx <;> split at hy
  · injection hx with hx
    injection hy with hy
    rw [hy, ← hx]
    rfl
  all_goals first | (cases hy; done) | (cases hx; done)

theorem rename_reopened : reopenedRows (smallLoaded 1 (editPage rename nodesPage)) 2
    (fun rows => rows.any fun x =>
      match x.2 with
      | .plain (.playlistTreeNode r) => r.name ≠ longName
      | _ => false) = true := by decide +kernel

/-- C76: the full property is false for playlists as well: after renaming all to a longer name, some of them
do not have this name (the next row is written over its end). -/
theorem longer_name_is_damaged : ∃ d : Database, d.Intact ∧ ∃ it it' d' d2 pg c,
    d.iterRows PlaylistTreeNode = .ok it ∧
    it.Edits PlaylistTreeNode (fun _ _ r => { r with name := longName }) it' ∧
    (d.after it'.pages).flush = .ok d' ∧ Database.openAt d'.io 0 .plain = .ok d2 ∧
    d2.view 2 = .ok pg ∧ pg.content = .data c ∧ longName.Storable ∧
    ∃ k r, (k, Row.plain (.playlistTreeNode r)) ∈ c.rows ∧ r.name ≠ longName := by
  obtain ⟨-, -, -, -, -, -, -, -, -, -, L, -⟩ := row_variants_lawful
  obtain ⟨-, -, -, -, -, -, -, -, -, -, M, -⟩ := row_assign_lawful
  obtain ⟨it, it', h1, h2, h3⟩ := edit_example (α := PlaylistTreeNode) L M
    (f := fun _ _ r => { r with name := longName }) (g := rename)
    (n := 1) (m := 2) nodesPage_sound (by decide) rfl (fun x y _ a => rename_spec x y a) smallDb_tree smallDb_chain2 rfl
  obtain ⟨d', d2, pg, c, h4, h5, h6, h7, h8⟩ := reopenedRows_spec rename_reopened
  simp only [List.any_eq_true] at h8
  obtain ⟨x, hx, h8⟩ := h8
  refine ⟨smallDb, smallFile_intact, it, it', d', d2, pg, c, h1, h2, h3 ▸ h4, h5, h6, h7, ?_, ?_⟩
  · show _ ≤ 126
    decide
  · split at h8
    · rename_i r hr
      refine ⟨x.1, r, ?_, by simpa using h8⟩
      rw [← hr]
      exact hx
    · cases h8

end Rekordcrate
