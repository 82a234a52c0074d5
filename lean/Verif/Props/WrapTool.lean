import Verif.Lemmas.WrapTool
import Verif.Props.Main

/-! # C90: the command line tool in builds without overflow checks -/

namespace Rekordcrate

section
variable (L : Libraries) (n : Nat) (w : World)

/-- C90: every command does the same in a build without overflow checks, unless it panics in a build with them. -/
theorem tool_release_same (c : Command) (h : (runMain L n w c).result ≠ some .panic) :
    runMainWrap L n w c = runMain L n w c := by
  cases c with
  | listPlaylists path =>
    simp only [runMain, runMainWrap] at h ⊢
    rw [listPlaylistsWrap_same _ _ _ h]
  | listSettings path => rfl
  | exportPlaylists path out =>
    simp only [runMain, runMainWrap] at h ⊢
    rw [exportPlaylistsWrap_same]
    · rfl
    · intro ops hc
      rw [hc] at h
      exact h rfl
  | dumpAnlz path =>
    simp only [runMain, runMainWrap] at h ⊢
    unfold dumpAnlz at h ⊢
    unfold dumpAnlzWrap
    cases hf : w.file path with
    | none => rfl
    | some bs =>
      simp only [hf] at h ⊢
      have hr : Anlz.AnlzFile.read bs 0 ≠ .panic := by
        intro hc
        rw [hc] at h
        exact h rfl
      rw [Anlz.AnlzFile.read_agree bs 0 hr]
      rfl
  | dumpPdb path o b =>
    simp only [runMain, runMainWrap] at h ⊢
    cases hg : guessDbType path o with
    | err e => rfl
    | panic => rfl
    | ok x =>
      cases x with
      | none => rfl
      | some t =>
        simp only [hg] at h ⊢
        rw [dumpPdbWrap_same]
        intro hc
        exact h (by rw [hc])
  | dumpSetting path o => rfl
  | dumpXml path => rfl

/-- C90: without overflow checks `dump-anlz` never panics. -/
theorem dump_anlz_release_never_panics (path : FsPath) :
    (runMainWrap L n w (.dumpAnlz path)).result ≠ some .panic := by
  simp only [runMainWrap]
  unfold dumpAnlzWrap
  cases w.file path with
  | none => exact fun h => (by cases h)
  | some bs =>
    simp only
    cases hr : Anlz.AnlzFile.readWrap bs 0 with
    | ok x => exact fun h => (by cases h)
    | err e => exact fun h => (by cases h)
    | panic => exact absurd hr (anlz_release_never_panics bs 0)

/-- C90: without overflow checks `dump-pdb` panics exactly if a table that is wanted leads to a page that cannot be
shown. -/
theorem dump_pdb_release_panics_iff {path : FsPath} {o : Option String} {b : Bool}
    (hv : (Command.dumpPdb path o b).Valid) :
    (runMainWrap L n w (.dumpPdb path o b)).result = some .panic ↔
      ∃ file t d, w.file path = some file ∧ guessDbType path o = .ok (some t) ∧ Database.openAt file 0 t = .ok d ∧
        ∃ x ∈ d.content.header.tables, Wanted b x ∧
          ∃ i pg, ChainPage file d.content.header t x i pg ∧ ¬ pg.Showable := by
  simp only [runMainWrap]
  by_cases hk : (Command.dumpPdb path o b).KindUnknown
  · rw [(guess_db_unknown hv).1 hk]
    exact ⟨fun h => (by cases h), fun ⟨_, _, _, _, h, _⟩ => (by cases h)⟩
  · obtain ⟨t, ht⟩ := (guess_db_unknown hv).2 hk
    rw [ht]
    simp only [Option.some.injEq]
    unfold dumpPdbWrap
    cases hf : w.file path with
    | none => exact ⟨fun h => (by cases h), fun ⟨_, _, _, h, _⟩ => (by cases h)⟩
    | some bs =>
      simp only
      cases ho : Database.openAt bs 0 t with
      | err e =>
        refine ⟨fun h => (by cases h), ?_⟩
        rintro ⟨file, t', d, h1, h2, h3, -⟩
        injection h1 with h1
        injection h2 with h2
        injection h2 with h2
        subst h1
        subst h2
        rw [ho] at h3
        cases h3
      | panic => exact absurd ho (open_no_panic _ _ _)
      | ok d =>
        simp only
        rw [dumpTablesWrap_spec b d.content.header.tables 0 d (openAt_about ho) rfl]
        constructor
        · rintro ⟨x, h1, h2, h3⟩
          exact ⟨bs, t, d, rfl, rfl, ho, x, h1, h2, h3⟩
        · rintro ⟨file, t', d', h1, h2, h3, x, h4, h5, h6⟩
          injection h1 with h1
          injection h2 with h2
          injection h2 with h2
          subst h1
          subst h2
          rw [ho] at h3
          injection h3 with h3
          subst h3
          exact ⟨x, h4, h5, h6⟩

end

/-- C90: without overflow checks reading all rows of a table panics exactly if the table leads to a page that holds a row of
another type. -/
theorem rows_release_panics_iff {file : Bytes} {d : Database} (ho : Database.openAt file 0 .plain = .ok d) (α : Type)
    [RowVariant α] : (d.allRowsWrap α).1 = .panic ↔ ForeignRow file d.content.header α :=
  (d.allRowsWrap_spec (openAt_about ho)).2.1

theorem not_displayable {lossy : Bytes → String} {s : DString} (h : ¬ Displayable lossy s) : ¬ s.Valid := by
  intro hv
  apply h
  rcases s with c | (c | c | us) <;> simp only [Displayable, DString.display, DString.Valid] at hv ⊢
  · cases hc : fromUtf8 c with
    | none => rw [hc] at hv; cases hv
    | some t => exact ⟨t, rfl⟩
  · cases hc : fromUtf8 c with
    | none => exact ⟨_, rfl⟩
    | some t => exact ⟨t, rfl⟩
  · cases hc : fromUtf8 c with
    | none => rw [hc] at hv; cases hv
    | some t => exact ⟨t, rfl⟩
  · exact ⟨_, rfl⟩

theorem mem_rowWith {α : Type} {key : α → UInt32} {rows : List α} {id : UInt32} {a : α}
    (h : rowWith key rows id = some a) : a ∈ rows := by
  unfold rowWith at h
  exact (List.mem_filter.1 (List.mem_of_getLast? h)).1

theorem row_not_showable {lossy : Bytes → String} {artists : List Artist} {tracks : List Track}
    {entries : List PlaylistEntry} {r : PlaylistTreeNode} (h : ¬ RowShowable lossy artists tracks entries r) :
    ¬ r.name.Valid ∨ (∃ a ∈ artists, ¬ a.offsets.inner.name.Valid) ∨ ∃ t ∈ tracks, ¬ t.offsets.inner.title.Valid := by
  apply Classical.byContradiction
  intro hc
  apply h
  have h1 : Displayable lossy r.name := Classical.byContradiction fun h => hc (.inl (not_displayable h))
  have h2 : ∀ a ∈ artists, Displayable lossy a.offsets.inner.name := fun a ha =>
    Classical.byContradiction fun h => hc (.inr (.inl ⟨a, ha, not_displayable h⟩))
  have h3 : ∀ t ∈ tracks, Displayable lossy t.offsets.inner.title := fun t ht =>
    Classical.byContradiction fun h => hc (.inr (.inr ⟨t, ht, not_displayable h⟩))
  refine ⟨h1, fun i id _ => ?_⟩
  cases ht : rowWith Track.id tracks id with
  | none => exact ⟨_, .noTrack ht⟩
  | some t =>
    obtain ⟨title, h4⟩ := h3 t (mem_rowWith ht)
    cases ha : rowWith Artist.id artists t.artistId with
    | none => exact ⟨_, .noArtist ht ha h4⟩
    | some a =>
      obtain ⟨name, h5⟩ := h2 a (mem_rowWith ha)
      exact ⟨_, .full ht ha h4 h5⟩

theorem fromRow_node {r : Row} {x : PlaylistTreeNode} (h : RowVariant.fromRow r = some x) :
    r = .plain (.playlistTreeNode x) := by
  rcases r with r | r | _
  · cases r <;> first | (cases h; rfl) | cases h
  · cases h
  · cases h

theorem fromRow_artist {r : Row} {x : Artist} (h : RowVariant.fromRow r = some x) : r = .plain (.artist x) := by
  rcases r with r | r | _
  · cases r <;> first | (cases h; rfl) | cases h
  · cases h
  · cases h

theorem fromRow_track {r : Row} {x : Track} (h : RowVariant.fromRow r = some x) : r = .plain (.track x) := by
  rcases r with r | r | _
  · cases r <;> first | (cases h; rfl) | cases h
  · cases h
  · cases h

/-- C90: without overflow checks `list-playlists` panics only if one of the four tables that it reads leads to a page
that holds a row of another type, or if a name or title in these tables is not valid UTF-8. -/
theorem list_playlists_release_panics (L : Libraries) (n : Nat) (w : World) {path : FsPath}
    (h : (runMainWrap L n w (.listPlaylists path)).result = some .panic) :
    ∃ file d, w.file path = some file ∧ Database.openAt file 0 .plain = .ok d ∧
      (ForeignRow file d.content.header PlaylistTreeNode ∨ ForeignRow file d.content.header Artist ∨
        ForeignRow file d.content.header Track ∨ ForeignRow file d.content.header PlaylistEntry ∨
        (∃ x, TableRow file d.content.header .plain (.plain .playlistTree) (.plain (.playlistTreeNode x)) ∧
          ¬ x.name.Valid) ∨
        (∃ x, TableRow file d.content.header .plain (.plain .artists) (.plain (.artist x)) ∧
          ¬ x.offsets.inner.name.Valid) ∨
        ∃ x, TableRow file d.content.header .plain (.plain .tracks) (.plain (.track x)) ∧
          ¬ x.offsets.inner.title.Valid) := by
  simp only [runMainWrap] at h
  unfold listPlaylistsWrap at h
  cases hf : w.file path with
  | none => rw [hf] at h; cases h
  | some bs =>
    simp only [hf] at h
    cases ho : Database.openAt bs 0 .plain with
    | err e => rw [ho] at h; cases h
    | panic => exact absurd ho (open_no_panic _ _ _)
    | ok d =>
      simp only [ho] at h
      refine ⟨bs, d, rfl, ho, ?_⟩
      have ab := openAt_about ho
      generalize d.content.header = hd at ab ⊢
      unfold listPlaylistsOfWrap listDataWrap at h
      obtain ⟨a1, p1, o1⟩ := d.allRowsWrap_spec (α := PlaylistTreeNode) ab
      rcases h1 : d.allRowsWrap PlaylistTreeNode with ⟨x1, d1⟩
      rw [h1] at h a1 p1 o1
      rcases x1 with nodes | e | _
      · simp only at h a1
        obtain ⟨a2, p2, o2⟩ := d1.allRowsWrap_spec (α := Artist) a1
        rcases h2 : d1.allRowsWrap Artist with ⟨x2, d2⟩
        rw [h2] at h a2 p2 o2
        rcases x2 with artists | e | _
        · simp only at h a2
          obtain ⟨a3, p3, o3⟩ := d2.allRowsWrap_spec (α := Track) a2
          rcases h3 : d2.allRowsWrap Track with ⟨x3, d3⟩
          rw [h3] at h a3 p3 o3
          rcases x3 with tracks | e | _
          · simp only at h a3
            obtain ⟨a4, p4, o4⟩ := d3.allRowsWrap_spec (α := PlaylistEntry) a3
            rcases h4 : d3.allRowsWrap PlaylistEntry with ⟨x4, d4⟩
            rw [h4] at h a4 p4 o4
            rcases x4 with entries | e | _
            · simp only [idMap_eq] at h
              obtain ⟨-, r, g1, -, g2⟩ := printChildren_fail (.inl rfl) h (fun h => (by cases h))
              refine .inr (.inr (.inr (.inr ?_)))
              rcases row_not_showable g2 with g3 | ⟨a, g3, g4⟩ | ⟨t, g3, g4⟩
              · obtain ⟨r', k1, k2⟩ := o1 nodes rfl r g1
                rw [fromRow_node k2] at k1
                exact .inl ⟨r, k1, g3⟩
              · obtain ⟨r', k1, k2⟩ := o2 artists rfl a g3
                rw [fromRow_artist k2] at k1
                exact .inr (.inl ⟨a, k1, g4⟩)
              · obtain ⟨r', k1, k2⟩ := o3 tracks rfl t g3
                rw [fromRow_track k2] at k1
                exact .inr (.inr ⟨t, k1, g4⟩)
            · cases h
            · exact .inr (.inr (.inr (.inl (p4.1 rfl))))
          · cases h
          · exact .inr (.inr (.inl (p3.1 rfl)))
        · cases h
        · exact .inr (.inl (p2.1 rfl))
      · cases h
      · exact .inl (p1.1 rfl)

theorem intoString_np (s : DString) : s.intoString ≠ .panic := by
  rcases s with c | (c | c | us) <;> simp only [DString.intoString, Res.ofOption] <;> split <;>
    exact fun h => (by cases h)

theorem runOps_np (works : List FsOp → FsOp → Bool) (ops done : List FsOp) : (runOps works done ops).2 ≠ .panic := by
  induction ops generalizing done with
  | nil => exact fun h => (by cases h)
  | cons op ops ih =>
    unfold runOps
    split
    · exact ih _
    · exact fun h => (by cases h)

/-- C90: without overflow checks `export-playlists` panics only if one of the three tables that it reads leads to a page
that holds a row of another type. -/
theorem export_playlists_release_panics (L : Libraries) (n : Nat) (w : World) {path out : FsPath}
    (h : (runMainWrap L n w (.exportPlaylists path out)).result = some .panic) :
    ∃ file d, w.file (path.below "PIONEER/rekordbox/export.pdb") = some file ∧ Database.openAt file 0 .plain = .ok d ∧
      (ForeignRow file d.content.header PlaylistTreeNode ∨ ForeignRow file d.content.header PlaylistEntry ∨
        ForeignRow file d.content.header Track) := by
  rw [← exportPdbPath_eq]
  simp only [runMainWrap] at h
  have h' : ∃ ops, exportPlaylistsWrap n (w.file (exportPdbPath path)) (w.canonical path) out w.works =
      some (ops, .panic) := by
    cases hx : exportPlaylistsWrap n (w.file (exportPdbPath path)) (w.canonical path) out w.works with
    | none => rw [hx] at h; cases h
    | some x =>
      obtain ⟨ops, r⟩ := x
      rw [hx] at h
      injection h with h
      rw [h]
      exact ⟨ops, rfl⟩
  clear h
  obtain ⟨ops, h⟩ := h'
  unfold exportPlaylistsWrap at h
  cases hf : w.file (exportPdbPath path) with
  | none => rw [hf] at h; cases h
  | some bs =>
    simp only [hf] at h
    cases ho : Database.openAt bs 0 .plain with
    | err e => rw [ho] at h; cases h
    | panic => exact absurd ho (open_no_panic _ _ _)
    | ok d =>
      simp only [ho] at h
      refine ⟨bs, d, rfl, ho, ?_⟩
      have ab := openAt_about ho
      have hp : exportDataWrap n d = some .panic := by
        cases hx : exportDataWrap n d with
        | none => rw [hx] at h; cases h
        | some x =>
          rw [hx] at h
          rcases x with ⟨tree, entries, tracks⟩ | e | _
          · simp only [Option.some.injEq] at h
            have := runOps_np w.works
              (walkTrees (visitOps (EntryMap.build entries) (TrackMap.build tracks) (w.canonical path)) out tree) []
            rw [h] at this
            exact absurd rfl this
          · cases h
          · rfl
      clear h
      generalize d.content.header = hd at ab ⊢
      unfold exportDataWrap getPlaylistsWrap at hp
      obtain ⟨a1, p1, -⟩ := d.allRowsWrap_spec (α := PlaylistTreeNode) ab
      rcases h1 : d.allRowsWrap PlaylistTreeNode with ⟨x1, d1⟩
      rw [h1] at hp a1 p1
      rcases x1 with nodes | e | _
      · simp only at hp a1
        cases hc : childNodes (ChildMap.build nodes) n 0 with
        | none => rw [hc] at hp; cases hp
        | some x =>
          rw [hc] at hp
          rcases x with tree | e | _
          · simp only at hp
            obtain ⟨a2, p2, -⟩ := d1.allRowsWrap_spec (α := PlaylistEntry) a1
            rcases h2 : d1.allRowsWrap PlaylistEntry with ⟨x2, d2⟩
            rw [h2] at hp a2 p2
            rcases x2 with entries | e | _
            · simp only at hp a2
              have p3 := (d2.collectRowsWrap_spec (α := Track) (fun t => do
                let s ← t.offsets.inner.filePath.intoString
                .ok (t.id, s)) a2).2.1
              cases hx : (d2.collectRowsWrap Track fun t => do
                  let s ← t.offsets.inner.filePath.intoString
                  .ok (t.id, s)).1 with
              | ok l => rw [hx] at hp; cases hp
              | err e => rw [hx] at hp; cases hp
              | panic =>
                obtain ⟨r, g1, g2 | ⟨a, -, g2⟩⟩ := p3 hx
                · exact .inr (.inr ⟨r, g1, g2⟩)
                · cases hi : a.offsets.inner.filePath.intoString with
                  | ok s => rw [hi] at g2; cases g2
                  | err e => rw [hi] at g2; cases g2
                  | panic => exact absurd hi (intoString_np _)
            · cases hp
            · exact .inr (.inl (p2.1 rfl))
          · cases hp
          · have := (childNodes_not_ok hc (fun l h => (by cases h)) (.inl rfl)).1
            cases this
      · cases hp
      · exact .inl (p1.1 rfl)

/-! ## Concrete cases -/

/-- A file with pages of 20 bytes, whose only table leads to a page without rows. -/
def narrowFile : Bytes :=
  [0, 0, 0, 0, 20, 0, 0, 0, 1, 0, 0, 0, 4, 0, 0, 0, 0, 0, 0, 0, 0, 0, 0, 0, 0, 0, 0, 0,
    0, 0, 0, 0, 0, 0, 0, 0, 3, 0, 0, 0, 3, 0, 0, 0] ++ List.replicate 96 0

/-- With overflow checks `dump-pdb` panics on this file; without, it shows the page. -/
theorem narrowFile_dump : (dumpPdb (some narrowFile) .plain false).2 = .panic ∧
    (dumpPdbWrap (some narrowFile) .plain false).2 = .ok () ∧
    (dumpPdbWrap (some narrowFile) .plain false).1.length = 3 := by decide +kernel

/-- A page that the reader gets in a build with overflow checks is one of the table. -/
theorem chainPage_first {file : Bytes} {d : Database} {db : DatabaseType} {t : Table} {pg : Page} {q : Nat}
    (h1 : 1 ≤ t.firstPage.val.toNat) (h2 : t.firstPage.val.toNat < d.content.header.nextUnusedPage.val.toNat)
    (hr : Page.read d.content.header.pageSize.toNat db file
      (t.firstPage.val.toNat * d.content.header.pageSize.toNat) = .ok (pg, q)) :
    ChainPage file d.content.header db t t.firstPage.val.toNat pg :=
  .first h1 h2 ((page_release_read_same _ _ _ _ (by rw [hr]; exact fun h => (by cases h))).trans hr)

/-- The kind of the row that the second page of the example file holds. -/
theorem mixed_page : ∃ pg q g, Page.read 96 .plain (exampleFile .playlistTree 2 3) (2 * 96) = .ok (pg, q) ∧
    pg.Holds (.plain (.genre g)) := by
  have h : ∃ x, (match Page.read 96 .plain (exampleFile .playlistTree 2 3) (2 * 96) with
      | .ok (pg, _) => match pg.content with
        | .data c => match c.rows with
          | (_, .plain (.genre g)) :: _ => some g
          | _ => none
        | _ => none
      | _ => none) = some x := ⟨⟨7, .short [0x41]⟩, by decide +kernel⟩
  obtain ⟨g, h⟩ := h
  cases hr : Page.read 96 .plain (exampleFile .playlistTree 2 3) (2 * 96) with
  | ok x =>
    obtain ⟨pg, q⟩ := x
    simp only [hr] at h
    split at h
    · rename_i c hc
      split at h
      · rename_i k g' l hl
        exact ⟨pg, q, g', rfl, c, k, hc, by rw [hl]; exact List.mem_cons_self ..⟩
      · cases h
    · cases h
  | err e => rw [hr] at h; cases h
  | panic => rw [hr] at h; cases h

theorem mixed_open : Database.openAt (exampleFile .playlistTree 2 3) 0 .plain = .ok (exampleDb .playlistTree 2 3) := by
  decide +kernel

/-- A table of playlists that leads to a page of genres. -/
theorem mixed_foreign : ForeignRow (exampleFile .playlistTree 2 3) (exampleDb .playlistTree 2 3).content.header
    PlaylistTreeNode := by
  obtain ⟨pg, q, g, hr, hh⟩ := mixed_page
  exact ⟨_, ⟨[], ⟨.plain .playlistTree, 0, ⟨2⟩, ⟨3⟩⟩, [], 2, pg, rfl, rfl, fun x hx => (by cases hx),
    chainPage_first (d := exampleDb .playlistTree 2 3) (t := ⟨.plain .playlistTree, 0, ⟨2⟩, ⟨3⟩⟩) (by decide) (by decide) hr,
    hh⟩, rfl⟩

/-- Both commands panic on this file, with and without overflow checks. -/
theorem mixed_commands (lossy : Bytes → String) (n : Nat) (root out : FsPath) (works : List FsOp → FsOp → Bool) :
    (listPlaylistsWrap lossy n (some (exampleFile .playlistTree 2 3))).outcome = some .panic ∧
    exportPlaylistsWrap n (some (exampleFile .playlistTree 2 3)) root out works = some ([], .panic) := by
  have h := (rows_release_panics_iff mixed_open PlaylistTreeNode).2 mixed_foreign
  rcases hx : (exampleDb .playlistTree 2 3).allRowsWrap PlaylistTreeNode with ⟨x, d⟩
  rw [hx] at h
  simp only at h
  subst h
  constructor
  · simp only [listPlaylistsWrap, mixed_open, listPlaylistsOfWrap, listDataWrap, hx]
  · simp only [exportPlaylistsWrap, mixed_open, exportDataWrap, getPlaylistsWrap, hx]

/-- Without overflow checks too, `list-playlists` panics if a name is not valid. -/
example : (listPlaylistsWrap (fun _ => "") 3 (some badNameFile)) = ⟨"🗎 P\n🗎 ".toList, some .panic⟩ := by
  unfold listPlaylistsWrap
  simp only [badNameFile_open]
  unfold listPlaylistsOfWrap
  rw [listDataWrap_same _ (by rw [listDb_data badNameFile_rows]; exact fun h => (by cases h)),
    listDb_data badNameFile_rows]
  decide +kernel

theorem listDb_view_one {file : Bytes} {pg : Page} (hv : (listDb file).view 1 = .ok pg) :
    ∃ q, Page.read 512 .plain file (1 * 512) = .ok (pg, q) := by
  unfold Database.view at hv
  change (match Page.read 512 .plain file (1 * 512) with
    | .ok (pg, _) => Res.ok pg
    | .err e => .err e
    | .panic => .panic) = _ at hv
  split at hv
  · rename_i pg q' he
    injection hv with hv
    rw [← hv]
    exact ⟨q', he⟩
  · cases hv
  · cases hv

/-- Without overflow checks too, `dump-pdb` panics if a name is not valid. -/
example (L : Libraries) (n : Nat) {p q : FsPath} (hg : guessDbType p none = .ok (some .plain)) :
    (runMainWrap L n (twoNames p q badNameFile) (.dumpPdb p none false)).result = some .panic := by
  refine (dump_pdb_release_panics_iff L n _ (.inl rfl)).2
    ⟨badNameFile, .plain, listDb badNameFile, (twoNames_file p q _).1, hg, badNameFile_open,
      ⟨.plain .playlistTree, 0, ⟨1⟩, ⟨1⟩⟩, by simp [listDb, listHeader], .inl fun c h => (by cases h), 1,
      listDbPage badNameFile 1, ?_, ?_⟩
  · have hv := badNameFile_views 1 (by simp)
    obtain ⟨q', hr⟩ := listDb_view_one hv
    exact chainPage_first (d := listDb badNameFile) (t := ⟨.plain .playlistTree, 0, ⟨1⟩, ⟨1⟩⟩) (by decide) (by decide) hr
  · intro hs
    rcases (listDbPage badNameFile 1).debugFmt_cases with h | h
    · rw [badNameFile_debug.1] at h; cases h.1
    · exact h.2 hs

/-- A command that does the same in both builds. -/
example (L : Libraries) (n : Nat) {p q : FsPath} :
    runMainWrap L n (twoNames p q [80, 77, 65, 73, 0, 0, 0, 12, 0, 0, 0, 12]) (.dumpAnlz p) =
      ⟨[.anlz ⟨⟨.file, 12, 12⟩, [], []⟩], [], some (.ok ())⟩ := by
  have h : runMain L n (twoNames p q [80, 77, 65, 73, 0, 0, 0, 12, 0, 0, 0, 12]) (.dumpAnlz p) =
      ⟨[.anlz ⟨⟨.file, 12, 12⟩, [], []⟩], [], some (.ok ())⟩ := by
    have hr : Anlz.AnlzFile.read [80, 77, 65, 73, 0, 0, 0, 12, 0, 0, 0, 12] 0 = .ok (⟨⟨.file, 12, 12⟩, [], []⟩, 12) := by
      decide +kernel
    simp only [runMain, dumpAnlz, (twoNames_file p q _).1, hr]
  rw [tool_release_same _ _ _ _ (by rw [h]; exact fun h => (by cases h)), h]

end Rekordcrate
