import Verif.Lemmas.Table
import Verif.Props.Header
import Verif.Props.ListingFile
import Verif.Props.CliFile
import Verif.Props.Dump

/-! # C77: reading tables that may be damaged -/

namespace Rekordcrate

/-- C77: a loop over a table, in any database, calls the function for the rows on the pages from the first to the
last in order, up to the first problem, and reports that problem.  Unless it panics, the header is the same
afterwards, and so are all pages. -/
theorem collect_rows_table {α β : Type} [RowVariant α] (d : Database) (f : α → Res β) :
    d.Table f (d.collectRows α f).1 ∧
      ((d.collectRows α f).1 ≠ .panic → (d.collectRows α f).2.content.header = d.content.header ∧
        ∀ n, 1 ≤ n → (d.collectRows α f).2.view n = d.view n) := by
  unfold Database.collectRows Database.iterRows Database.iterPages
  obtain ⟨h1, h2⟩ := find_table_first d.content.header (RowVariant.pageType α)
  cases ht : d.content.header.findTable (RowVariant.pageType α) with
  | none => exact ⟨.missing (h1.1 ht), fun _ => ⟨rfl, fun _ _ => rfl⟩⟩
  | some x =>
    obtain ⟨i, t⟩ := x
    obtain ⟨h3, h4, h5⟩ := h2 i t ht
    obtain ⟨l, r, hl, -⟩ := trail_exists_unique d t
    obtain ⟨h6, h7⟩ := RowIterator.collect_trail f hl (Nat.le_refl _) 0 (fun _ _ => rfl) (d.pagesOf_before t)
    obtain ⟨hlt, h3⟩ := List.getElem?_eq_some_iff.1 h3
    refine ⟨.rows (before := d.content.header.tables.take i) (after := d.content.header.tables.drop (i + 1)) ?_ h4 ?_
      hl h6, fun hp => ⟨rfl, h7 hp⟩⟩
    · rw [← h3, List.getElem_cons_drop, List.take_append_drop]
    · intro t' ht'
      obtain ⟨j, hj⟩ := List.mem_iff_getElem?.1 ht'
      rw [List.getElem?_take] at hj
      split at hj
      · rename_i hji
        exact h5 j hji t' hj
      · cases hj

theorem first_unique {pt : PageType} {b b' a a' : List Table} {t t' : Table} (h : b ++ t :: a = b' ++ t' :: a')
    (ht : t.pageType = pt) (ht' : t'.pageType = pt) (hb : ∀ x ∈ b, x.pageType ≠ pt) (hb' : ∀ x ∈ b', x.pageType ≠ pt) :
    t = t' := by
  induction b generalizing b' with
  | nil =>
    cases b' with
    | nil => injection h
    | cons x b' =>
      injection h with h
      exact absurd (h ▸ ht) (hb' x (List.mem_cons_self ..))
  | cons y b ih =>
    cases b' with
    | nil =>
      injection h with h
      exact absurd (h ▸ ht') (hb y (List.mem_cons_self ..))
    | cons x b' =>
      injection h with _ h
      exact ih h (fun z hz => hb z (List.mem_cons_of_mem _ hz)) fun z hz => hb' z (List.mem_cons_of_mem _ hz)

/-- C77: for every database, table and function there is exactly one such outcome. -/
theorem table_exists_unique {α β : Type} [RowVariant α] (d : Database) (f : α → Res β) :
    ∃ out, d.Table f out ∧ ∀ out', d.Table f out' → out' = out := by
  have h := (collect_rows_table d f).1
  generalize (d.collectRows α f).1 = out at h
  refine ⟨out, h, fun out' h' => ?_⟩
  cases h with
  | missing h =>
    cases h' with
    | missing _ => rfl
    | @rows b a t l r _ ht hp _ _ _ => exact absurd hp (h t (by rw [ht]; simp))
  | @rows b a t l r _ ht hp hb hl hv =>
    cases h' with
    | missing h => exact absurd hp (h t (by rw [ht]; simp))
    | @rows b' a' t' l' r' _ ht' hp' hb' hl' hv' =>
      rw [ht] at ht'
      cases first_unique ht' hp hp' hb hb'
      obtain ⟨rfl, rfl⟩ := hl.unique hl'
      exact hv'.unique hv

/-- C77: the outcome depends only on the header and on what the pages are, not on which of them are in memory. -/
theorem table_same_pages {α β : Type} [RowVariant α] {d d' : Database} {f : α → Res β} {out : Res (List β)}
    (hh : d'.content.header = d.content.header) (hv : ∀ n, 1 ≤ n → d'.view n = d.view n) (h : d.Table f out) :
    d'.Table f out := by
  cases h with
  | missing h => exact .missing (by rw [hh]; exact h)
  | rows ht hp hb hl hx => exact .rows (by rw [hh]; exact ht) hp hb (hl.congr hv (Nat.le_refl _)) hx

/-- C77: a loop that keeps the rows succeeds exactly if the table is there, all pages on the way from the first
to the last can be read, and all rows are of the type; it gives these rows in order. -/
theorem all_rows_ok_iff {α : Type} [RowVariant α] (d : Database) (rows : List α) :
    (d.allRows α).1 = .ok rows ↔ ∃ before t after l, d.content.header.tables = before ++ t :: after ∧
      t.pageType = RowVariant.pageType α ∧ (∀ t' ∈ before, t'.pageType ≠ RowVariant.pageType α) ∧
      d.TrailOf t l (.ok ()) ∧ Pointwise (fun x r => RowVariant.fromRow x.2.2 = some r) (rowsOf l) rows := by
  have key : ∀ {xs : List (Nat × UInt16 × Row)} {r : Res Unit} {rows : List α},
      Visited Res.ok r (xs.map fun x => x.2.2) (.ok rows) ↔
        r = .ok () ∧ Pointwise (fun x r => RowVariant.fromRow x.2.2 = some r) xs rows := by
    intro xs r
    induction xs with
    | nil =>
      intro rows
      constructor
      · intro h
        cases h with
        | done h => exact ⟨h, .nil⟩
      · rintro ⟨h, h'⟩
        cases h'
        exact .done h
    | cons x xs ih =>
      intro rows
      rw [List.map_cons]
      constructor
      · intro h
        cases h with
        | next h hf t =>
          injection hf with hf
          subst hf
          obtain ⟨h1, h2⟩ := ih.1 t
          exact ⟨h1, .cons h h2⟩
      · rintro ⟨h, h'⟩
        cases h' with
        | cons h1 h2 => exact .next h1 rfl (ih.2 ⟨h, h2⟩)
  have h := (collect_rows_table (α := α) d Res.ok).1
  unfold Database.allRows
  constructor
  · intro he
    rw [he] at h
    cases h with
    | @rows before after t l r _ ht hp hb hl hv =>
      obtain ⟨rfl, h2⟩ := key.1 hv
      exact ⟨before, t, after, l, ht, hp, hb, hl, h2⟩
  · rintro ⟨before, t, after, l, ht, hp, hb, hl, h2⟩
    obtain ⟨out, -, hu⟩ := table_exists_unique (α := α) d Res.ok
    rw [hu _ h, hu _ (.rows ht hp hb hl (key.2 ⟨rfl, h2⟩))]

/-! ## The commands -/

/-- C77: opening a file never panics. -/
theorem open_no_panic (file : Bytes) (pos : Nat) (db : DatabaseType) : Database.openAt file pos db ≠ .panic := by
  intro h
  unfold Database.openAt LazyDatabase.read at h
  rw [Rd.bind_def] at h
  cases hr : Header.read db file pos with
  | panic => exact Header.np db _ _ hr
  | err e => rw [hr] at h; cases h
  | ok x => rw [hr] at h; cases h

/-- Reading one table after another. -/
theorem seq_rows {α : Type} [RowVariant α] {d0 d : Database} (hh : d.content.header = d0.content.header)
    (hv : ∀ n, 1 ≤ n → d.view n = d0.view n) {x : Res (List α)} (h : d0.Table Res.ok x) :
    (d.allRows α).1 = x ∧ (x ≠ .panic → (d.allRows α).2.content.header = d0.content.header ∧
      ∀ n, 1 ≤ n → (d.allRows α).2.view n = d0.view n) := by
  obtain ⟨h1, h2⟩ := collect_rows_table (α := α) d Res.ok
  obtain ⟨out, -, hu⟩ := table_exists_unique (α := α) d Res.ok
  have he : (d.collectRows α Res.ok).1 = x := by rw [hu _ h1, hu _ (table_same_pages hh hv h)]
  unfold Database.allRows
  refine ⟨he, fun hx => ?_⟩
  obtain ⟨h3, h4⟩ := h2 (by rw [he]; exact hx)
  exact ⟨h3.trans hh, fun n hn => (h4 n hn).trans (hv n hn)⟩

/-- C77: what `list_playlists` reads: the nodes, artists, tracks and entries of the file as it is, or the first
problem in this order. -/
theorem list_data_tables {d : Database} {nodes : Res (List PlaylistTreeNode)} {artists : Res (List Artist)}
    {tracks : Res (List Track)} {entries : Res (List PlaylistEntry)} (h1 : d.Table Res.ok nodes)
    (h2 : d.Table Res.ok artists) (h3 : d.Table Res.ok tracks) (h4 : d.Table Res.ok entries) :
    listData d = nodes.seq (artists.seq (tracks.seq entries)) := by
  unfold listData
  obtain ⟨a1, a2⟩ := seq_rows rfl (fun _ _ => rfl) h1
  generalize d.allRows PlaylistTreeNode = y1 at a1 a2 ⊢
  obtain ⟨x1, d1⟩ := y1
  simp only at a1 a2
  subst a1
  cases x1 with
  | err e => rfl
  | panic => rfl
  | ok ns =>
    obtain ⟨a3, a4⟩ := a2 (by simp)
    simp only
    obtain ⟨b1, b2⟩ := seq_rows a3 a4 h2
    generalize d1.allRows Artist = y2 at b1 b2 ⊢
    obtain ⟨x2, d2⟩ := y2
    simp only at b1 b2
    subst b1
    cases x2 with
    | err e => rfl
    | panic => rfl
    | ok as =>
      obtain ⟨b3, b4⟩ := b2 (by simp)
      simp only
      obtain ⟨c1, c2⟩ := seq_rows b3 b4 h3
      generalize d2.allRows Track = y3 at c1 c2 ⊢
      obtain ⟨x3, d3⟩ := y3
      simp only at c1 c2
      subst c1
      cases x3 with
      | err e => rfl
      | panic => rfl
      | ok ts =>
        obtain ⟨c3, c4⟩ := c2 (by simp)
        simp only
        obtain ⟨e1, -⟩ := seq_rows c3 c4 h4
        generalize d3.allRows PlaylistEntry = y4 at e1 ⊢
        obtain ⟨x4, d4⟩ := y4
        simp only at e1
        subst e1
        cases x4 <;> rfl

/-- C77: `list_playlists` reports a file that cannot be read, or the first problem with a table; then it prints
nothing. -/
theorem list_playlists_problem (lossy : Bytes → String) (n : Nat) (file : Option Bytes) :
    (file = none → listPlaylists lossy n file = ⟨[], some (.err .io)⟩) ∧
    ∀ bs, file = some bs →
      (∃ e, Database.openAt bs 0 .plain = .err e ∧ listPlaylists lossy n file = ⟨[], some (.err e)⟩) ∨
      ∃ d nodes artists tracks entries, Database.openAt bs 0 .plain = .ok d ∧
        d.Table (α := PlaylistTreeNode) Res.ok nodes ∧ d.Table (α := Artist) Res.ok artists ∧
        d.Table (α := Track) Res.ok tracks ∧ d.Table (α := PlaylistEntry) Res.ok entries ∧
        (∀ e, nodes.seq (artists.seq (tracks.seq entries)) = .err e →
          listPlaylists lossy n file = ⟨[], some (.err e)⟩) ∧
        (nodes.seq (artists.seq (tracks.seq entries)) = .panic →
          listPlaylists lossy n file = ⟨[], some .panic⟩) := by
  refine ⟨fun h => by rw [h]; rfl, ?_⟩
  rintro bs rfl
  unfold listPlaylists
  simp only
  cases ho : Database.openAt bs 0 .plain with
  | err e => exact .inl ⟨e, rfl, rfl⟩
  | panic => exact absurd ho (open_no_panic _ _ _)
  | ok d =>
    obtain ⟨x1, h1, -⟩ := table_exists_unique (α := PlaylistTreeNode) d Res.ok
    obtain ⟨x2, h2, -⟩ := table_exists_unique (α := Artist) d Res.ok
    obtain ⟨x3, h3, -⟩ := table_exists_unique (α := Track) d Res.ok
    obtain ⟨x4, h4, -⟩ := table_exists_unique (α := PlaylistEntry) d Res.ok
    refine .inr ⟨d, x1, x2, x3, x4, rfl, h1, h2, h3, h4, fun e he => ?_, fun he => ?_⟩
    · unfold listPlaylistsOf
      simp only
      rw [list_data_tables h1 h2 h3 h4, he]
    · unfold listPlaylistsOf
      simp only
      rw [list_data_tables h1 h2 h3 h4, he]

/-- C77: what `export_playlists` reads: the tree that `get_playlists` builds, the entries of the file, and the
ids and paths of its tracks, or the first problem in this order. -/
theorem export_data_tables {n : Nat} {d : Database} {tree : Res (List PlaylistNode)}
    {entries : Res (List PlaylistEntry)} {tracks : Res (List (UInt32 × String))} (h1 : getPlaylists n d = some tree)
    (h2 : d.Table Res.ok entries) (h3 : d.Table trackPath tracks) :
    exportData n d = some (tree.seq (entries.seq tracks)) := by
  unfold exportData
  rw [h1]
  cases tree with
  | err e => rfl
  | panic => rfl
  | ok tree =>
    simp only
    obtain ⟨x1, g1, -⟩ := table_exists_unique (α := PlaylistTreeNode) d Res.ok
    obtain ⟨a1, a2⟩ := seq_rows rfl (fun _ _ => rfl) g1
    have hx : x1 ≠ .panic := by
      rintro rfl
      unfold getPlaylists at h1
      rw [a1] at h1
      cases h1
    obtain ⟨a3, a4⟩ := a2 hx
    generalize (d.allRows PlaylistTreeNode).2 = d1 at a3 a4 ⊢
    obtain ⟨b1, b2⟩ := seq_rows a3 a4 h2
    generalize d1.allRows PlaylistEntry = y2 at b1 b2 ⊢
    obtain ⟨x2, d2⟩ := y2
    simp only at b1 b2
    subst b1
    cases x2 with
    | err e => rfl
    | panic => rfl
    | ok es =>
      obtain ⟨b3, b4⟩ := b2 (by simp)
      simp only
      have hf : (fun t : Track => (do
          let s ← t.offsets.inner.filePath.intoString
          .ok (t.id, s) : Res (UInt32 × String))) = trackPath := by
        funext t
        unfold trackPath
        cases t.offsets.inner.filePath.intoString <;> rfl
      rw [hf]
      obtain ⟨out, -, hu⟩ := table_exists_unique d2 trackPath
      rw [hu _ (collect_rows_table d2 trackPath).1, ← hu _ (table_same_pages b3 b4 h3)]
      cases tracks <;> rfl

/-- C77: `export_playlists` asks nothing of the file system unless the file can be opened and all tables it needs
can be read; otherwise it reports the problem. -/
theorem export_reads_first {n : Nat} {file : Option Bytes} {root out : FsPath} {works : List FsOp → FsOp → Bool}
    {done : List FsOp} {r : Res Unit} (h : exportPlaylists n file root out works = some (done, r)) :
    (∃ bs d tree entries tracks, file = some bs ∧ Database.openAt bs 0 .plain = .ok d ∧
      getPlaylists n d = some (.ok tree) ∧ d.Table (α := PlaylistEntry) Res.ok (.ok entries) ∧
      d.Table trackPath (.ok tracks)) ∨ (done = [] ∧ r ≠ .ok ()) := by
  unfold exportPlaylists at h
  cases file with
  | none => cases h; exact .inr ⟨rfl, by simp⟩
  | some bs =>
    simp only at h
    cases ho : Database.openAt bs 0 .plain with
    | err e => rw [ho] at h; cases h; exact .inr ⟨rfl, by simp⟩
    | panic => rw [ho] at h; cases h; exact .inr ⟨rfl, by simp⟩
    | ok d =>
      rw [ho] at h
      simp only at h
      cases hp : getPlaylists n d with
      | none => unfold exportData at h; rw [hp] at h; cases h
      | some tree =>
        obtain ⟨entries, h2, -⟩ := table_exists_unique (α := PlaylistEntry) d Res.ok
        obtain ⟨tracks, h3, -⟩ := table_exists_unique d trackPath
        rw [export_data_tables hp h2 h3] at h
        cases tree with
        | err e => cases h; exact .inr ⟨rfl, by simp⟩
        | panic => cases h; exact .inr ⟨rfl, by simp⟩
        | ok tree =>
          cases entries with
          | err e => cases h; exact .inr ⟨rfl, by simp⟩
          | panic => cases h; exact .inr ⟨rfl, by simp⟩
          | ok entries =>
            cases tracks with
            | err e => cases h; exact .inr ⟨rfl, by simp⟩
            | panic => cases h; exact .inr ⟨rfl, by simp⟩
            | ok tracks => exact .inl ⟨bs, d, tree, entries, tracks, rfl, ho, hp, h2, h3⟩

/-- C77: `dump_pdb` reports a file that cannot be opened or whose header cannot be read; it never panics on these. -/
theorem dump_problem (file : Option Bytes) (db : DatabaseType) (b : Bool) :
    (file = none → dumpPdb file db b = ([], .err .io)) ∧
    ∀ bs, file = some bs → (∀ d, Database.openAt bs 0 db ≠ .ok d) →
      ∃ e, Database.openAt bs 0 db = .err e ∧ dumpPdb file db b = ([], .err e) := by
  refine ⟨fun h => by rw [h]; rfl, ?_⟩
  rintro bs rfl h
  unfold dumpPdb
  simp only
  cases ho : Database.openAt bs 0 db with
  | err e => exact ⟨e, rfl, rfl⟩
  | panic => exact absurd ho (open_no_panic _ _ _)
  | ok d => exact absurd ho (h d)

/-! ## Example -/

theorem visited_all {α : Type} [RowVariant α] (xs : List Row)
    (h : ∀ x ∈ xs, (RowVariant.fromRow (α := α) x).isSome = true) :
    ∃ rows : List α, rows.length = xs.length ∧ Visited Res.ok (.ok ()) xs (.ok rows) := by
  induction xs with
  | nil => exact ⟨[], rfl, .done rfl⟩
  | cons x xs ih =>
    obtain ⟨rows, h1, h2⟩ := ih fun y hy => h y (List.mem_cons_of_mem _ hy)
    obtain ⟨a, ha⟩ := Option.isSome_iff_exists.1 (h x (List.mem_cons_self ..))
    exact ⟨a :: rows, by simp [h1], .next ha rfl h2⟩

theorem brokenPage_nodes : (((rowsOf [(1, brokenPage 1)]).map fun x => x.2.2).all fun x =>
      (RowVariant.fromRow (α := PlaylistTreeNode) x).isSome) = true ∧
    ((rowsOf [(1, brokenPage 1)]).map fun x => x.2.2).length = 3 := by decide +kernel

/-- C77: in the damaged example file the table of tracks leads to a page that is not there, and there is no table
of artists; the playlists can be read. -/
theorem brokenFile_tables : brokenDb.Table (α := Track) Res.ok (.err (.pageNotPresent 9)) ∧
    brokenDb.Table (α := Artist) Res.ok (.err .tableTypeNotPresent) ∧
    ∃ rows : List PlaylistTreeNode, rows.length = 3 ∧ brokenDb.Table Res.ok (.ok rows) := by
  obtain ⟨h1, h2⟩ := brokenPage_nodes
  obtain ⟨rows, h3, h4⟩ := visited_all (α := PlaylistTreeNode) _ (List.all_eq_true.1 h1)
  refine ⟨.rows (before := []) rfl rfl (by simp) (l := []) (.fails (by decide) rfl) (.fails rfl), .missing ?_,
    rows, h3.trans h2, .rows (before := [⟨.plain .tracks, 0, ⟨9⟩, ⟨9⟩⟩, ⟨.unknown 77, 0, ⟨2⟩, ⟨2⟩⟩]) rfl rfl ?_
      (l := [(1, brokenPage 1)]) (.last (by decide) brokenFile_pages.1) h4⟩
  · change ∀ t ∈ brokenHeader.tables, t.pageType ≠ .plain .artists
    decide +kernel
  · simp only [List.mem_cons, List.not_mem_nil, or_false]
    rintro t (rfl | rfl) h <;> cases h

/-- C77: so `list-playlists` reports the missing table. -/
example (lossy : Bytes → String) (n : Nat) :
    listPlaylists lossy n (some brokenFile) = ⟨[], some (.err .tableTypeNotPresent)⟩ := by
  obtain ⟨-, h2, rows, -, h1⟩ := brokenFile_tables
  rcases (list_playlists_problem lossy n (some brokenFile)).2 _ rfl with ⟨e, h, -⟩ | ⟨d, x1, x2, x3, x4, h, g1, g2, -, -, g3, -⟩
  · rw [brokenFile_open] at h
    cases h
  · rw [brokenFile_open] at h
    cases h
    obtain ⟨out, -, u1⟩ := table_exists_unique (α := PlaylistTreeNode) brokenDb Res.ok
    obtain ⟨out', -, u2⟩ := table_exists_unique (α := Artist) brokenDb Res.ok
    refine g3 _ ?_
    rw [u1 _ g1, ← u1 _ h1, u2 _ g2, ← u2 _ h2]
    rfl

end Rekordcrate
