import Verif.Lemmas.Dump
import Verif.Props.ListingFile

/-! # C72: `dump-pdb` -/

namespace Rekordcrate

/-- The number and the type in a line that announces a table. -/
def DumpItem.announced : DumpItem → Option (Nat × PageType)
  | .table i t => some (i, t)
  | _ => none

/-- The user wants the table to be parsed. -/
def Wanted (parseUnknown : Bool) (t : Table) : Prop := (∀ c, t.pageType ≠ .unknown c) ∨ parseUnknown = true

/-- C72: following the links of a table has exactly one outcome, so it comes to an end. -/
theorem trail_exists_unique (d : Database) (t : Table) :
    ∃ l r, d.TrailOf t l r ∧ ∀ l' r', d.TrailOf t l' r' → l' = l ∧ r' = r := by
  obtain ⟨l, r, h⟩ := Database.Trail.exists d t.lastPage.val.toNat _ 1 t.firstPage.val.toNat (Nat.le_refl _)
    (Nat.le_refl _)
  exact ⟨l, r, h, fun l' r' h' => h'.unique h⟩

/-- C72: an increasing readable chain is a trail without errors. -/
theorem chain_trail {d : Database} {t : Table} {l : List (Nat × Page)}
    (h : d.Chain t.lastPage.val.toNat t.firstPage.val.toNat l) : d.TrailOf t l (.ok ()) := by
  have key : ∀ {last n : Nat} {l : List (Nat × Page)}, d.Chain last n l → ∀ lo, lo ≤ n →
      d.Trail last lo n l (.ok ()) := by
    intro last n l hc
    induction hc with
    | last hn hv => intro lo hlo; exact .last hlo hv
    | link hn hv hne hlt _ ih => intro lo hlo; exact .link hlo hne hv (ih _ (by omega))
  exact key h 1 h.first.1

/-- C72: a file that cannot be opened, or whose header cannot be read, is reported, and nothing is shown. -/
theorem dump_unreadable (file : Option Bytes) (db : DatabaseType) (b : Bool)
    (h : ∀ bs, file = some bs → ∃ e, Database.openAt bs 0 db = .err e) :
    ∃ e, dumpPdb file db b = ([], .err e) := by
  cases file with
  | none => exact ⟨_, rfl⟩
  | some bs =>
    obtain ⟨e, he⟩ := h bs rfl
    exact ⟨e, by simp only [dumpPdb, he]⟩

/-- C72: otherwise the header is shown, and then, for every table in order, its pages up to the first problem, as
they are in the file. -/
theorem dump_outline {bs : Bytes} {db : DatabaseType} {d : Database} (b : Bool)
    (h : Database.openAt bs 0 db = .ok d) :
    ∃ out r, dumpPdb (some bs) db b = (.header d.content.header :: out, r) ∧
      DumpOf d b 0 d.content.header.tables out r := by
  refine ⟨_, _, by simp only [dumpPdb, h]; rfl, ?_⟩
  exact dumpTables_spec d b d.content.header.tables _ 0 d rfl rfl fun _ _ => rfl

/-- C72: after the header was read, the command reports success or panics, but never an error. -/
theorem dump_outcome {bs : Bytes} {db : DatabaseType} {d : Database} (b : Bool)
    (h : Database.openAt bs 0 db = .ok d) :
    (dumpPdb (some bs) db b).2 = .ok () ∨ (dumpPdb (some bs) db b).2 = .panic := by
  obtain ⟨out, r, he, ho⟩ := dump_outline b h
  rw [he]
  clear he
  simp only
  generalize d.content.header.tables = ts at ho
  generalize (0 : Nat) = i at ho
  induction ho with
  | done => exact .inl rfl
  | skip _ _ _ ih => exact ih
  | full _ _ _ _ ih => exact ih
  | failed _ _ _ _ ih => exact ih
  | readPanics _ _ _ => exact .inr rfl
  | showPanics _ _ _ _ => exact .inr rfl

/-- C72: the command panics exactly if a wanted table leads to a page that makes the reader panic or that
cannot be shown. -/
theorem dump_panics_iff {bs : Bytes} {db : DatabaseType} {d : Database} (b : Bool)
    (h : Database.openAt bs 0 db = .ok d) :
    (dumpPdb (some bs) db b).2 = .panic ↔
      ∃ t ∈ d.content.header.tables, Wanted b t ∧
        ((∃ l, d.TrailOf t l .panic) ∨ ∃ l r, d.TrailOf t l r ∧ ∃ x ∈ l, ¬ x.2.Showable) := by
  obtain ⟨out, r, he, ho⟩ := dump_outline b h
  rw [he]
  simp only
  generalize d.content.header.tables = ts at ho
  generalize (0 : Nat) = i at ho
  clear he
  induction ho with
  | done => simp
  | skip hu hp _ ih =>
    rw [ih]
    constructor
    · rintro ⟨t, ht, hr⟩
      exact ⟨t, List.mem_cons_of_mem _ ht, hr⟩
    · rintro ⟨t, ht, hw, hr⟩
      rcases List.mem_cons.1 ht with rfl | ht
      · rcases hw with hw | hw
        · exact absurd hu (hw _)
        · rw [hp] at hw; cases hw
      · exact ⟨t, ht, hw, hr⟩
  | full ha hl hs _ ih =>
    rw [ih]
    constructor
    · rintro ⟨t, ht, hr⟩
      exact ⟨t, List.mem_cons_of_mem _ ht, hr⟩
    · rintro ⟨t, ht, hw, hr⟩
      rcases List.mem_cons.1 ht with rfl | ht
      · rcases hr with ⟨l', hl'⟩ | ⟨l', r', hl', x, hx, hn⟩
        · cases (hl.unique hl').2
        · obtain ⟨rfl, -⟩ := hl.unique hl'
          exact absurd (hs x hx) hn
      · exact ⟨t, ht, hw, hr⟩
  | failed ha hl hs _ ih =>
    rw [ih]
    constructor
    · rintro ⟨t, ht, hr⟩
      exact ⟨t, List.mem_cons_of_mem _ ht, hr⟩
    · rintro ⟨t, ht, hw, hr⟩
      rcases List.mem_cons.1 ht with rfl | ht
      · rcases hr with ⟨l', hl'⟩ | ⟨l', r', hl', x, hx, hn⟩
        · cases (hl.unique hl').2
        · obtain ⟨rfl, -⟩ := hl.unique hl'
          exact absurd (hs x hx) hn
      · exact ⟨t, ht, hw, hr⟩
  | readPanics ha hl hs =>
    exact ⟨fun _ => ⟨_, List.mem_cons_self .., ha, .inl ⟨_, hl⟩⟩, fun _ => rfl⟩
  | showPanics ha hl hs hx =>
    exact ⟨fun _ => ⟨_, List.mem_cons_self .., ha, .inr ⟨_, _, hl, _, by simp, hx⟩⟩, fun _ => rfl⟩

/-- C72: unless the command panics, every table is announced, in order and once, whatever its pages are like. -/
theorem dump_every_table_partial {bs : Bytes} {db : DatabaseType} {d : Database} (b : Bool)
    (h : Database.openAt bs 0 db = .ok d) (hok : (dumpPdb (some bs) db b).2 = .ok ()) :
    (dumpPdb (some bs) db b).1.filterMap DumpItem.announced =
      d.content.header.tables.zipIdx.map fun x => (x.2, x.1.pageType) := by
  obtain ⟨out, r, he, ho⟩ := dump_outline b h
  rw [he] at hok ⊢
  simp only at hok
  have none_lines : ∀ l : List (Nat × Page), (l.flatMap fun x => x.2.lines).filterMap DumpItem.announced = [] := by
    intro l
    rw [List.filterMap_eq_nil_iff]
    intro y hy
    rw [List.mem_flatMap] at hy
    obtain ⟨x, -, hy⟩ := hy
    unfold Page.lines at hy
    cases hc : x.2.content with
    | data c =>
      simp only [hc, List.singleton_append, List.mem_cons, List.mem_map] at hy
      rcases hy with rfl | ⟨kr, -, rfl⟩ <;> rfl
    | index c =>
      simp only [hc, List.singleton_append, List.mem_cons, List.mem_map] at hy
      rcases hy with rfl | rfl | ⟨kr, -, rfl⟩ <;> rfl
  rw [List.filterMap_cons]
  simp only [DumpItem.announced]
  change out.filterMap DumpItem.announced = _
  generalize d.content.header.tables = ts at ho
  generalize (0 : Nat) = i at ho
  clear he
  induction ho with
  | done => rfl
  | skip hu hp _ ih =>
    rw [List.zipIdx_cons, List.map_cons, ← ih hok]
    rfl
  | full ha hl hs _ ih =>
    rw [List.zipIdx_cons, List.map_cons, ← ih hok, List.filterMap_cons]
    simp only [DumpItem.announced]
    rw [List.filterMap_append, none_lines, List.nil_append]
  | failed ha hl hs _ ih =>
    rw [List.zipIdx_cons, List.map_cons, ← ih hok, List.filterMap_cons]
    simp only [DumpItem.announced]
    rw [List.filterMap_append, none_lines, List.nil_append]
    rfl
  | readPanics _ _ _ => cases hok
  | showPanics _ _ _ _ => cases hok

/-- C72: unless the command panics, a wanted table with an intact chain is shown completely, with every page of the
chain and everything on it in order, and nothing else, whatever the other tables are like. -/
theorem dump_intact_table_partial {bs : Bytes} {db : DatabaseType} {d : Database} (b : Bool)
    (h : Database.openAt bs 0 db = .ok d) (hok : (dumpPdb (some bs) db b).2 = .ok ()) {i : Nat} {t : Table}
    (ht : d.content.header.tables[i]? = some t) (hw : Wanted b t) {l : List (Nat × Page)}
    (hc : d.Chain t.lastPage.val.toNat t.firstPage.val.toNat l) :
    ∃ before after, (dumpPdb (some bs) db b).1 =
        before ++ .table i t.pageType :: (l.flatMap (fun x => x.2.lines) ++ after) ∧
      (after = [] ∨ ∃ t', after.head? = some (.table (i + 1) t')) := by
  obtain ⟨out, r, he, ho⟩ := dump_outline b h
  rw [he] at hok ⊢
  simp only at hok
  have htr := chain_trail hc
  have starts : ∀ {j : Nat} {ts : List Table} {out : List DumpItem} {r : Res Unit}, DumpOf d b j ts out r →
      out = [] ∨ ∃ t', out.head? = some (.table j t') := by
    intro j ts out r ho
    cases ho with
    | done => exact .inl rfl
    | _ => exact .inr ⟨_, rfl⟩
  have key : ∀ {j : Nat} {ts : List Table} {out : List DumpItem} {r : Res Unit}, DumpOf d b j ts out r →
      r = .ok () → ∀ k, ts[k]? = some t → ∃ before after, out =
        before ++ .table (j + k) t.pageType :: (l.flatMap (fun x => x.2.lines) ++ after) ∧
      (after = [] ∨ ∃ t', after.head? = some (.table (j + k + 1) t')) := by
    intro j ts out r ho
    induction ho with
    | done => intro _ k hk; simp at hk
    | @skip j t1 ts out r c hu hp rest ih =>
      intro hr k hk
      cases k with
      | zero =>
        simp only [List.getElem?_cons_zero, Option.some.injEq] at hk
        subst hk
        rcases hw with hw | hw
        · exact absurd hu (hw _)
        · rw [hp] at hw; cases hw
      | succ k =>
        obtain ⟨x, y, h1, h2⟩ := ih hr k (by simpa using hk)
        rw [h1, show j + (k + 1) = j + 1 + k by omega]
        exact ⟨.table j t1.pageType :: .skipped :: x, y, rfl, h2⟩
    | @full j t1 ts out r l1 ha hl hs rest ih =>
      intro hr k hk
      cases k with
      | zero =>
        simp only [List.getElem?_cons_zero, Option.some.injEq] at hk
        subst hk
        obtain ⟨rfl, -⟩ := hl.unique htr
        exact ⟨[], out, rfl, starts rest⟩
      | succ k =>
        obtain ⟨x, y, h1, h2⟩ := ih hr k (by simpa using hk)
        rw [h1, show j + (k + 1) = j + 1 + k by omega]
        exact ⟨.table j t1.pageType :: (l1.flatMap (fun x => x.2.lines) ++ x), y, by simp, h2⟩
    | @failed j t1 ts out r l1 e ha hl hs rest ih =>
      intro hr k hk
      cases k with
      | zero =>
        simp only [List.getElem?_cons_zero, Option.some.injEq] at hk
        subst hk
        cases (hl.unique htr).2
      | succ k =>
        obtain ⟨x, y, h1, h2⟩ := ih hr k (by simpa using hk)
        rw [h1, show j + (k + 1) = j + 1 + k by omega]
        exact ⟨.table j t1.pageType :: (l1.flatMap (fun x => x.2.lines) ++ .failed j e :: x), y, by simp, h2⟩
    | readPanics _ _ _ => intro hr; cases hr
    | showPanics _ _ _ _ => intro hr; cases hr
  obtain ⟨x, y, h1, h2⟩ := key ho hok i ht
  rw [Nat.zero_add] at h1 h2
  exact ⟨.header d.content.header :: x, y, by rw [h1]; rfl, h2⟩

/-! ## Examples -/

/-- A header whose first table leads to a page that is not there, and whose second table has an unknown type. -/
def brokenHeader : Header :=
  { listHeader with tables := [⟨.plain .tracks, 0, ⟨9⟩, ⟨9⟩⟩, ⟨.unknown 77, 0, ⟨2⟩, ⟨2⟩⟩, ⟨.plain .playlistTree, 0, ⟨1⟩, ⟨1⟩⟩,
    ⟨.plain .playlistEntries, 0, ⟨4⟩, ⟨4⟩⟩] }

/-- The example file with this header. -/
def brokenFile : Bytes := brokenHeader.enc ++ listedFile.drop brokenHeader.enc.length

/-- The database in the file. -/
def brokenDb : Database where
  io := brokenFile
  dbType := .plain
  content := { header := brokenHeader, pages := [.notLoaded, .notLoaded, .notLoaded, .notLoaded] }

theorem brokenFile_open : Database.openAt brokenFile 0 .plain = .ok brokenDb := by decide +kernel

/-- A page of the database. -/
def brokenPage (n : Nat) : Page :=
  match brokenDb.view n with
  | .ok pg => pg
  | _ => Page.fresh 0 ⟨0⟩ ⟨0⟩ (.plain .playlistTree) ⟨0, 0, 0, 0⟩

theorem brokenFile_pages : brokenDb.view 1 = .ok (brokenPage 1) ∧ brokenDb.view 4 = .ok (brokenPage 4) ∧
    (brokenPage 1).debugFmt = .ok () ∧ (brokenPage 4).debugFmt = .ok () ∧
    (brokenPage 1).lines.length = 4 ∧ (brokenPage 4).lines.length = 6 := by decide +kernel

/-- What is shown for the example: the error in the first table and the skipped table do not keep the others from
being shown. -/
theorem brokenFile_dump : dumpPdb (some brokenFile) .plain false =
    (.header brokenHeader ::
      ([.table 0 (.plain .tracks), .failed 0 (.pageNotPresent 9), .table 1 (.unknown 77), .skipped,
        .table 2 (.plain .playlistTree)] ++ (brokenPage 1).lines ++
       [.table 3 (.plain .playlistEntries)] ++ (brokenPage 4).lines), .ok ()) := by
  obtain ⟨v1, v4, s1, s4, -⟩ := brokenFile_pages
  have s1 := ((brokenPage 1).debugFmt_cases.resolve_right fun h => by rw [s1] at h; cases h.1).2
  have s4 := ((brokenPage 4).debugFmt_cases.resolve_right fun h => by rw [s4] at h; cases h.1).2
  obtain ⟨out, r, he, ho⟩ := dump_outline false brokenFile_open
  rw [he]
  have t0 : brokenDb.TrailOf ⟨.plain .tracks, 0, ⟨9⟩, ⟨9⟩⟩ [] (.err (.pageNotPresent 9)) :=
    .fails (by decide) rfl
  have t2 : brokenDb.TrailOf ⟨.plain .playlistTree, 0, ⟨1⟩, ⟨1⟩⟩ [(1, brokenPage 1)] (.ok ()) := .last (by decide) v1
  have t3 : brokenDb.TrailOf ⟨.plain .playlistEntries, 0, ⟨4⟩, ⟨4⟩⟩ [(4, brokenPage 4)] (.ok ()) := .last (by decide) v4
  have e : DumpOf brokenDb false 0 brokenHeader.tables
      ([.table 0 (.plain .tracks), .failed 0 (.pageNotPresent 9), .table 1 (.unknown 77), .skipped,
        .table 2 (.plain .playlistTree)] ++ (brokenPage 1).lines ++
       [.table 3 (.plain .playlistEntries)] ++ (brokenPage 4).lines) (.ok ()) := by
    have h3 : DumpOf brokenDb false 3 [⟨.plain .playlistEntries, 0, ⟨4⟩, ⟨4⟩⟩] _ (.ok ()) :=
      .full (.inl fun c h => by cases h) t3 (by simpa using s4) .done
    have h2 : DumpOf brokenDb false 2 [⟨.plain .playlistTree, 0, ⟨1⟩, ⟨1⟩⟩, ⟨.plain .playlistEntries, 0, ⟨4⟩, ⟨4⟩⟩] _ (.ok ()) :=
      .full (.inl fun c h => by cases h) t2 (by simpa using s1) h3
    have h1 : DumpOf brokenDb false 1 [⟨.unknown 77, 0, ⟨2⟩, ⟨2⟩⟩, ⟨.plain .playlistTree, 0, ⟨1⟩, ⟨1⟩⟩,
        ⟨.plain .playlistEntries, 0, ⟨4⟩, ⟨4⟩⟩] _ (.ok ()) := .skip rfl rfl h2
    have h0 : DumpOf brokenDb false 0 brokenHeader.tables _ (.ok ()) :=
      .failed (.inl fun c h => by cases h) t0 (by simp) h1
    simpa using h0
  obtain ⟨rfl, rfl⟩ := ho.unique e
  rfl

/-- C72: the example meets the hypotheses of `dump_intact_table_partial`. -/
example : (dumpPdb (some brokenFile) .plain false).2 = .ok () ∧
    Wanted false ⟨.plain .playlistTree, 0, ⟨1⟩, ⟨1⟩⟩ ∧ brokenDb.Chain 1 1 [(1, brokenPage 1)] :=
  ⟨by rw [brokenFile_dump], Or.inl (fun c h => by cases h), .last (by decide) brokenFile_pages.1⟩

/-! ## C72: the witness -/

/-- Dumping a file with the header of the examples in which the third table cannot be shown. -/
theorem dump_third_panics {file : Bytes} {db : Database} (ho : Database.openAt file 0 .plain = .ok db)
    (hh : db.content.header = listHeader) {p1 p2 p3 p4 : Page} (v1 : db.view 1 = .ok p1) (v2 : db.view 2 = .ok p2)
    (v3 : db.view 3 = .ok p3) (v4 : db.view 4 = .ok p4)
    (s1 : ¬ p1.Showable) (s2 : p2.Showable) (s3 : p3.Showable) :
    (dumpPdb (some file) .plain false) = (.header listHeader :: .table 0 (.plain .tracks) :: (p3.lines ++
        .table 1 (.plain .artists) :: (p2.lines ++ [.table 2 (.plain .playlistTree)])), .panic) ∧
    ∀ t ∈ db.content.header.tables, ∃ l, db.Chain t.lastPage.val.toNat t.firstPage.val.toNat l := by
  have c1 : db.Chain 1 1 [(1, p1)] := .last (by decide) v1
  have c2 : db.Chain 2 2 [(2, p2)] := .last (by decide) v2
  have c3 : db.Chain 3 3 [(3, p3)] := .last (by decide) v3
  have c4 : db.Chain 4 4 [(4, p4)] := .last (by decide) v4
  have e : DumpOf db false 0 listHeader.tables
      (.table 0 (.plain .tracks) :: ([(3, p3)].flatMap (fun x => x.2.lines) ++
        .table 1 (.plain .artists) :: ([(2, p2)].flatMap (fun x => x.2.lines) ++
          .table 2 (.plain .playlistTree) :: ([] : List (Nat × Page)).flatMap (fun x => x.2.lines)))) .panic := by
    have h2 : DumpOf db false 2 [⟨.plain .playlistTree, 0, ⟨1⟩, ⟨1⟩⟩,
        ⟨.plain .playlistEntries, 0, ⟨4⟩, ⟨4⟩⟩] _ .panic :=
      .showPanics (l := []) (.inl fun c h => by cases h) (chain_trail (t := ⟨.plain .playlistTree, 0, ⟨1⟩, ⟨1⟩⟩) c1)
        (by simp) s1
    have h1 : DumpOf db false 1 [⟨.plain .artists, 0, ⟨2⟩, ⟨2⟩⟩, ⟨.plain .playlistTree, 0, ⟨1⟩, ⟨1⟩⟩,
        ⟨.plain .playlistEntries, 0, ⟨4⟩, ⟨4⟩⟩] _ .panic :=
      .full (.inl fun c h => by cases h) (chain_trail (t := ⟨.plain .artists, 0, ⟨2⟩, ⟨2⟩⟩) c2) (by simpa using s2) h2
    exact .full (.inl fun c h => by cases h) (chain_trail (t := ⟨.plain .tracks, 0, ⟨3⟩, ⟨3⟩⟩) c3) (by simpa using s3) h1
  obtain ⟨out, r, he, ho⟩ := dump_outline false ho
  rw [hh] at he ho ⊢
  obtain ⟨rfl, rfl⟩ := DumpOf.unique ho e
  refine ⟨by rw [he]; simp, ?_⟩
  intro t ht
  simp only [listHeader, List.mem_cons, List.not_mem_nil, or_false] at ht
  rcases ht with rfl | rfl | rfl | rfl
  · exact ⟨_, c3⟩
  · exact ⟨_, c2⟩
  · exact ⟨_, c1⟩
  · exact ⟨_, c4⟩

theorem badNameFile_views : ∀ n ∈ [1, 2, 3, 4], (listDb badNameFile).view n = .ok (listDbPage badNameFile n) := by
  decide +kernel

theorem badNameFile_debug : (listDbPage badNameFile 1).debugFmt = .panic ∧
    (listDbPage badNameFile 2).debugFmt = .ok () ∧ (listDbPage badNameFile 3).debugFmt = .ok () := by decide +kernel

theorem badNameFile_lines : (listDbPage badNameFile 3).lines.filterMap DumpItem.announced = [] ∧
    (listDbPage badNameFile 2).lines.filterMap DumpItem.announced = [] := by decide +kernel

/-- C72: the full property is false: there is a file with intact chains in which one name is not valid, and the
command panics; the table with the name and the tables behind it are not shown. -/
theorem dump_panics : ∃ file d, Database.openAt file 0 .plain = .ok d ∧ (dumpPdb (some file) .plain false).2 = .panic ∧
    (∀ t ∈ d.content.header.tables, ∃ l, d.Chain t.lastPage.val.toNat t.firstPage.val.toNat l) ∧
    (dumpPdb (some file) .plain false).1.filterMap DumpItem.announced =
      [(0, .plain .tracks), (1, .plain .artists), (2, .plain .playlistTree)] := by
  have v := badNameFile_views
  obtain ⟨s1, s2, s3⟩ := badNameFile_debug
  obtain ⟨l3, l2⟩ := badNameFile_lines
  have ho := badNameFile_open
  have hh : (listDb badNameFile).content.header = listHeader := rfl
  generalize listDbPage badNameFile = pg at *
  generalize listDb badNameFile = db at *
  generalize badNameFile = file at *
  have s1 := ((pg 1).debugFmt_cases.resolve_left fun h => by rw [s1] at h; cases h.1).2
  have s2 := ((pg 2).debugFmt_cases.resolve_right fun h => by rw [s2] at h; cases h.1).2
  have s3 := ((pg 3).debugFmt_cases.resolve_right fun h => by rw [s3] at h; cases h.1).2
  obtain ⟨he, hc⟩ := dump_third_panics ho hh (v 1 (by simp)) (v 2 (by simp)) (v 3 (by simp)) (v 4 (by simp)) s1 s2 s3
  refine ⟨file, db, ho, by rw [he], hc, ?_⟩
  rw [he]
  simp only [List.filterMap_cons, List.filterMap_append, l2, l3, DumpItem.announced, List.nil_append,
    List.filterMap_nil]

end Rekordcrate
