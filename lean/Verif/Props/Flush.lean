import Verif.Lemmas.Flush
import Verif.Props.RowIter

/-! # C35 to C39: flushing a database -/

namespace Rekordcrate

/-! ## C35, C39: what a flush touches -/

/-- C35: flushing a database whose loaded pages can be stored does not fail and changes no byte outside the
header page and the loaded pages. -/
theorem flush_keeps_other_pages {d : Database} (h : d.Storable) :
    ∃ d', d.flush = .ok d' ∧ d'.content = d.content ∧
      ∀ i, i < d.io.length → ¬ d.InDirtyPage i → d'.io[i]? = d.io[i]? := by
  obtain ⟨ps, h1, -, h3, -, -⟩ := h.writes
  refine ⟨_, Database.flush_eq h1, rfl, fun i hi hn => ?_⟩
  refine applyPatches_of_not_covers hi fun q hq hc => hn ?_
  obtain ⟨c1, c2⟩ := hc
  rcases h3 q hq with h | ⟨n, hl, h4, h5⟩
  · exact .inl (by omega)
  · exact .inr ⟨n, hl, by omega, by omega⟩

/-- C35: in particular every page that is not in memory has the same bytes as before. -/
theorem flush_keeps_unloaded_page {d : Database} (h : d.Storable) {n : Nat} (hn : 1 ≤ n)
    (hl : ¬ d.IsLoaded n) :
    ∃ d', d.flush = .ok d' ∧ ∀ j, j < d.content.header.pageSize.toNat →
      n * d.content.header.pageSize.toNat + j < d.io.length →
      d'.io[n * d.content.header.pageSize.toNat + j]? = d.io[n * d.content.header.pageSize.toNat + j]? := by
  obtain ⟨d', h1, -, h2⟩ := flush_keeps_other_pages h
  refine ⟨d', h1, fun j hj hlt => h2 _ hlt ?_⟩
  obtain ⟨S, hS⟩ : ∃ S, S = d.content.header.pageSize.toNat := ⟨_, rfl⟩
  rintro (hd | ⟨m, hm, h3, h4⟩)
  · rw [← hS] at hd
    have : 1 * S ≤ n * S := Nat.mul_le_mul_right S hn
    omega
  · rw [← hS] at h3 h4 hj
    rcases Nat.lt_trichotomy m n with hlt | rfl | hgt
    · have : (m + 1) * S ≤ n * S := Nat.mul_le_mul_right S hlt
      omega
    · exact hl hm
    · have : (n + 1) * S ≤ m * S := Nat.mul_le_mul_right S hgt
      rw [Nat.add_mul] at this
      omega

/-- C39, for databases whose loaded pages can be stored: if the flush is cut off, after some of the
writes and possibly in the middle of one, no byte outside the header page and the loaded pages has changed.
Missing: other databases, where the property is false, see `flush_unsound_page_spills`. -/
theorem flush_crash_partial {d : Database} (h : d.Storable) {ps done : List Patch}
    (hw : d.flushWrites = .ok ps) (hc : Interrupted ps done) {i : Nat} (hi : i < d.io.length)
    (hn : ¬ d.InDirtyPage i) : (applyPatches d.io done)[i]? = d.io[i]? := by
  obtain ⟨ps', h1, -, h3, -, -⟩ := h.writes
  rw [hw] at h1
  injection h1 with h1
  subst h1
  have hsub : ∀ q ∈ done, ∃ r ∈ ps, q.off = r.off ∧ q.bytes.length ≤ r.bytes.length := by
    intro q hq
    obtain ⟨k, m, rfl | ⟨r, hr, rfl⟩⟩ := hc
    · exact ⟨q, List.mem_of_mem_take hq, rfl, Nat.le_refl _⟩
    · rcases List.mem_append.1 hq with hq | hq
      · exact ⟨q, List.mem_of_mem_take hq, rfl, Nat.le_refl _⟩
      · rw [List.mem_singleton] at hq
        subst hq
        exact ⟨r, List.mem_of_getElem? hr, rfl, by simp; omega⟩
  refine applyPatches_of_not_covers hi fun q hq hcov => hn ?_
  obtain ⟨c1, c2⟩ := hcov
  obtain ⟨r, hr, e1, e2⟩ := hsub q hq
  rcases h3 r hr with h | ⟨n, hl, h4, h5⟩
  · exact .inl (by omega)
  · exact .inr ⟨n, hl, by omega, by omega⟩

/-! ## C36: reopening -/

/-- C36: after a flush, opening the file gives the same header, and loading any page that was in memory
gives that page (rows whose offsets were left to the writer come back with the offsets filled in). -/
theorem flush_then_reopen {d : Database} (h : d.Storable) :
    ∃ d' d2, d.flush = .ok d' ∧ Database.openAt d'.io 0 d.dbType = .ok d2 ∧
      d2.content.header = d.content.header ∧
      ∀ (i : PageIndex) (pg : Page), 1 ≤ i.val.toNat →
        i.val.toNat < d.content.header.nextUnusedPage.val.toNat →
        d.content.pages[i.val.toNat - 1]? = some (.loaded pg) →
        ∃ d3 pg', d2.loadPage i = .ok (d3, pg') ∧ pg.ReadBack pg' := by
  obtain ⟨ps, h1, h2, -, h4, h5⟩ := h.writes
  have hcont := h2.contains_applyPatches d.io
  refine ⟨_, { io := applyPatches d.io ps, dbType := d.dbType, content := {
      header := d.content.header
      pages := List.replicate (d.content.header.nextUnusedPage.val.toNat - 1) .notLoaded } },
    Database.flush_eq h1, ?_, rfl, ?_⟩
  · unfold Database.openAt LazyDatabase.read
    have hh : HasAt (applyPatches d.io ps) 0 d.content.header.enc :=
      hcont ⟨0, d.content.header.enc⟩ (h4 _ (List.mem_cons_self ..))
    rw [Rd.bind_of_ok (header_roundtrip d.dbType _ h.header _ _ hh)]
    rfl
  · intro i pg hi hlt hp
    obtain ⟨a, ha1, ha2⟩ := h5 _ pg hp
    rw [Nat.sub_add_cancel hi] at ha1
    obtain ⟨a', hw, -, -, hr⟩ := page_roundtrip (h.pages _ pg hp) (i.val.toNat * d.content.header.pageSize.toNat)
    rw [ha1] at hw
    simp only [Res.ok.injEq, Prod.mk.injEq, true_and] at hw
    subst hw
    obtain ⟨pg', q, hr1, hr2⟩ := hr (applyPatches d.io ps) fun q hq => hcont q (ha2 q hq)
    refine ⟨_, pg', ((Database.loadPage_view _ i hi).1 _ pg').2 ⟨?_, rfl⟩, hr2⟩
    unfold Database.view
    simp only
    rw [List.getElem?_replicate, if_pos (by omega)]
    simp only
    rw [hr1]

/-! ## C37: flushing twice -/

/-- C37: a second flush changes nothing, whatever the database. -/
theorem flush_idempotent {d d' : Database} (h : d.flush = .ok d') : d'.flush = .ok d' := by
  unfold Database.flush at h
  cases hw : d.flushWrites with
  | ok ps =>
    rw [hw] at h
    have h : Res.ok ({ d with io := applyPatches d.io ps } : Database) = .ok d' := h
    injection h with h
    subst h
    have hw' : ({ d with io := applyPatches d.io ps } : Database).flushWrites = .ok ps := hw
    rw [Database.flush_eq hw']
    simp only
    rw [applyPatches_twice]
  | err e => rw [hw] at h; cases h
  | panic => rw [hw] at h; cases h

/-! ## C38: flushing without modification -/

/-- C38: opening a canonical file, loading pages and iterating in any order, then flushing: the file is
as before. -/
theorem flush_without_modification {file : Bytes} {db : DatabaseType} {d d' : Database}
    (ho : Database.openAt file 0 db = .ok d) (hc : CanonicalFile db file d.content.header)
    (hs : d.Session [] d') : d'.flush = .ok d' := by
  unfold Database.openAt LazyDatabase.read at ho
  obtain ⟨⟨c, q⟩, h0, ho⟩ := Res.bind_eq_ok.1 ho
  obtain ⟨hd, p1, h1, h2⟩ := Rd.bind_eq_ok.1 h0
  clear h0
  rw [Rd.pure_eq_ok] at h2
  obtain ⟨rfl, rfl⟩ := h2
  simp only [Res.ok.injEq] at ho
  subst ho
  obtain ⟨-, hb, -⟩ := header_read_write _ _ _ _ _ h1
  obtain ⟨s1, s2, s3, s4⟩ := session_keeps_pages hs
  have s5 : d'.dbType = db := by
    have : ∀ {d d' : Database} {l : List (Nat × Page)}, d.Session l d' → d'.dbType = d.dbType := by
      intro d d' l h
      induction h with
      | done d => rfl
      | load h _ ih => exact ih.trans (load_page_effect h).2.2.2.2.2
      | assign new h _ ih => exact ih.trans (load_page_effect h).2.2.2.2.2
      | iterate calls _ ih => exact ih
    exact this hs
  simp only at s1 s2 s3 s4 hc
  -- every page in memory is what the file holds
  have hpages : ∀ (k : Nat) (pg : Page), d'.content.pages[k]? = some (.loaded pg) →
      ∃ a, pg.write hd.pageSize.toNat (hd.pageSize.toNat + k * hd.pageSize.toNat) =
        .ok ((), hd.pageSize.toNat + k * hd.pageSize.toNat + hd.pageSize.toNat, a) ∧ Contains file a := by
    intro k pg hk
    have hv : d'.view (k + 1) = .ok pg := by
      unfold Database.view
      rw [Nat.add_sub_cancel, hk]
    rw [s1 (k + 1) (by omega)] at hv
    unfold Database.view at hv
    simp only [lastAssigned, List.filter_nil, List.getLast?_nil, Option.map_none] at hv
    rw [List.getElem?_replicate] at hv
    have hlt : k < hd.nextUnusedPage.val.toNat - 1 := by
      rw [← List.length_replicate (n := hd.nextUnusedPage.val.toNat - 1) (a := LazyPage.notLoaded), ← s4]
      exact (List.getElem?_eq_some_iff.1 hk).1
    rw [if_pos (by omega)] at hv
    simp only at hv
    cases hr : Page.read hd.pageSize.toNat db file ((k + 1) * hd.pageSize.toNat) with
    | ok x =>
      rw [hr] at hv
      simp only [Res.ok.injEq] at hv
      subst hv
      obtain ⟨a, ha1, ha2⟩ := page_rewrite_contained hr (hc.pages (k + 1) x.1 x.2 (by omega) (by omega) hr)
      refine ⟨a, ?_, ha2⟩
      rw [show hd.pageSize.toNat + k * hd.pageSize.toNat = (k + 1) * hd.pageSize.toNat by
        rw [Nat.add_mul]; omega]
      exact ha1
    | err e => rw [hr] at hv; cases hv
    | panic => rw [hr] at hv; cases hv
  obtain ⟨ps, hps⟩ := PagesWritten.exists (size := hd.pageSize.toNat) hd.pageSize.toNat fun k pg hk => by
    obtain ⟨a, ha, -⟩ := hpages k pg hk
    exact ⟨a, ha⟩
  have hcont : Contains file ps := fun q hq => by
    obtain ⟨k, pg, a, h1, h2, h3⟩ := hps.mem hq
    obtain ⟨a', h4, h5⟩ := hpages k pg h1
    rw [h2] at h4
    simp only [Res.ok.injEq, Prod.mk.injEq, true_and] at h4
    subst h4
    exact h5 q h3
  have hw := Database.flushWrites_of (d := d') (ps := ps) (by rw [s3]; exact hc.headerFits)
    (by rw [s3]; exact hps)
  rw [Database.flush_eq hw, s2, applyPatches_of_contains]
  · rw [← s2]
  · rw [Contains.append_iff]
    refine ⟨?_, hcont⟩
    unfold Database.headerPatches
    rw [s3, Contains.cons_iff, Contains.cons_iff]
    refine ⟨hb, fun i hi => ?_, Contains.nil⟩
    rw [List.length_replicate, hd.enc_length] at hi
    simp only
    rw [List.getElem?_replicate, hd.enc_length, if_pos hi]
    exact hc.padding _ (by omega) (by omega)

/-! ## Examples -/

/-- C35 to C39: the example database with pages 1 and 2 in memory. -/
def exampleLoaded : Database :=
  ((exampleDb .genres 1 3).setPage 0 (exampleDbPage 1)).setPage 1 (exampleDbPage 2)

/-- The row on page 2 of the example. -/
def exampleGenre : Row := .plain (.genre { id := 7, name := .short [0x41] })

theorem exampleGenre_write (p : Nat) :
    exampleGenre.write p = .ok ((), p + 6, [⟨p, [7, 0, 0, 0, 5, 0x41]⟩]) := by
  have : Genre.enc { id := 7, name := .short [0x41] } = .ok [7, 0, 0, 0, 5, 0x41] := by decide +kernel
  exact Wr.emitRes_ok this p

theorem exampleGenre_extent : exampleGenre.Extent 6 := by
  intro p p' ps h
  rw [exampleGenre_write] at h
  simp only [Res.ok.injEq, Prod.mk.injEq, true_and] at h
  obtain ⟨rfl, rfl⟩ := h
  intro q hq
  rw [List.mem_singleton] at hq
  subst hq
  exact ⟨Nat.le_refl _, Nat.le_refl _⟩

theorem examplePage2_sound : (exampleDbPage 2).Sound 96 .plain := by
  have hc : (exampleDbPage 2).content = .data
      { header := ⟨1, 0, 0, 0⟩, rowGroups := [⟨List.replicate 16 0, 1, 0⟩], rows := [(0, exampleGenre)] } := by
    decide +kernel
  refine ⟨⟨1, by decide +kernel⟩, ?_, fun c h => ?_, fun c h => ?_⟩
  · rw [hc]
    constructor
    · intro h
      exact absurd h (by decide +kernel)
    · rintro ⟨c, h⟩
      cases h
  · rw [hc] at h
    injection h with h
    subst h
    refine ⟨⟨by decide +kernel, ?_, ?_, ?_, by decide +kernel⟩, ?_, ?_, ?_, ?_⟩
    · intro g hg
      simp only [List.mem_singleton] at hg
      subst hg
      rfl
    · exact List.pairwise_singleton _ _
    · intro o
      rw [show DataPageContent.present _ = [0] by decide +kernel]
      simp
    · intro x hx
      simp only [List.mem_singleton] at hx
      subst hx
      refine ⟨⟨?_, trivial, trivial⟩, rfl, trivial⟩
      intro v hv
      simp only [exampleGenre, Row.strings, Genre.strings, List.mem_singleton] at hv
      subst hv
      show [0x41].length ≤ 126
      decide
    · exact List.pairwise_singleton _ _
    · intro x hx
      simp only [List.mem_singleton] at hx
      subst hx
      intro p p' ps h
      rw [exampleGenre_write] at h
      simp only [Res.ok.injEq, Prod.mk.injEq, true_and] at h
      obtain ⟨rfl, rfl⟩ := h
      exact Compatible.singleton _
    · refine ⟨6, ?_, by decide, ?_⟩
      · intro k g hk
        cases k with
        | zero =>
          simp only [List.getElem?_cons_zero, Option.some.injEq] at hk
          subst hk
          decide +kernel
        | succ k => simp at hk
      · intro x hx
        simp only [List.mem_singleton] at hx
        subst hx
        exact ⟨6, exampleGenre_extent, by decide⟩
  · rw [hc] at h
    cases h

theorem examplePage1_sound : (exampleDbPage 1).Sound 96 .plain := by
  have hc : (exampleDbPage 1).content = .index
      { header := ⟨0x1fff, 0x1fff, 0, ⟨1⟩, ⟨2⟩, 0, 0x1fff⟩, entries := [] } := by decide +kernel
  refine ⟨⟨1, by decide +kernel⟩, ?_, fun c h => ?_, fun c h => ?_⟩
  · rw [hc]
    exact ⟨fun _ => ⟨_, rfl⟩, fun _ => by decide +kernel⟩
  · rw [hc] at h
    cases h
  · rw [hc] at h
    injection h with h
    subst h
    exact ⟨⟨rfl, by decide⟩, by decide⟩

/-- C35 to C37, C39: the hypotheses are met by the example. -/
theorem exampleLoaded_storable : exampleLoaded.Storable := by
  refine ⟨⟨rfl, ?_⟩, by decide +kernel, ?_⟩
  · intro t ht
    have ht : t ∈ [_] := ht
    rw [List.mem_singleton] at ht
    subst ht
    exact ⟨1, by decide +kernel⟩
  · intro k pg hk
    have hp : exampleLoaded.content.pages =
      [.loaded (exampleDbPage 1), .loaded (exampleDbPage 2), .notLoaded] := rfl
    rw [hp] at hk
    match k, hk with
    | 0, hk =>
      simp only [List.getElem?_cons_zero, Option.some.injEq, LazyPage.loaded.injEq] at hk
      subst hk
      exact examplePage1_sound
    | 1, hk =>
      simp only [List.getElem?_cons_succ, List.getElem?_cons_zero, Option.some.injEq, LazyPage.loaded.injEq] at hk
      subst hk
      exact examplePage2_sound
    | 2, hk => simp at hk
    | k + 3, hk => simp at hk

/-- C35: page 3 of the example is not in memory. -/
example : ¬ exampleLoaded.InDirtyPage 300 := by
  rintro (h | ⟨n, ⟨-, pg, h1⟩, h2, h3⟩)
  · exact absurd h (by decide +kernel)
  · have hs : exampleLoaded.content.header.pageSize.toNat = 96 := rfl
    rw [hs] at h2 h3
    have : n = 3 := by omega
    subst this
    rw [show exampleLoaded.content.pages[3 - 1]? = some .notLoaded by decide +kernel] at h1
    cases h1

/-- C38: the example file is canonical. -/
theorem exampleFile_canonical : CanonicalFile .plain (exampleFile .genres 1 3) (exampleHeader .genres 1 3) := by
  have hlen : (exampleFile .genres 1 3).length = 384 := by decide +kernel
  refine ⟨by decide +kernel, ?_, ?_⟩
  · intro i h1 h2
    have key : ∀ i : Fin 96, 44 ≤ i.val → (exampleFile .genres 1 3)[i.val]? = some 0 := by decide +kernel
    exact key ⟨i, h2⟩ h1
  · intro n pg q hn _ hr
    have hs : (exampleHeader .genres 1 3).pageSize.toNat = 96 := rfl
    rw [hs] at hr ⊢
    have hb := (Page.read_eq_ok hr).2.1.bound (by intro h; have := congrArg List.length h; simp at this)
    rw [PageHeader.enc_length, hlen] at hb
    have h3 : n ≤ 3 := by omega
    have page : ∀ m, 1 ≤ m → m ≤ 3 → ∃ q, Page.read 96 .plain (exampleFile .genres 1 3) (m * 96) =
        .ok (exampleDbPage m, q) := by
      intro m h1 h2
      match m with
      | 1 => exact ⟨156, by decide +kernel⟩
      | 2 => exact ⟨288, by decide +kernel⟩
      | 3 => exact ⟨384, by decide +kernel⟩
    obtain ⟨q', hq⟩ := page n hn h3
    rw [hr] at hq
    simp only [Res.ok.injEq, Prod.mk.injEq] at hq
    obtain ⟨rfl, -⟩ := hq
    clear hr
    have short : ∀ m, (∃ v, (exampleDbPage m).stringsAt (m * 96) = [(m * 96 + 44, .short v)]) →
        ∀ x ∈ (exampleDbPage m).stringsAt (m * 96), x.2.ExactAt (exampleFile .genres 1 3) x.1 := by
      rintro m ⟨v, h⟩ x hx
      rw [h, List.mem_singleton] at hx
      subst hx
      trivial
    match n, hn, h3 with
    | 1, _, _ =>
      refine ⟨?_, ?_⟩
      · intro x hx
        rw [show (exampleDbPage 1).stringsAt (1 * 96) = [] by decide +kernel] at hx
        cases hx
      · unfold Page.Padded
        rw [show (exampleDbPage 1).content = .index
          { header := ⟨0x1fff, 0x1fff, 0, ⟨1⟩, ⟨2⟩, 0, 0x1fff⟩, entries := [] } by decide +kernel]
        refine ⟨by decide, by decide, ?_, ?_⟩
        · intro i _ hi
          have key : ∀ (i j : Fin 4), (exampleFile .genres 1 3)[156 + 4 * i.val + j.val]? =
              (encU32 0x1ffffff8)[j.val]? := by decide +kernel
          refine U32At.of_hasAt (v := 0x1ffffff8) fun j hj => ?_
          exact key ⟨i, by omega⟩ ⟨j, by simpa using hj⟩
        · intro i hi
          have key : ∀ i : Fin 20, (exampleFile .genres 1 3)[172 + i.val]? = some 0 := by decide +kernel
          exact key ⟨i, hi⟩
    | 2, _, _ =>
      refine ⟨short 2 ⟨[0x41], by decide +kernel⟩, ?_⟩
      unfold Page.Padded
      rw [show (exampleDbPage 2).content = .data
        { header := ⟨1, 0, 0, 0⟩, rowGroups := [⟨List.replicate 16 0, 1, 0⟩], rows := [(0, exampleGenre)] } by
        decide +kernel]
      trivial
    | 3, _, _ =>
      refine ⟨short 3 ⟨[0x41], by decide +kernel⟩, ?_⟩
      unfold Page.Padded
      rw [show (exampleDbPage 3).content = .data
        { header := ⟨1, 0, 0, 0⟩, rowGroups := [⟨List.replicate 16 0, 1, 0⟩],
          rows := [(0, .plain (.genre { id := 8, name := .short [0x41] }))] } by decide +kernel]
      trivial

/-- C38: so loading its pages and flushing leaves it as it is. -/
example {d' : Database} (hs : (exampleDb .genres 1 3).Session [] d') : d'.flush = .ok d' :=
  flush_without_modification exampleDb_open exampleFile_canonical hs

/-- A data page of 96 bytes whose only row starts 64 bytes into the row heap: 8 bytes into the next
page. -/
def spillingPage (index next : UInt32) : Bytes :=
  (Page.fresh 46 ⟨index⟩ ⟨next⟩ (.plain .genres) ⟨1, 0, 0, 0⟩).header.enc.take 24 ++ PackedRowCounts.enc ⟨1, 1⟩ ++
    [0x24, 0, 0, 8, 0] ++ [1, 0, 0, 0, 0, 0, 0, 0] ++ List.replicate 50 0 ++ [64, 0] ++ [1, 0, 0, 0]

/-- A file with such a page. -/
def spillingFile : Bytes :=
  (exampleHeader .genres 2 3).enc ++ List.replicate 52 0 ++ emptyIndexPage 1 2 ++ spillingPage 2 3 ++
    genrePage 3 5 8

/-- The database opened from it. -/
def spillingDb : Database where
  io := spillingFile
  dbType := .plain
  content := { header := exampleHeader .genres 2 3, pages := List.replicate 3 .notLoaded }

/-- The page with the id of its rows changed to 9. -/
def spillingEdit (pg : Page) : Page :=
  { pg with content := match pg.content with
    | .data c => .data { c with rows := c.rows.map fun x => (x.1, match x.2 with
      | .plain (.genre g) => .plain (.genre { g with id := 9 })
      | r => r) }
    | c => c }

/-- C35, C39: for pages that do not fit their bytes the properties are false: in this file page 2 has a row
that starts in page 3.  Loading page 2, changing the id of the row and flushing changes the type of page 3,
which is not loaded. -/
theorem flush_unsound_page_spills :
    Database.openAt spillingFile 0 .plain = .ok spillingDb ∧
    ∃ pg d1 d', spillingDb.loadPage ⟨2⟩ = .ok (d1, pg) ∧
      (d1.setPage 1 (spillingEdit pg)).flush = .ok d' ∧ ¬ d1.IsLoaded 3 ∧
      spillingFile[296]? = some 1 ∧ d'.io[296]? = some 9 := by
  refine ⟨by decide +kernel, ?_⟩
  have h : (match spillingDb.loadPage ⟨2⟩ with
      | .ok (d1, pg) => (match (d1.setPage 1 (spillingEdit pg)).flush with
        | .ok d' => d1.content.pages[2]? == some .notLoaded && d'.io[296]? == some 9
        | _ => false)
      | _ => false) = true := by decide +kernel
  cases h1 : spillingDb.loadPage ⟨2⟩ with
  | ok x =>
    obtain ⟨d1, pg⟩ := x
    rw [h1] at h
    simp only at h
    cases h2 : (d1.setPage 1 (spillingEdit pg)).flush with
    | ok d' =>
      rw [h2] at h
      simp only [Bool.and_eq_true, beq_iff_eq] at h
      refine ⟨pg, d1, d', rfl, h2, ?_, by decide +kernel, h.2⟩
      rintro ⟨-, pg', hp⟩
      rw [h.1] at hp
      cases hp
    | err e => rw [h2] at h; cases h
    | panic => rw [h2] at h; cases h
  | err e => rw [h1] at h; cases h
  | panic => rw [h1] at h; cases h

end Rekordcrate
