import Verif.Props.Edit

/-! # C78: working on a database and storing it -/

namespace Rekordcrate

/-! ## Sessions -/

theorem session_db {d d' : Database} {l : List (Nat × Page)} (h : d.Session l d') : d'.dbType = d.dbType := by
  induction h with
  | done d => rfl
  | @load d d1 d' i pg l h t ih =>
    have hi : 1 ≤ i.val.toNat := by
      apply Nat.pos_of_ne_zero
      intro h0
      rw [Database.loadPage_zero d i h0] at h
      cases h
    obtain ⟨-, rfl⟩ := ((d.loadPage_view i hi).1 d1 pg).1 h
    exact ih
  | @assign d d1 d' i pg l new h t ih =>
    have hi : 1 ≤ i.val.toNat := by
      apply Nat.pos_of_ne_zero
      intro h0
      rw [Database.loadPage_zero d i h0] at h
      cases h
    obtain ⟨-, rfl⟩ := ((d.loadPage_view i hi).1 d1 pg).1 h
    exact ih
  | iterate calls _ ih => exact ih

/-- What is in memory stays in memory. -/
theorem session_loaded {d d' : Database} {l : List (Nat × Page)} (h : d.Session l d') {m : Nat}
    (hm : d'.content.pages[m]? = some .notLoaded) : d.content.pages[m]? = some .notLoaded := by
  have set_back : ∀ {ps : List LazyPage} {slot : Nat} {pg : Page} {m : Nat},
      (ps.set slot (.loaded pg))[m]? = some .notLoaded → ps[m]? = some .notLoaded := by
    intro ps slot pg m hm
    rw [List.getElem?_set] at hm
    split at hm
    · split at hm <;> cases hm
    · exact hm
  induction h with
  | done d => exact hm
  | @load d d1 d' i pg l h t ih =>
    have hi : 1 ≤ i.val.toNat := by
      apply Nat.pos_of_ne_zero
      intro h0
      rw [Database.loadPage_zero d i h0] at h
      cases h
    obtain ⟨-, rfl⟩ := ((d.loadPage_view i hi).1 d1 pg).1 h
    exact set_back (ih hm)
  | @assign d d1 d' i pg l new h t ih =>
    have hi : 1 ≤ i.val.toNat := by
      apply Nat.pos_of_ne_zero
      intro h0
      rw [Database.loadPage_zero d i h0] at h
      cases h
    obtain ⟨-, rfl⟩ := ((d.loadPage_view i hi).1 d1 pg).1 h
    exact set_back (set_back (ih hm))
  | @iterate d d' t l calls _ ih =>
    have h1 := ih hm
    have : ∀ (k : Nat) (it : PageIterator), it.Ok → (PageIterator.afterCalls k it).pages[m]? = some .notLoaded →
        it.pages[m]? = some .notLoaded := by
      intro k
      induction k with
      | zero => intro it _ h; exact h
      | succ k ihk =>
        intro it hk h
        obtain ⟨a1, -, -, -, -, a6⟩ := PageIterator.next_pages hk
        have h2 := ihk _ a1 h
        rcases a6 with a6 | ⟨slot, pg, i, -, -, -, a6⟩
        · rwa [a6] at h2
        · rw [a6] at h2
          exact set_back h2
    exact this calls _ (d.pagesOf_ok t) h1

/-- C78: after any session in which the last page assigned to every place can be stored, an intact database is
intact. -/
theorem session_intact {d d' : Database} {l : List (Nat × Page)} (h : d.Session l d') (hi : d.Intact)
    (hs : ∀ n pg, lastAssigned l n = some pg → pg.Sound d.content.header.pageSize.toNat d.dbType) : d'.Intact := by
  obtain ⟨h1, h2, h3, h4⟩ := session_keeps_pages h
  have h5 := session_db h
  refine ⟨⟨by rw [h3, h5]; exact hi.storable.header, by rw [h3]; exact hi.storable.headerFits, ?_⟩,
    by rw [h4, h3]; exact hi.length, ?_⟩
  · intro m pg hm
    have hv := h1 (m + 1) (by omega)
    rw [Database.view_loaded (d := d') (n := m + 1) hm] at hv
    rw [h3, h5]
    cases ha : lastAssigned l (m + 1) with
    | some pg' =>
      rw [ha] at hv
      injection hv with hv
      rw [hv]
      exact hs _ _ ha
    | none =>
      rw [ha] at hv
      exact hi.sound (by omega) hv.symm
  · intro n pg q hn hl hr
    rw [h3, h5, h2] at hr ⊢
    exact hi.file n pg q hn (session_loaded h hl) hr

/-- C78: load, iterate and assign in any order, flush, open the file again: the header is the same, and every page
is the last one assigned to its place, or else what it was. -/
theorem session_reopen {d d' : Database} {l : List (Nat × Page)} (h : d.Session l d') (hi : d.Intact)
    (hs : ∀ n pg, lastAssigned l n = some pg → pg.Sound d.content.header.pageSize.toNat d.dbType) :
    ∃ d1 d2, d'.flush = .ok d1 ∧ Database.openAt d1.io 0 d.dbType = .ok d2 ∧
      d2.content.header = d.content.header ∧
      (∀ n pg, 1 ≤ n → lastAssigned l n = some pg → ∃ pg', d2.view n = .ok pg' ∧ pg.ReadBack pg') ∧
      ∀ n pg, 1 ≤ n → lastAssigned l n = none → d.view n = .ok pg → ∃ pg', d2.view n = .ok pg' ∧ pg.ReadBack pg' := by
  obtain ⟨h1, -, h3, -⟩ := session_keeps_pages h
  obtain ⟨d1, d2, g1, g2, g3, g4⟩ := intact_reopen (session_intact h hi hs)
  rw [session_db h] at g2
  refine ⟨d1, d2, g1, g2, g3.trans h3, fun n pg hn ha => g4 n pg hn ?_, fun n pg hn ha hv => g4 n pg hn ?_⟩
  · rw [h1 n hn, ha]
  · rw [h1 n hn, ha]; exact hv

/-! ## Inserting rows -/

/-- The page `pg'` is the page `pg` after the allocations and insertions `as`, all of adequate size; the page had
its rows packed below the used size. -/
structure PageGrown (pageSize : Nat) (pg : Page) (as : List Allocation) (pg' : Page) : Prop where
  ready : ∃ cap c, 40 + cap = pageSize ∧ pg.WellFormed cap c ∧ RowsPacked pg.header.usedSize.toNat c.rows
  history : Page.History pg as pg'
  adequate : ∀ a ∈ as, a.Adequate pg.header.pageType

theorem PageGrown.sound {pageSize : Nat} {db : DatabaseType} {pg pg' : Page} {as : List Allocation}
    (h : PageGrown pageSize pg as pg') (hs : pg.Sound pageSize db) :
    pg'.Sound pageSize db ∧ pg'.header.nextPage = pg.header.nextPage ∧ pg'.header.pageType = pg.header.pageType ∧
      ∃ c c', pg.content = .data c ∧ pg'.content = .data c' ∧ c'.rows = c.rows ++ insertedRows as := by
  obtain ⟨cap, c, h1, h2, h3⟩ := h.ready
  have hflag : pg.header.pageFlags.isIndexPage = false := by
    have := hs.flag
    rw [h2.content] at this
    simpa using this
  obtain ⟨g1, ⟨c', g2, -, g3, -⟩, u, f, r, g4⟩ := allocated_page_sound (db := db) h1 h2 hs.type hflag
    (hs.data c h2.content).2.1 h3 h.history h.adequate
  exact ⟨g1, by rw [g4], by rw [g4], c, c', h2.content, g2, g3⟩

/-- The rows of the pages, with the rows inserted into page `n` behind its own. -/
def rowsWith (ins : Nat → List Allocation) (l : List (Nat × Page)) : List (Nat × UInt16 × Row) :=
  l.flatMap fun x => rowsOf [x] ++ (insertedRows (ins x.1)).map fun y => (x.1, y)

/-- C78: load pages of a table of an intact database and insert rows with `allocate_row`, in any order and mixed
with iterations; flush, open the file again.  Then `iter_rows` gives exactly the old and the inserted rows of each
page, page by page, at their offsets. -/
theorem inserted_rows_survive_reopen {α : Type} [RowVariant α] (hα : RowVariant.Lawful α) {d d' : Database}
    (hi : d.Intact) {k : Nat} {t : Table} (ht : d.content.header.findTable (RowVariant.pageType α) = some (k, t))
    {l : List (Nat × Page)} (hc : d.Chain t.lastPage.val.toNat t.firstPage.val.toNat l)
    (hp : ∀ x ∈ l, x.2.header.pageType = RowVariant.pageType α)
    {assigned : List (Nat × Page)} (h : d.Session assigned d') (ins : Nat → List Allocation)
    (hnew : ∀ n pg', lastAssigned assigned n = some pg' →
      ∃ pg, (n, pg) ∈ l ∧ PageGrown d.content.header.pageSize.toNat pg (ins n) pg')
    (hold : ∀ n, lastAssigned assigned n = none → ins n = []) :
    ∃ d1 d2 it rows it', d'.flush = .ok d1 ∧ Database.openAt d1.io 0 d.dbType = .ok d2 ∧
      d2.iterRows α = .ok it ∧ it.Runs α rows it' ∧ Pointwise RowStored (rowsWith ins l) rows := by
  obtain ⟨v1, -, v3, -⟩ := session_keeps_pages h
  have hsound : ∀ x ∈ l, x.2.Sound d.content.header.pageSize.toNat d.dbType := fun x hx =>
    hi.sound (hc.view x hx).2.1 (hc.view x hx).2.2
  have hi' : d'.Intact := session_intact h hi fun n pg' ha => by
    obtain ⟨pg, hm, hg⟩ := hnew n pg' ha
    exact (hg.sound (hsound _ hm)).1
  obtain ⟨l', h1, h2⟩ := hc.transport_link (d' := d')
    (R := fun n pg pg' => pg'.header.nextPage = pg.header.nextPage ∧ pg'.header.pageType = pg.header.pageType ∧
      rowsOf [(n, pg')] = rowsOf [(n, pg)] ++ (insertedRows (ins n)).map fun y => (n, y))
    (fun _ _ _ h => h.1) fun x hx => by
      obtain ⟨-, hn, hv⟩ := hc.view x hx
      cases ha : lastAssigned assigned x.1 with
      | none =>
        refine ⟨x.2, ?_, rfl, rfl, ?_⟩
        · rw [v1 _ hn, ha]; exact hv
        · rw [hold _ ha]; simp [insertedRows]
      | some pg' =>
        obtain ⟨pg, hm, hg⟩ := hnew _ _ ha
        have he : pg = x.2 := by
          have := (hc.view _ hm).2.2
          simp only at this
          rw [hv] at this
          injection this with this
          exact this.symm
        subst he
        obtain ⟨-, g2, g3, c, c', g4, g5, g6⟩ := hg.sound (hsound _ hx)
        refine ⟨pg', ?_, g2, g3, ?_⟩
        · rw [v1 _ hn, ha]
        · unfold rowsOf
          simp only [List.flatMap_cons, List.flatMap_nil, List.append_nil, g4, g5, g6, List.map_append]
  have hrows : rowsOf l' = rowsWith ins l := by
    clear h1 hc hp hnew hsound
    induction h2 with
    | nil => rfl
    | @cons x y l l' hxy _ ih =>
      obtain ⟨e, -, -, e2⟩ := hxy
      have e3 : rowsOf (y :: l') = rowsOf [y] ++ rowsOf l' := by simp [rowsOf]
      rw [e3, ih]
      obtain ⟨n, pg⟩ := x
      obtain ⟨n', pg'⟩ := y
      simp only at e e2
      subst e
      rw [e2]
      simp [rowsWith]
  have hp' : ∀ y ∈ l', y.2.header.pageType = RowVariant.pageType α := fun y hy => by
    obtain ⟨x, hx, -, -, hxy, -⟩ := h2.mem_right hy
    rw [hxy]
    exact hp x hx
  obtain ⟨d1, d2, it, rows, it', g1, g2, g3, g4, g5⟩ := rows_survive_reopen hα hi' (by rw [v3]; exact ht) h1 hp'
  rw [session_db h] at g2
  rw [hrows] at g5
  exact ⟨d1, d2, it, rows, it', g1, g2, g3, g4, g5⟩

/-! ## Concrete case -/

/-- A database with an empty table of playlist entries, its page in memory. -/
def newDb : Database where
  io := []
  dbType := .plain
  content :=
    { header :=
        { pageSize := 512
          numTables := 1
          nextUnusedPage := ⟨2⟩
          unknown := 5
          sequence := 1
          tables := [⟨.plain .playlistEntries, 0, ⟨1⟩, ⟨1⟩⟩] }
      pages := [.loaded (Page.fresh 472 ⟨1⟩ ⟨2⟩ (.plain .playlistEntries) ⟨1, 0, 0, 0⟩)] }

theorem newDb_intact : newDb.Intact := by
  refine ⟨⟨⟨rfl, ?_⟩, by decide, ?_⟩, rfl, ?_⟩
  · intro t (ht : t ∈ [(⟨.plain .playlistEntries, 0, ⟨1⟩, ⟨1⟩⟩ : Table)])
    rw [List.mem_singleton] at ht
    subst ht
    exact ⟨8, rfl⟩
  · intro n pg h
    cases n with
    | succ n => simp [newDb] at h
    | zero =>
      simp only [newDb, List.getElem?_cons_zero, Option.some.injEq, LazyPage.loaded.injEq] at h
      subst h
      exact (allocated_page_sound (cap := 472) rfl (fresh_page_well_formed 472 ⟨1⟩ ⟨2⟩ _ _) ⟨8, rfl⟩ rfl
        (fun x hx => by cases hx) ⟨List.Pairwise.nil, fun x hx => (by cases hx), fun x hx => (by cases hx)⟩
        (Page.History.done _) (fun a ha => by cases ha)).1
  · intro n pg q hn hl
    match n, hn with
    | 1, _ => cases hl
    | n + 2, _ => simp [newDb] at hl

/-- Two entries inserted into the page. -/
theorem newDb_history : ∃ pg', Page.History (Page.fresh 472 ⟨1⟩ ⟨2⟩ (.plain .playlistEntries) ⟨1, 0, 0, 0⟩)
    [⟨0, 12, some (.plain (.playlistEntry ⟨1, 7, 2⟩))⟩, ⟨12, 12, some (.plain (.playlistEntry ⟨2, 9, 2⟩))⟩] pg' := by
  obtain ⟨pg', o1, o2, h, rfl, rfl⟩ : ∃ pg' o1 o2, Page.History
      (Page.fresh 472 ⟨1⟩ ⟨2⟩ (.plain .playlistEntries) ⟨1, 0, 0, 0⟩)
      [⟨o1, 12, some (.plain (.playlistEntry ⟨1, 7, 2⟩))⟩, ⟨o2, 12, some (.plain (.playlistEntry ⟨2, 9, 2⟩))⟩] pg' ∧
      o1 = 0 ∧ o2 = 12 := by
    refine ⟨_, _, _, Page.History.inserted 12 _ rfl rfl (Page.History.inserted 12 _ rfl rfl (Page.History.done _)), ?_⟩
    decide +kernel
  exact ⟨pg', h⟩

/-- C78: two entries inserted into the empty table of the example are there after opening the file again. -/
example : ∃ (pg' : Page) (d' d1 d2 : Database) (it it' : RowIterator) (rows : List (Nat × UInt16 × PlaylistEntry)),
    newDb.Session [(1, pg')] d' ∧ d'.flush = .ok d1 ∧ Database.openAt d1.io 0 .plain = .ok d2 ∧
    d2.iterRows PlaylistEntry = .ok it ∧ it.Runs PlaylistEntry rows it' ∧
    rows = [(1, 0, ⟨1, 7, 2⟩), (1, 12, ⟨2, 9, 2⟩)] := by
  obtain ⟨pg', hh⟩ : ∃ pg', Page.History (Page.fresh 472 ⟨1⟩ ⟨2⟩ (.plain .playlistEntries) ⟨1, 0, 0, 0⟩)
      [⟨0, 12, some (.plain (.playlistEntry ⟨1, 7, 2⟩))⟩, ⟨12, 12, some (.plain (.playlistEntry ⟨2, 9, 2⟩))⟩] pg' :=
    newDb_history
  have hs : newDb.Session [(1, pg')] (newDb.setPage 0 pg') := .assign (i := ⟨1⟩) pg' rfl (.done _)
  have hd : ∀ n, n ≠ 1 → lastAssigned [(1, pg')] n = none := fun n hn => by
    simp [lastAssigned, Ne.symm hn]
  obtain ⟨-, -, -, -, -, -, -, -, -, -, -, L, -⟩ := row_variants_lawful
  obtain ⟨d1, d2, it, rows, it', h1, h2, h3, h4, h5⟩ := inserted_rows_survive_reopen (α := PlaylistEntry) L
    newDb_intact (k := 0) (t := ⟨.plain .playlistEntries, 0, ⟨1⟩, ⟨1⟩⟩) rfl (.last (by decide) rfl)
    (fun x hx => by rw [List.mem_singleton] at hx; rw [hx]; rfl) hs
    (fun n => if n = 1 then [⟨0, 12, some (.plain (.playlistEntry ⟨1, 7, 2⟩))⟩,
      ⟨12, 12, some (.plain (.playlistEntry ⟨2, 9, 2⟩))⟩] else [])
    (fun n pg1 ha => by
      by_cases hn : n = 1
      · subst hn
        change some pg' = some pg1 at ha
        injection ha with ha
        subst ha
        refine ⟨_, List.mem_singleton.2 rfl, ⟨472, _, rfl, fresh_page_well_formed 472 ⟨1⟩ ⟨2⟩ _ _,
          List.Pairwise.nil, fun x hx => (by cases hx), fun x hx => (by cases hx)⟩, hh, ?_⟩
        intro a ha r hr
        simp only [if_true, List.mem_cons, List.not_mem_nil, or_false] at ha
        rcases ha with rfl | rfl <;>
        · injection hr with hr
          subst hr
          exact ⟨⟨fun v hv => (by simp [Row.strings, PlaylistEntry.strings] at hv), trivial, trivial⟩, rfl, trivial, trivial,
            12, rfl, Nat.le_refl _⟩
      · rw [hd n hn] at ha
        cases ha)
    (fun n ha => by
      by_cases hn : n = 1
      · subst hn
        cases ha
      · rw [if_neg hn])
  refine ⟨pg', _, d1, d2, it, it', rows, hs, h1, h2, h3, h4, ?_⟩
  simp only [rowsWith, rowsOf, Page.fresh, insertedRows, List.flatMap_cons, List.flatMap_nil, List.map_nil,
    List.nil_append, List.append_nil] at h5
  cases h5 with
  | cons e1 h5 =>
    cases h5 with
    | cons e2 h5 =>
      cases h5
      rename_i y1 y2
      obtain ⟨n1, k1, r1⟩ := y1
      obtain ⟨n2, k2, r2⟩ := y2
      obtain ⟨rfl, rfl, q1, rfl, f1⟩ := e1
      obtain ⟨rfl, rfl, q2, rfl, f2⟩ := e2
      injection f1 with f1
      injection f2 with f2
      subst f1 f2
      rfl

end Rekordcrate
