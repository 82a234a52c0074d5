import Verif.Lemmas.RowIter
import Verif.Props.PageIter
import Verif.Props.Page

/-! # C31 to C34: iterating over rows, loading pages -/

namespace Rekordcrate

/-! ## C31 -/

/-- C31: each of the fifteen row types that can be iterated over takes exactly the rows that belong on the
pages of its table. -/
theorem row_variants_lawful :
    RowVariant.Lawful Album ∧ RowVariant.Lawful Artist ∧ RowVariant.Lawful Artwork ∧ RowVariant.Lawful Color ∧
    RowVariant.Lawful Genre ∧ RowVariant.Lawful HistoryPlaylist ∧ RowVariant.Lawful HistoryEntry ∧
    RowVariant.Lawful History ∧ RowVariant.Lawful Key ∧ RowVariant.Lawful Label ∧
    RowVariant.Lawful PlaylistTreeNode ∧ RowVariant.Lawful PlaylistEntry ∧ RowVariant.Lawful ColumnEntry ∧
    RowVariant.Lawful Track ∧ RowVariant.Lawful Menu := by
  refine ⟨?_, ?_, ?_, ?_, ?_, ?_, ?_, ?_, ?_, ?_, ?_, ?_, ?_, ?_, ?_⟩
  all_goals
    intro r
    cases r with
    | plain r => cases r <;> simp [RowVariant.fromRow, RowVariant.pageType, Row.Fits, PlainRow.pageType]
    | ext r => cases r <;> simp [RowVariant.fromRow, RowVariant.pageType, Row.Fits]
    | unknown => simp [RowVariant.fromRow, RowVariant.pageType, Row.Fits]

/-- C31: for a table with a well-formed chain whose rows are of the type of the table, `iter_rows` gives
exactly the rows of the data pages of the chain, in order, with their pages and offsets, and then ends.
Afterwards every page looks the same as before. -/
theorem row_iteration_exact {α : Type} [RowVariant α] (hα : RowVariant.Lawful α) {d : Database} {k : Nat}
    {t : Table} (ht : d.content.header.findTable (RowVariant.pageType α) = some (k, t)) {l : List (Nat × Page)}
    (hc : d.Chain t.lastPage.val.toNat t.firstPage.val.toNat l)
    (hf : ∀ x ∈ rowsOf l, x.2.2.Fits (RowVariant.pageType α)) :
    ∃ it rows it', d.iterRows α = .ok it ∧ it.Runs α rows it' ∧ Pointwise RowTyped (rowsOf l) rows ∧
      ∀ n, 1 ≤ n → (d.after it'.pages).view n = d.view n := by
  obtain ⟨it', h1, -, h3⟩ := page_iteration_follows_chain hc
  obtain ⟨rows, r', g1, g2, rfl⟩ := RowIterator.of_pages h1 (fun x hx => (hα _).2 (hf x hx)) 0
  refine ⟨{ pages := d.pagesOf t, slot := 0, rest := [] }, rows, r', ?_, g2, g1, h3⟩
  unfold Database.iterRows Database.iterPages
  rw [ht]
  rfl

/-- C31: the rows of a chain in a database straight from a file are of the type of their pages. -/
theorem chain_rows_fit {d : Database} {first last : Nat} {l : List (Nat × Page)} (hc : d.Chain last first l)
    (hn : ∀ x ∈ d.content.pages, x = .notLoaded) {pt : PageType} (hp : ∀ x ∈ l, x.2.header.pageType = pt) :
    ∀ x ∈ rowsOf l, x.2.2.Fits pt := by
  have hview : ∀ x ∈ l, d.view x.1 = .ok x.2 := by
    clear hp
    induction hc with
    | last _ h =>
      intro x hx
      simp only [List.mem_singleton] at hx
      subst hx
      exact h
    | link _ h _ _ _ ih =>
      intro x hx
      rcases List.mem_cons.1 hx with rfl | hx
      · exact h
      · exact ih x hx
  intro x hx
  unfold rowsOf at hx
  rw [List.mem_flatMap] at hx
  obtain ⟨y, hy, hx⟩ := hx
  cases hcont : y.2.content with
  | index c => rw [hcont] at hx; cases hx
  | data c =>
    rw [hcont] at hx
    simp only [List.mem_map] at hx
    obtain ⟨z, hz, rfl⟩ := hx
    have hv := hview y hy
    unfold Database.view at hv
    split at hv
    · rename_i pg hl
      have := hn _ (List.mem_of_getElem? hl)
      cases this
    · split at hv
      · rename_i hr
        injection hv with hv
        subst hv
        have := Page.read_rows_fit hr hcont z hz
        rwa [hp y hy] at this
      · cases hv
      · cases hv
    · cases hv

/-- C31: for a database straight from a file it is enough that the pages of the chain have the type of the
table. -/
theorem row_iteration_of_file {α : Type} [RowVariant α] (hα : RowVariant.Lawful α) {d : Database} {k : Nat}
    {t : Table} (ht : d.content.header.findTable (RowVariant.pageType α) = some (k, t)) {l : List (Nat × Page)}
    (hc : d.Chain t.lastPage.val.toNat t.firstPage.val.toNat l)
    (hn : ∀ x ∈ d.content.pages, x = .notLoaded)
    (hp : ∀ x ∈ l, x.2.header.pageType = RowVariant.pageType α) :
    ∃ it rows it', d.iterRows α = .ok it ∧ it.Runs α rows it' ∧ Pointwise RowTyped (rowsOf l) rows ∧
      ∀ n, 1 ≤ n → (d.after it'.pages).view n = d.view n :=
  row_iteration_exact hα ht hc (chain_rows_fit hc hn hp)

/-! ## C32 -/

/-- C32, as far as it is true: a call of `next` panics only if some page of the database makes the page
parser panic or has a row of another type than the table.  Missing: the code panics in these cases too
instead of returning an error. -/
theorem row_iteration_panic_partial {α : Type} [RowVariant α] {d : Database} {it : RowIterator}
    (hi : d.iterRows α = .ok it) (m : Nat) (h : .panic ∈ it.calls α m) : RowPanicCause α d := by
  have ho : it.Over d := by
    unfold Database.iterRows Database.iterPages at hi
    cases ht : d.content.header.findTable (RowVariant.pageType α) with
    | none => rw [ht] at hi; cases hi
    | some x =>
      rw [ht] at hi
      have hi : Res.ok _ = Res.ok it := hi
      injection hi with hi
      subst hi
      exact ⟨d.pagesOf_ok _, rfl, rfl, rfl, fun _ _ => rfl, fun x hx => by cases hx⟩
  clear hi
  induction m generalizing it with
  | zero => cases h
  | succ m ih =>
    obtain ⟨h1, h2⟩ := ho.next (α := α)
    rcases List.mem_cons.1 h with h | h
    · exact h2 h.symm
    · exact ih h h1

/-- C32: asking for the rows never panics. -/
theorem iter_rows_no_panic {α : Type} [RowVariant α] (d : Database) : d.iterRows α ≠ .panic := by
  unfold Database.iterRows Database.iterPages
  cases d.content.header.findTable (RowVariant.pageType α) with
  | none => intro h; cases h
  | some x => intro h; cases h

/-! ### An example file -/

/-- A data page of 96 bytes with one genre. -/
def genrePage (index next : UInt32) (id : UInt8) : Bytes :=
  (Page.fresh 46 ⟨index⟩ ⟨next⟩ (.plain .genres) ⟨1, 0, 0, 0⟩).header.enc.take 24 ++ PackedRowCounts.enc ⟨1, 1⟩ ++
    [0x24, 0, 0, 8, 0] ++ [1, 0, 0, 0, 0, 0, 0, 0] ++ [id, 0, 0, 0, 5, 0x41] ++ List.replicate 14 0 ++
    List.replicate 32 0 ++ [1, 0, 0, 0]

/-- An index page of 96 bytes without entries. -/
def emptyIndexPage (index next : UInt32) : Bytes :=
  (Page.fresh 46 ⟨index⟩ ⟨next⟩ (.plain .genres) ⟨1, 0, 0, 0⟩).header.enc.take 24 ++ PackedRowCounts.enc ⟨0, 0⟩ ++
    [0x64, 0, 0, 0, 0] ++ IndexPageHeader.enc ⟨0x1fff, 0x1fff, 0, ⟨index⟩, ⟨next⟩, 0, 0x1fff⟩ ++
    (List.replicate 4 [0xf8, 0xff, 0xff, 0x1f]).flatten ++ List.replicate 20 0

/-- The header of the example: one table, with pages 1 to 3. -/
def exampleHeader (t : PlainPageType) (first last : UInt32) : Header where
  pageSize := 96
  numTables := 1
  nextUnusedPage := ⟨4⟩
  unknown := 5
  sequence := 1
  tables := [{ pageType := .plain t, emptyCandidate := 0, firstPage := ⟨first⟩, lastPage := ⟨last⟩ }]

/-- A file with an index page and two data pages, for a table of the given type. -/
def exampleFile (t : PlainPageType) (first last : UInt32) : Bytes :=
  (exampleHeader t first last).enc ++ List.replicate 52 0 ++ emptyIndexPage 1 2 ++ genrePage 2 3 7 ++
    genrePage 3 4 8

/-- The database opened from the example file. -/
def exampleDb (t : PlainPageType) (first last : UInt32) : Database where
  io := exampleFile t first last
  dbType := .plain
  content := { header := exampleHeader t first last, pages := List.replicate 3 .notLoaded }

/-- The pages of the example database. -/
def exampleDbPage (n : Nat) : Page :=
  match (exampleDb .genres 1 3).view n with
  | .ok pg => pg
  | _ => Page.fresh 0 ⟨0⟩ ⟨0⟩ (.plain .genres) ⟨0, 0, 0, 0⟩

theorem exampleDb_open : Database.openAt (exampleFile .genres 1 3) 0 .plain = .ok (exampleDb .genres 1 3) := by
  decide +kernel

/-- C29: the chain of the example. -/
theorem exampleDb_chain :
    (exampleDb .genres 1 3).Chain 3 1 [(1, exampleDbPage 1), (2, exampleDbPage 2), (3, exampleDbPage 3)] := by
  refine .link (by decide) (by decide +kernel) (by decide) (by decide +kernel) ?_
  rw [show (exampleDbPage 1).header.nextPage.val.toNat = 2 by decide +kernel]
  refine .link (by decide) (by decide +kernel) (by decide) (by decide +kernel) ?_
  rw [show (exampleDbPage 2).header.nextPage.val.toNat = 3 by decide +kernel]
  exact .last (by decide) (by decide +kernel)

/-- C31: the two genres of the example. -/
example : (rowsOf [(1, exampleDbPage 1), (2, exampleDbPage 2), (3, exampleDbPage 3)]).map
      (fun x => (x.1, x.2.1, match x.2.2 with | .plain (.genre g) => some g.id | _ => none)) =
    [(2, 0, some 7), (3, 0, some 8)] := by decide +kernel

/-- C31: the example meets the hypotheses. -/
example : ∃ it rows it', (exampleDb .genres 1 3).iterRows Genre = .ok it ∧ it.Runs Genre rows it' ∧
    Pointwise RowTyped (rowsOf [(1, exampleDbPage 1), (2, exampleDbPage 2), (3, exampleDbPage 3)]) rows := by
  obtain ⟨it, rows, it', h1, h2, h3, -⟩ := row_iteration_of_file (α := Genre) (k := 0)
    row_variants_lawful.2.2.2.2.1
    (t := { pageType := .plain .genres, emptyCandidate := 0, firstPage := ⟨1⟩, lastPage := ⟨3⟩ })
    (d := exampleDb .genres 1 3) (by decide +kernel) exampleDb_chain (by decide +kernel) (by decide +kernel)
  exact ⟨it, rows, it', h1, h2, h3⟩

/-- C28, C30: a chain that goes back to an earlier page: the third call fails with an error, and so does
the fourth. -/
example : ((exampleDb .genres 2 9).pagesOf ⟨.plain .genres, 0, ⟨2⟩, ⟨9⟩⟩).calls 4 =
    [.ok (some 1), .ok (some 2), .err (.pageNotPresent 4), .err (.pageNotPresent 4)] := by decide +kernel

/-- C32: the full property is false: a table of tracks whose chain leads to a page of genres makes
`iter_rows` panic. -/
theorem row_iteration_panics : ∃ it,
    Database.openAt (exampleFile .tracks 2 3) 0 .plain = .ok (exampleDb .tracks 2 3) ∧
    (exampleDb .tracks 2 3).iterRows Track = .ok it ∧ (it.next Track).1 = .panic := by
  refine ⟨⟨(exampleDb .tracks 2 3).pagesOf ⟨.plain .tracks, 0, ⟨2⟩, ⟨3⟩⟩, 0, []⟩, by decide +kernel,
    by decide +kernel, ?_⟩
  rw [RowIterator.next_nil rfl]
  have h : ((exampleDb .tracks 2 3).pagesOf ⟨.plain .tracks, 0, ⟨2⟩, ⟨3⟩⟩).next.1 = .ok (some 1) := by
    decide +kernel
  cases hn : ((exampleDb .tracks 2 3).pagesOf ⟨.plain .tracks, 0, ⟨2⟩, ⟨3⟩⟩).next with
  | mk r pages =>
    rw [hn] at h
    simp only at h
    subst h
    simp only
    have hrows : ((((exampleDb .tracks 2 3).pagesOf ⟨.plain .tracks, 0, ⟨2⟩, ⟨3⟩⟩).next.2.pages.getD 1
        .notLoaded).rows.map fun x => (RowVariant.fromRow (α := Track) x.2).isNone) = [true] := by
      decide +kernel
    rw [hn] at hrows
    simp only at hrows
    cases hr : (pages.pages.getD 1 .notLoaded).rows with
    | nil => rw [hr] at hrows; cases hrows
    | cons x rest =>
      rw [hr] at hrows
      simp only [List.map_cons, List.cons.injEq, Option.isNone_iff_eq_none] at hrows
      rw [RowIterator.next_cons_none (k := x.1) (r := x.2) (rest := rest) rfl hrows.1]

/-! ## C33 -/

/-- C33: loading a page that is in memory gives that page, whatever the file holds, and changes nothing. -/
theorem load_page_cached {d : Database} {i : PageIndex} {pg : Page} (hi : 1 ≤ i.val.toNat)
    (h : d.content.pages[i.val.toNat - 1]? = some (.loaded pg)) (file : Bytes) :
    ({ d with io := file } : Database).loadPage i = .ok ({ d with io := file }, pg) := by
  rw [Database.loadPage_eq _ _ hi]
  simp only
  rw [h]

/-- C33: a page that was loaded is in memory, every other page is as it was, and the file is not
touched. -/
theorem load_page_effect {d d' : Database} {i : PageIndex} {pg : Page} (h : d.loadPage i = .ok (d', pg)) :
    d'.content.pages[i.val.toNat - 1]? = some (.loaded pg) ∧
    (∀ k, k ≠ i.val.toNat - 1 → d'.content.pages[k]? = d.content.pages[k]?) ∧
    d'.content.pages.length = d.content.pages.length ∧
    d'.content.header = d.content.header ∧ d'.io = d.io ∧ d'.dbType = d.dbType := by
  have hi : 1 ≤ i.val.toNat := by
    apply Nat.pos_of_ne_zero
    intro h0
    rw [Database.loadPage_zero d i h0] at h
    cases h
  obtain ⟨hv, rfl⟩ := ((d.loadPage_view i hi).1 d' pg).1 h
  have hlt := Database.view_lt hv
  refine ⟨?_, fun k hk => ?_, ?_, rfl, rfl, rfl⟩
  · unfold Database.setPage
    simp only
    rw [List.getElem?_set_self hlt]
  · unfold Database.setPage
    simp only
    rw [List.getElem?_set_ne (by omega)]
  · unfold Database.setPage
    simp only [List.length_set]

/-- C33: whatever is loaded, assigned and iterated over in whatever order, a page is the page last assigned
to it, or else what it was at the beginning; the file and the header do not change. -/
theorem session_keeps_pages {d d' : Database} {l : List (Nat × Page)} (h : d.Session l d') :
    (∀ n, 1 ≤ n → d'.view n = match lastAssigned l n with
      | some pg => .ok pg
      | none => d.view n) ∧
    d'.io = d.io ∧ d'.content.header = d.content.header ∧
    d'.content.pages.length = d.content.pages.length := by
  induction h with
  | done d => exact ⟨fun _ _ => rfl, rfl, rfl, rfl⟩
  | @load d d1 d' i pg l h t ih =>
    obtain ⟨a1, a2, a3, a4, a5, a6⟩ := load_page_effect h
    obtain ⟨b1, b2, b3, b4⟩ := ih
    refine ⟨fun n hn => ?_, b2.trans a5, b3.trans a4, b4.trans a3⟩
    rw [b1 n hn]
    have hi : 1 ≤ i.val.toNat := by
      apply Nat.pos_of_ne_zero
      intro h0
      rw [Database.loadPage_zero d i h0] at h
      cases h
    obtain ⟨hv, rfl⟩ := ((d.loadPage_view i hi).1 d1 pg).1 h
    rw [Database.view_setPage_self (by rwa [Nat.sub_add_cancel hi]) hn]
  | @assign d d1 d' i pg l new h t ih =>
    obtain ⟨a1, a2, a3, a4, a5, a6⟩ := load_page_effect h
    obtain ⟨b1, b2, b3, b4⟩ := ih
    refine ⟨fun n hn => ?_, b2.trans a5, b3.trans a4, b4.trans (by simp [Database.setPage, a3])⟩
    rw [b1 n hn]
    have hi : 1 ≤ i.val.toNat := by
      apply Nat.pos_of_ne_zero
      intro h0
      rw [Database.loadPage_zero d i h0] at h
      cases h
    obtain ⟨hv, rfl⟩ := ((d.loadPage_view i hi).1 d1 pg).1 h
    have hlt := Database.view_lt hv
    rw [Database.view_setPage _ _ (by simpa [Database.setPage] using hlt) hn, Nat.sub_add_cancel hi,
      Database.view_setPage_self (by rwa [Nat.sub_add_cancel hi]) hn]
    unfold lastAssigned
    by_cases he : n = i.val.toNat
    · subst he
      simp only [if_true, List.filter_cons, beq_self_eq_true, List.getLast?_cons, Option.map_some]
      cases (l.filter fun x => x.1 == i.val.toNat).getLast? with
      | none => rfl
      | some x => rfl
    · have hb : (i.val.toNat == n) = false := by
        rw [beq_eq_false_iff_ne]
        exact fun h => he h.symm
      simp only [if_neg he, List.filter_cons, hb]
      rfl
  | @iterate d d' t l calls _ ih =>
    obtain ⟨b1, b2, b3, b4⟩ := ih
    refine ⟨fun n hn => ?_, b2, b3, b4.trans ?_⟩
    · rw [b1 n hn, Database.view_after_calls d calls (d.pagesOf_ok t) rfl rfl rfl rfl hn]
    · have : ∀ (m : Nat) (it : PageIterator), it.Ok → (PageIterator.afterCalls m it).pages.length = it.pages.length := by
        intro m
        induction m with
        | zero => intro it _; rfl
        | succ m ihm =>
          intro it hk
          obtain ⟨a1, -, -, -, -, a6⟩ := PageIterator.next_pages hk
          rw [PageIterator.afterCalls, ihm _ a1]
          rcases a6 with h | ⟨slot, pg, i, -, -, -, h⟩
          · rw [h]
          · rw [h, List.length_set]
      exact this calls _ (d.pagesOf_ok t)

/-- C33: a session in the example: load page 2, assign page 3 the content of page 2, iterate. -/
example : ∃ d', (exampleDb .genres 1 3).Session [(3, exampleDbPage 2)] d' := by
  have h2 : (exampleDb .genres 1 3).view 2 = .ok (exampleDbPage 2) := by decide +kernel
  have h3 : (exampleDb .genres 1 3).view 3 = .ok (exampleDbPage 3) := by decide +kernel
  refine ⟨_, .load (((Database.loadPage_view _ ⟨2⟩ (by decide)).1 _ _).2 ⟨h2, rfl⟩)
    (.assign (i := ⟨3⟩) (exampleDbPage 2) (((Database.loadPage_view _ ⟨3⟩ (by decide)).1 _ _).2
      ⟨(Database.view_setPage_self (slot := 1) h2 (by decide)).trans h3, rfl⟩)
      (.iterate (t := ⟨.plain .genres, 0, ⟨1⟩, ⟨3⟩⟩) 2 (.done _)))⟩

/-! ## C34 -/

/-- C34: the full property is false: index 0 makes `load_page` panic. -/
theorem load_page_zero_panics (d : Database) : d.loadPage ⟨0⟩ = .panic := d.loadPage_zero _ rfl

/-- C34, as far as it is true: `load_page` panics exactly for index 0 and for pages of the file that make
the page parser panic.  Missing: these cases should be errors. -/
theorem load_page_panic_partial (d : Database) (i : PageIndex) :
    d.loadPage i = .panic ↔ i.val.toNat = 0 ∨
      (d.content.pages[i.val.toNat - 1]? = some .notLoaded ∧
        Page.read d.content.header.pageSize.toNat d.dbType d.io
          (i.val.toNat * d.content.header.pageSize.toNat) = .panic) := by
  by_cases h0 : i.val.toNat = 0
  · simp [h0, d.loadPage_zero i h0]
  · rw [d.loadPage_eq i (by omega)]
    cases hp : d.content.pages[i.val.toNat - 1]? with
    | none => simp [h0]
    | some x =>
      cases x with
      | loaded pg => simp [h0]
      | notLoaded =>
        cases hr : Page.read d.content.header.pageSize.toNat d.dbType d.io
            (i.val.toNat * d.content.header.pageSize.toNat) with
        | ok x => simp [h0]
        | err _ => simp [h0]
        | panic => simp

/-- C34: for pages of at least 40 bytes, a panic with an index other than 0 comes from a string in the
file. -/
theorem load_page_panic_cause {d : Database} {i : PageIndex} (hs : 40 ≤ d.content.header.pageSize.toNat)
    (hi : i.val.toNat ≠ 0) (h : d.loadPage i = .panic) :
    ∃ k, i.val.toNat * d.content.header.pageSize.toNat + 40 ≤ k ∧ DString.read d.io k = .panic := by
  rcases (load_page_panic_partial d i).1 h with h | ⟨-, h⟩
  · exact absurd h hi
  · obtain ⟨hd, -, -, o, -, k, hk⟩ := page_read_panic_partial hs h
    exact ⟨_, by omega, hk⟩

/-- C40: opening a database takes the header from the position of the stream, and no page is in memory. -/
theorem open_reads_header {file : Bytes} {pos : Nat} {db : DatabaseType} {d : Database}
    (h : Database.openAt file pos db = .ok d) :
    HasAt file pos d.content.header.enc ∧ d.io = file ∧ d.dbType = db ∧
    d.content.pages.length = d.content.header.nextUnusedPage.val.toNat - 1 ∧ ∀ n, ¬ d.IsLoaded n := by
  unfold Database.openAt LazyDatabase.read at h
  obtain ⟨r, h1, h⟩ := Res.bind_eq_ok.1 h
  injection h with h
  subst h
  obtain ⟨hd, q, h2, h3⟩ := Rd.bind_eq_ok.1 h1
  rw [Rd.pure_eq_ok] at h3
  obtain ⟨h3, -⟩ := h3
  rw [← h3]
  obtain ⟨_, hb, -, rfl⟩ := Header.inv db _ _ _ _ h2
  refine ⟨hb, rfl, rfl, by simp, ?_⟩
  rintro n ⟨-, pg, hn⟩
  simp only [List.getElem?_replicate] at hn
  split at hn <;> cases hn

/-- C40: a file with a consistent header at the position of the stream can be opened. -/
theorem open_of_header {file : Bytes} {pos : Nat} {db : DatabaseType} {h : Header} (hc : h.Consistent db)
    (hb : HasAt file pos h.enc) :
    ∃ d, Database.openAt file pos db = .ok d ∧ d.content.header = h := by
  refine ⟨⟨file, db, ⟨h, List.replicate (h.nextUnusedPage.val.toNat - 1) .notLoaded⟩⟩, ?_, rfl⟩
  unfold Database.openAt LazyDatabase.read
  rw [Rd.bind_of_ok (Header.rt db h hc _ _ hb)]
  rfl

example : HasAt ([1, 2, 3] ++ (exampleHeader .genres 1 3).enc) 3 (exampleHeader .genres 1 3).enc := by
  simpa using hasAt_append_mid [1, 2, 3] (exampleHeader .genres 1 3).enc []

end Rekordcrate
