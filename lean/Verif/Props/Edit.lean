import Verif.Lemmas.EditRoom
import Verif.Props.CliFile

/-! # C75, C76: storing whole databases, editing rows in place -/

namespace Rekordcrate

/-! ## C75: storing whole databases -/

/-- C75: flushing an intact database and opening the file again gives a database with the same header in
which every page is what it was, whether it was in memory or not (offsets in rows that were left to the writer
are filled in). -/
theorem intact_reopen {d : Database} (h : d.Intact) :
    ∃ d' d2, d.flush = .ok d' ∧ Database.openAt d'.io 0 d.dbType = .ok d2 ∧
      d2.content.header = d.content.header ∧
      ∀ n pg, 1 ≤ n → d.view n = .ok pg → ∃ pg', d2.view n = .ok pg' ∧ pg.ReadBack pg' := by
  obtain ⟨d', d2, h1, -, h2, rfl, h3⟩ := h.reopen
  exact ⟨d', _, h1, h2, rfl, h3⟩

/-- C75: so the tables have the same rows: if `iter_rows` goes through the pages `l` in the database, then
after flushing and opening the file again it gives exactly the rows of these pages, in order, with their pages
and offsets. -/
theorem rows_survive_reopen {α : Type} [RowVariant α] (hα : RowVariant.Lawful α) {d : Database} (h : d.Intact)
    {k : Nat} {t : Table} (ht : d.content.header.findTable (RowVariant.pageType α) = some (k, t))
    {l : List (Nat × Page)} (hc : d.Chain t.lastPage.val.toNat t.firstPage.val.toNat l)
    (hp : ∀ x ∈ l, x.2.header.pageType = RowVariant.pageType α) :
    ∃ d' d2 it rows it', d.flush = .ok d' ∧ Database.openAt d'.io 0 d.dbType = .ok d2 ∧
      d2.iterRows α = .ok it ∧ it.Runs α rows it' ∧ Pointwise RowStored (rowsOf l) rows := by
  obtain ⟨d', d2, h1, h2, h3, h4⟩ := intact_reopen h
  obtain ⟨l', h5, h6⟩ := hc.transport (d' := d2) (R := Page.ReadBack) (fun _ _ h => h.1) fun x hx =>
    h4 x.1 x.2 (hc.view x hx).2.1 (hc.view x hx).2.2
  have h7 := rowsOf_pointwise (R := fun _ x y => y.1 = x.1 ∧ x.2.Resolved y.2) (P := fun _ => Page.ReadBack)
    (fun n pg pg' hb => by
      obtain ⟨-, hb⟩ := hb
      cases hcont : pg.content with
      | data c =>
        rw [hcont] at hb
        obtain ⟨c', e, -, -, hb⟩ := hb
        exact ⟨c', e, hb⟩
      | index c =>
        rw [hcont] at hb
        exact ⟨c, hb⟩) h6
  have hfit : ∀ x ∈ rowsOf l, x.2.2.Fits (RowVariant.pageType α) := by
    intro x hx
    unfold rowsOf at hx
    obtain ⟨y, hy, hx⟩ := List.mem_flatMap.1 hx
    cases hcont : y.2.content with
    | index c => rw [hcont] at hx; cases hx
    | data c =>
      rw [hcont] at hx
      obtain ⟨z, hz, rfl⟩ := List.mem_map.1 hx
      have := ((h.sound (hc.view y hy).2.1 (hc.view y hy).2.2).data c hcont).2.1 z hz
      rw [hp y hy] at this
      exact this.2.1
  obtain ⟨it, rows, it', h8, h9, h10, -⟩ := row_iteration_exact hα (d := d2) (by rw [h3]; exact ht) h5
    (fun y hy => by
      obtain ⟨x, hx, -, -, hr⟩ := h7.mem_right hy
      exact hr.fits (hfit x hx))
  refine ⟨d', d2, it, rows, it', h1, h2, h8, h9, (h7.trans h10).imp fun x _ y _ hxy => ?_⟩
  obtain ⟨z, ⟨e1, e2, e3⟩, e4, e5, e6⟩ := hxy
  exact ⟨e4.trans e1, e5.trans e2, z.2.2, e3, e6⟩

/-- C75: a database straight from a file is intact if the header fits in a page and the pages have the form
the writer produces. -/
theorem open_intact {file : Bytes} {db : DatabaseType} {d : Database} (h : Database.openAt file 0 db = .ok d)
    (hf : 28 + 16 * d.content.header.tables.length ≤ d.content.header.pageSize.toNat)
    (hp : ∀ (n : Nat) (pg : Page) (q : Nat), 1 ≤ n → n < d.content.header.nextUnusedPage.val.toNat →
      Page.read d.content.header.pageSize.toNat db file (n * d.content.header.pageSize.toNat) = .ok (pg, q) →
      pg.Sound d.content.header.pageSize.toNat db ∧
        pg.Canonical d.content.header.pageSize.toNat file (n * d.content.header.pageSize.toNat)) : d.Intact := by
  obtain ⟨-, h2, h3, h4, h5⟩ := open_reads_header h
  refine ⟨⟨?_, hf, ?_⟩, h4, ?_⟩
  · unfold Database.openAt LazyDatabase.read at h
    obtain ⟨r, h6, h⟩ := Res.bind_eq_ok.1 h
    injection h with h
    subst h
    obtain ⟨hd, q, h7, h8⟩ := Rd.bind_eq_ok.1 h6
    rw [Rd.pure_eq_ok] at h8
    obtain ⟨h8, -⟩ := h8
    rw [← h8]
    exact (header_read_write _ _ _ _ _ h7).1
  · intro n pg hn
    exact absurd ⟨by omega, pg, by simpa using hn⟩ (h5 (n + 1))
  · intro n pg q hn hl hr
    have := (List.getElem?_eq_some_iff.1 hl).1
    rw [h3] at hr ⊢
    rw [h2] at hr ⊢
    exact hp n pg q hn (by omega) hr

/-! ## C76: editing rows in place -/

/-- C76: for each of the fifteen row types, assigning through the reference replaces the row. -/
theorem row_assign_lawful :
    RowAssign.Lawful Album ∧ RowAssign.Lawful Artist ∧ RowAssign.Lawful Artwork ∧ RowAssign.Lawful Color ∧
    RowAssign.Lawful Genre ∧ RowAssign.Lawful HistoryPlaylist ∧ RowAssign.Lawful HistoryEntry ∧
    RowAssign.Lawful History ∧ RowAssign.Lawful Key ∧ RowAssign.Lawful Label ∧
    RowAssign.Lawful PlaylistTreeNode ∧ RowAssign.Lawful PlaylistEntry ∧ RowAssign.Lawful ColumnEntry ∧
    RowAssign.Lawful Track ∧ RowAssign.Lawful Menu := by
  refine ⟨?_, ?_, ?_, ?_, ?_, ?_, ?_, ?_, ?_, ?_, ?_, ?_, ?_, ?_, ?_⟩
  all_goals
    intro r old a h
    cases r with
    | plain r => cases r <;> (first | exact ⟨_, rfl, rfl⟩ | cases h)
    | ext r => cases r <;> cases h
    | unknown => cases h

/-- C76: for a table with a well-formed chain whose rows are of the type of the table, go through `iter_rows`
and assign to every row.  Then the pages of the chain are in memory with every row edited once and nothing else
changed, and every other page, the header and the file are what they were. -/
theorem edit_rows_exact {α : Type} [RowVariant α] [RowAssign α] (hα : RowVariant.Lawful α)
    (hm : RowAssign.Lawful α) (f : Nat → UInt16 → α → α) {d : Database} {k : Nat} {t : Table}
    (ht : d.content.header.findTable (RowVariant.pageType α) = some (k, t)) {l : List (Nat × Page)}
    (hc : d.Chain t.lastPage.val.toNat t.firstPage.val.toNat l)
    (hs : ∀ x ∈ l, ∀ c, x.2.content = .data c → c.rows.Sorted ∧ ∀ y ∈ c.rows, y.2.Fits (RowVariant.pageType α)) :
    ∃ it it', d.iterRows α = .ok it ∧ it.Edits α f it' ∧
      (d.after it'.pages).content.pages.length = d.content.pages.length ∧
      (∀ x ∈ l, ∃ pg', (d.after it'.pages).content.pages[x.1 - 1]? = some (.loaded pg') ∧
        PageEdited f x.1 x.2 pg') ∧
      ∀ n, 1 ≤ n → (∀ x ∈ l, x.1 ≠ n) →
        (d.after it'.pages).content.pages[n - 1]? = d.content.pages[n - 1]? := by
  obtain ⟨it', h1, h2, h3, h4⟩ := RowIterator.edits_chain (f := f) hm hc
    (fun x hx c hcont => ⟨(hs x hx c hcont).1, fun y hy => (hα _).2 ((hs x hx c hcont).2 y hy)⟩)
    (d := d) (it := d.pagesOf t) (fun _ _ => rfl)
    ⟨rfl, rfl, rfl, rfl, by simp [Database.pagesOf], rfl, (hc.first).1, rfl, _, rfl, rfl⟩ 0
  refine ⟨⟨d.pagesOf t, 0, []⟩, it', ?_, h1, h2, h3, h4⟩
  unfold Database.iterRows Database.iterPages
  rw [ht]
  rfl

/-- C76: an edited page can be stored if the edited rows can. -/
theorem edited_page_sound {α : Type} [RowVariant α] {f : Nat → UInt16 → α → α} {pageSize : Nat}
    {db : DatabaseType} {n : Nat} {pg pg' : Page} (h : PageEdited f n pg pg') (hs : pg.Sound pageSize db)
    (hroom : ∀ c rows, pg.content = .data c → Pointwise (RowEdited f n) c.rows rows →
      RowsStorable pg.header.pageType rows ∧ DataPageContent.LaidOut pageSize { c with rows }) :
    pg'.Sound pageSize db := by
  obtain ⟨hh, hcont⟩ := h
  cases hd : pg.content with
  | index c =>
    rw [hd] at hcont
    simp only at hcont
    have : pg' = pg := by cases pg; cases pg'; simp only at *; rw [hh, hcont, hd]
    rw [this]
    exact hs
  | data c =>
    rw [hd] at hcont
    obtain ⟨rows, hc', hrows⟩ := hcont
    obtain ⟨hcons, -, -⟩ := hs.data c hd
    obtain ⟨hstor, hlaid⟩ := hroom c rows hd hrows
    have hkeys : rows.map Prod.fst = c.rows.map Prod.fst := by
      refine (hrows.map_eq (f := Prod.fst) (g := Prod.fst) fun x y h => ?_)
      exact h.1
    have hlen : rows.length = c.rows.length := by
      have := congrArg List.length hkeys
      simpa using this
    refine ⟨by rw [hh]; exact hs.type, ?_, ?_, ?_⟩
    · rw [hh, hs.flag, hd, hc']
      simp
    · intro x hx
      rw [hc'] at hx
      injection hx with hx
      subst hx
      rw [hh]
      refine ⟨⟨hcons.groups, hcons.sixteen, ?_, ?_, ?_⟩, hstor, hlaid⟩
      · have := hcons.sorted
        unfold RowMap.Sorted at this ⊢
        rw [← List.pairwise_map (f := Prod.fst) (R := fun a b : UInt16 => a < b)] at this ⊢
        rw [hkeys]
        exact this
      · intro o
        simp only
        rw [hkeys]
        exact hcons.offsets o
      · rw [hlen]
        exact hcons.valid
    · intro x hx
      rw [hc'] at hx
      cases hx

/-- C76: after the edit an intact database is intact if the edited rows can be stored. -/
theorem edited_intact {α : Type} [RowVariant α] {f : Nat → UInt16 → α → α} {d d1 : Database} (hi : d.Intact)
    {l : List (Nat × Page)} (hv : ∀ x ∈ l, 1 ≤ x.1 ∧ d.view x.1 = .ok x.2)
    (hio : d1.io = d.io) (hdb : d1.dbType = d.dbType) (hh : d1.content.header = d.content.header)
    (hlen : d1.content.pages.length = d.content.pages.length)
    (hed : ∀ x ∈ l, ∃ pg', d1.content.pages[x.1 - 1]? = some (.loaded pg') ∧ PageEdited f x.1 x.2 pg')
    (hoth : ∀ n, 1 ≤ n → (∀ x ∈ l, x.1 ≠ n) → d1.content.pages[n - 1]? = d.content.pages[n - 1]?)
    (hroom : ∀ x ∈ l, ∀ c rows, x.2.content = .data c → Pointwise (RowEdited f x.1) c.rows rows →
      RowsStorable x.2.header.pageType rows ∧
        DataPageContent.LaidOut d.content.header.pageSize.toNat { c with rows }) : d1.Intact := by
  refine ⟨⟨by rw [hh, hdb]; exact hi.storable.header, by rw [hh]; exact hi.storable.headerFits, ?_⟩,
    by rw [hlen, hh]; exact hi.length, ?_⟩
  · intro m pg hm
    rw [hh, hdb]
    by_cases hx : ∃ x ∈ l, x.1 = m + 1
    · obtain ⟨x, hx, he⟩ := hx
      obtain ⟨pg', h1, h2⟩ := hed x hx
      rw [he, Nat.add_sub_cancel, hm] at h1
      simp only [Option.some.injEq, LazyPage.loaded.injEq] at h1
      subst h1
      exact edited_page_sound h2 (hi.sound (hv x hx).1 (hv x hx).2) (hroom x hx)
    · have := hoth (m + 1) (by omega) fun x hx' he => hx ⟨x, hx', he⟩
      rw [Nat.add_sub_cancel] at this
      rw [this] at hm
      exact hi.storable.pages m pg hm
  · intro n pg q hn hl hr
    have hx : ∀ x ∈ l, x.1 ≠ n := fun x hx he => by
      obtain ⟨pg', h1, -⟩ := hed x hx
      rw [he, hl] at h1
      cases h1
    rw [hoth n hn hx] at hl
    rw [hh, hdb, hio] at hr ⊢
    exact hi.file n pg q hn hl hr

/-- C76: the edited rows can be stored if each can take the place of the old one. -/
theorem takes_place_room {α : Type} [RowVariant α] (hα : RowVariant.Lawful α) {f : Nat → UInt16 → α → α} {n : Nat}
    {pageSize : Nat} {db : DatabaseType} {pg : Page} (hs : pg.Sound pageSize db)
    (hp : pg.header.pageType = RowVariant.pageType α) {c : DataPageContent} (hc : pg.content = .data c)
    (hroom : ∀ x ∈ c.rows, ∀ a r', RowVariant.fromRow x.2 = some a → RowVariant.fromRow r' = some (f n x.1 a) →
      x.2.TakesPlace r') {rows : RowMap} (h : Pointwise (RowEdited f n) c.rows rows) :
    RowsStorable pg.header.pageType rows ∧ DataPageContent.LaidOut pageSize { c with rows } := by
  obtain ⟨-, -, hl⟩ := hs.data c hc
  have take : ∀ x ∈ c.rows, ∀ y, RowEdited f n x y → x.2.TakesPlace y.2 := fun x hx y ⟨_, a, h1, h2⟩ =>
    hroom x hx a y.2 h1 h2
  refine ⟨fun y hy => ?_, ?_, fun y hy => ?_, ?_⟩
  · obtain ⟨x, hx, hxy⟩ := h.mem_right hy
    have ht := take x hx y hxy
    obtain ⟨-, a, -, h2⟩ := hxy
    exact ⟨ht.storable, by rw [hp]; exact (hα _).1 (by rw [h2]; rfl), ht.offsets⟩
  · refine h.pairwise hl.apart fun x hx y _ x' _ y' _ hxy hxy' hap => ?_
    obtain ⟨m, h1, h2⟩ := hap
    exact ⟨m, (take x hx y hxy).room m h1, by rw [hxy.1, hxy'.1]; exact h2⟩
  · obtain ⟨x, hx, hxy⟩ := h.mem_right hy
    exact (take x hx y hxy).coherent
  · obtain ⟨fo, h1, h2, h3⟩ := hl.fits
    refine ⟨fo, h1, h2, fun y hy => ?_⟩
    obtain ⟨x, hx, hxy⟩ := h.mem_right hy
    obtain ⟨m, h4, h5⟩ := h3 x hx
    exact ⟨m, (take x hx y hxy).room m h4, by rw [hxy.1]; exact h5⟩

/-- The row `y` is what came of the row `x`, edited, stored and read again. -/
def RowEditStored {α : Type} [RowVariant α] (f : Nat → UInt16 → α → α) (x : Nat × UInt16 × Row)
    (y : Nat × UInt16 × α) : Prop :=
  y.1 = x.1 ∧ y.2.1 = x.2.1 ∧ ∃ a r r', RowVariant.fromRow x.2.2 = some a ∧
    RowVariant.fromRow r = some (f x.1 x.2.1 a) ∧ r.Resolved r' ∧ RowVariant.fromRow r' = some y.2.2

/-- C76, for edits whose rows can be stored where the old ones were: go through the rows of a table of an
intact database with `iter_rows`, assign to each, flush, open the file again.  Then `iter_rows` gives exactly
the edited rows, in the same order, on the same pages and at the same offsets, and every page of other tables
is what it was.  Missing: the code does not check that the rows can be stored, see
`longer_title_is_damaged` and `longer_name_is_damaged`. -/
theorem edited_rows_survive_partial {α : Type} [RowVariant α] [RowAssign α] (hα : RowVariant.Lawful α)
    (hm : RowAssign.Lawful α) (f : Nat → UInt16 → α → α) {d : Database} (hi : d.Intact) {k : Nat} {t : Table}
    (ht : d.content.header.findTable (RowVariant.pageType α) = some (k, t)) {l : List (Nat × Page)}
    (hc : d.Chain t.lastPage.val.toNat t.firstPage.val.toNat l)
    (hp : ∀ x ∈ l, x.2.header.pageType = RowVariant.pageType α)
    (hroom : ∀ x ∈ l, ∀ c rows, x.2.content = .data c → Pointwise (RowEdited f x.1) c.rows rows →
      RowsStorable x.2.header.pageType rows ∧
        DataPageContent.LaidOut d.content.header.pageSize.toNat { c with rows }) :
    ∃ it it' d' d2 it2 rows it2', d.iterRows α = .ok it ∧ it.Edits α f it' ∧
      (d.after it'.pages).flush = .ok d' ∧ Database.openAt d'.io 0 d.dbType = .ok d2 ∧
      d2.content.header = d.content.header ∧
      d2.iterRows α = .ok it2 ∧ it2.Runs α rows it2' ∧ Pointwise (RowEditStored f) (rowsOf l) rows ∧
      ∀ n pg, 1 ≤ n → (∀ x ∈ l, x.1 ≠ n) → d.view n = .ok pg → ∃ pg', d2.view n = .ok pg' ∧ pg.ReadBack pg' := by
  have hview : ∀ x ∈ l, 1 ≤ x.1 ∧ d.view x.1 = .ok x.2 := fun x hx => (hc.view x hx).2
  have hsound : ∀ x ∈ l, x.2.Sound d.content.header.pageSize.toNat d.dbType := fun x hx =>
    hi.sound (hview x hx).1 (hview x hx).2
  obtain ⟨it, it', h1, h2, h3, h4, h5⟩ := edit_rows_exact hα hm f ht hc fun x hx c hcont => by
    obtain ⟨g1, g2, -⟩ := (hsound x hx).data c hcont
    exact ⟨g1.sorted, fun y hy => by rw [← hp x hx]; exact (g2 y hy).2.1⟩
  have hi1 : (d.after it'.pages).Intact := edited_intact hi hview rfl rfl rfl h3 h4 h5 hroom
  obtain ⟨l1, h6, h7⟩ := hc.transport (d' := d.after it'.pages)
    (R := fun pg pg' => pg'.header = pg.header ∧ ∃ n, (n, pg) ∈ l ∧ d.view n = .ok pg ∧
      (d.after it'.pages).view n = .ok pg' ∧ PageEdited f n pg pg') (fun _ _ h => h.1) fun x hx => by
    obtain ⟨pg', g1, g2⟩ := h4 x hx
    have := Database.view_loaded g1
    exact ⟨pg', this, g2.1, x.1, hx, (hview x hx).2, this, g2⟩
  -- the pages of the new chain are the edited pages
  have h7' : Pointwise (fun x y => y.1 = x.1 ∧ PageEdited f x.1 x.2 y.2) l l1 := by
    refine h7.imp fun x hx y hy hxy => ⟨hxy.1, ?_⟩
    obtain ⟨pg', g1, g2⟩ := h4 x hx
    have g3 := Database.view_loaded g1
    have g4 := (h6.view y hy).2.2
    rw [hxy.1, g3] at g4
    injection g4 with g4
    rw [← g4]
    exact g2
  have hrows := rowsOf_pointwise (R := fun n => RowEdited f n) (P := PageEdited f) (fun n pg pg' hb => by
      obtain ⟨-, hb⟩ := hb
      cases hcont : pg.content with
      | data c =>
        rw [hcont] at hb
        obtain ⟨rows, e, hb⟩ := hb
        exact ⟨_, e, hb⟩
      | index c =>
        rw [hcont] at hb
        exact ⟨c, hb⟩) h7'
  have hp1 : ∀ y ∈ l1, y.2.header.pageType = RowVariant.pageType α := fun y hy => by
    obtain ⟨x, hx, hxy⟩ := h7'.mem_right hy
    rw [hxy.2.1]
    exact hp x hx
  obtain ⟨d', d2, it2, rows, it2', h8, h9, h10, h11, h12⟩ := rows_survive_reopen hα hi1 ht h6 hp1
  obtain ⟨e', e2, g1, g2, g3, g4⟩ := intact_reopen hi1
  rw [h8] at g1
  injection g1 with g1
  subst g1
  rw [h9] at g2
  injection g2 with g2
  subst g2
  refine ⟨it, it', d', d2, it2, rows, it2', h1, h2, h8, h9, g3, h10, h11, ?_, ?_⟩
  · refine (hrows.trans h12).imp fun x _ y _ hxy => ?_
    obtain ⟨z, ⟨e1, e2, a, e3, e4⟩, e5, e6, r', e7, e8⟩ := hxy
    exact ⟨e5.trans e1, e6.trans e2, a, z.2.2, r', e3, e4, e7, e8⟩
  · intro n pg hn hx hv
    refine g4 n pg hn ?_
    rw [← hv]
    exact Database.view_congr (h5 n hn hx) rfl rfl rfl

/-- C76: the same if each edited row can take the place of the old one. -/
theorem rows_edited_in_place_survive_partial {α : Type} [RowVariant α] [RowAssign α] (hα : RowVariant.Lawful α)
    (hm : RowAssign.Lawful α) (f : Nat → UInt16 → α → α) {d : Database} (hi : d.Intact) {k : Nat} {t : Table}
    (ht : d.content.header.findTable (RowVariant.pageType α) = some (k, t)) {l : List (Nat × Page)}
    (hc : d.Chain t.lastPage.val.toNat t.firstPage.val.toNat l)
    (hp : ∀ x ∈ l, x.2.header.pageType = RowVariant.pageType α)
    (hroom : ∀ x ∈ rowsOf l, ∀ a r', x.2.2.Storable → x.2.2.OffsetsFit → x.2.2.Coherent →
      RowVariant.fromRow x.2.2 = some a → RowVariant.fromRow r' = some (f x.1 x.2.1 a) → x.2.2.TakesPlace r') :
    ∃ it it' d' d2 it2 rows it2', d.iterRows α = .ok it ∧ it.Edits α f it' ∧
      (d.after it'.pages).flush = .ok d' ∧ Database.openAt d'.io 0 d.dbType = .ok d2 ∧
      d2.content.header = d.content.header ∧
      d2.iterRows α = .ok it2 ∧ it2.Runs α rows it2' ∧ Pointwise (RowEditStored f) (rowsOf l) rows ∧
      ∀ n pg, 1 ≤ n → (∀ x ∈ l, x.1 ≠ n) → d.view n = .ok pg →
        ∃ pg', d2.view n = .ok pg' ∧ pg.ReadBack pg' := by
  refine edited_rows_survive_partial hα hm f hi ht hc hp fun x hx c rows hcont hr => ?_
  have hs := hi.sound (hc.view x hx).2.1 (hc.view x hx).2.2
  refine takes_place_room hα hs (hp x hx) hcont (fun y hy a r' h1 h2 => ?_) hr
  obtain ⟨-, g1, g2⟩ := hs.data c hcont
  refine hroom (x.1, y.1, y.2) ?_ a r' (g1 y hy).1 (g1 y hy).2.2 (g2.coherent y hy) h1 h2
  unfold rowsOf
  refine List.mem_flatMap.2 ⟨x, hx, ?_⟩
  rw [hcont]
  exact List.mem_map.2 ⟨y, hy, rfl⟩

/-! ## C76: which rows can take the place of others -/

/-- C76: a row without offset array can take the place of one that is not shorter. -/
theorem packed_takes_place {old new : Row} {m n : Nat} (ho : old.Storable) (hn : new.Storable)
    (h1 : old.packedSize = some m) (h2 : new.packedSize = some n) (hle : n ≤ m) : old.TakesPlace new := by
  refine ⟨hn, Row.packed_offsets h2, Row.packed_coherent h2, fun k hk p p' ps hw => ?_⟩
  obtain ⟨q, qs, h⟩ := row_writable ho (Row.packed_offsets h1) p
  obtain ⟨bs, rfl, hl⟩ := Row.packed_write h1 h
  obtain ⟨bs', rfl, hl'⟩ := Row.packed_write h2 hw
  have := hk p q _ h _ (List.mem_singleton.2 rfl)
  intro x hx
  rw [List.mem_singleton] at hx
  subst hx
  simp only at this ⊢
  omega

section Container

variable {T : Type} [OffsetItems T] [LawfulItems T] {old new : Row} {hd hd' : Bytes} {N : Nat}
  {size : OffsetSize} {c c' : OffsetContainer T}

theorem container_takes_place (w1 : old.write = do Wr.emit hd; c.write N size)
    (w2 : new.write = do Wr.emit hd'; c'.write N size) (hlen : hd.length = N) (hlen' : hd'.length = N)
    (ho : old.Storable) (hof : old.OffsetsFit) (hn : new.Storable) (hnf : new.OffsetsFit) (hw : c.WellTyped)
    (hs : c.Separate N size) (hl : c.NoLonger c') : old.TakesPlace new := by
  refine ⟨hn, hnf, fun p p' ps h => ?_, fun k hk p p' ps h => ?_⟩
  · rw [w2] at h
    exact OffsetContainer.crow_separate hlen' (fun b hb => hw b (by rw [← hl.1]; exact hb)) (hs.noLonger hl) h
  · obtain ⟨q, qs, h0⟩ := row_writable ho hof p
    have h1 := h0
    rw [w1] at h0
    rw [w2] at h
    exact OffsetContainer.crow_room hlen hlen' hw hs.1.1 hl h0 h (hk p q qs h1)

theorem head_takes_place (w1 : old.write = do Wr.emit hd; c.write N size)
    (w2 : new.write = do Wr.emit hd'; c.write N size) (hlen : hd.length = N) (hlen' : hd'.length = N)
    (ho : old.Storable) (hof : old.OffsetsFit) (hoc : old.Coherent) (hn : new.Storable) (hnf : new.OffsetsFit)
    (hw : c.WellTyped) (hb : c.Behind N) : old.TakesPlace new := by
  refine ⟨hn, hnf, fun p p' ps h => ?_, fun k hk p p' ps h => ?_⟩
  · obtain ⟨q, qs, h0⟩ := row_writable ho hof p
    have h1 := h0
    rw [w1] at h0
    rw [w2] at h
    exact OffsetContainer.crow_head_coherent hlen hlen' hw hb h0 h (hoc p q qs h1)
  · obtain ⟨q, qs, h0⟩ := row_writable ho hof p
    have h1 := h0
    rw [w1] at h0
    rw [w2] at h
    exact OffsetContainer.crow_room hlen hlen' hw hb.1 (.refl c) h0 h (hk p q qs h1)

theorem OffsetContainer.OffsetsFit.congr (h : c.offsets ≠ none) (he : c'.offsets = c.offsets)
    (hf : c.OffsetsFit N size) : c'.OffsetsFit N size := by
  unfold OffsetsFit at hf ⊢
  rw [he]
  cases hc : c.offsets with
  | none => exact absurd hc h
  | some a =>
    rw [hc] at hf
    cases a <;> cases size <;> first | trivial | exact hf.elim

end Container

/-- C76: a track can take the place of one with the same offsets (and the same subtype, which tells their
width) if its strings are not longer and those of the old one do not share bytes. -/
theorem track_takes_place {t t' : Track} (ho : (Row.plain (.track t)).Storable)
    (hof : (Row.plain (.track t)).OffsetsFit) (hn : (Row.plain (.track t')).Storable)
    (hsub : t'.subtype = t.subtype) (hs : t.offsets.Separate 92 (docWidth t.subtype))
    (hl : t.offsets.NoLonger t'.offsets) : (Row.plain (.track t)).TakesPlace (.plain (.track t')) := by
  refine container_takes_place (size := docWidth t.subtype) (c := t.offsets) (c' := t'.offsets) ?_ ?_
    t.head_length t'.head_length ho hof hn ?_ ho.2.2 hs hl
  · rw [← offsetSizeOf_eq]
    rfl
  · rw [← hsub, ← offsetSizeOf_eq]
    rfl
  · show t'.offsets.OffsetsFit _ _
    rw [hsub]
    exact OffsetContainer.OffsetsFit.congr hs.1.1 hl.1 hof

/-- C76: the same for artists. -/
theorem artist_takes_place {t t' : Artist} (ho : (Row.plain (.artist t)).Storable)
    (hof : (Row.plain (.artist t)).OffsetsFit) (hn : (Row.plain (.artist t')).Storable)
    (hsub : t'.subtype = t.subtype) (hs : t.offsets.Separate 8 (docWidth t.subtype))
    (hl : t.offsets.NoLonger t'.offsets) : (Row.plain (.artist t)).TakesPlace (.plain (.artist t')) := by
  refine container_takes_place (size := docWidth t.subtype) (c := t.offsets) (c' := t'.offsets) ?_ ?_
    t.head_length t'.head_length ho hof hn ?_ ho.2.2 hs hl
  · rw [← offsetSizeOf_eq]
    rfl
  · rw [← hsub, ← offsetSizeOf_eq]
    rfl
  · show t'.offsets.OffsetsFit _ _
    rw [hsub]
    exact OffsetContainer.OffsetsFit.congr hs.1.1 hl.1 hof

/-- C76: a track can take the place of one with the same strings at the same offsets if these are behind the
fixed part of the row; they may share bytes. -/
theorem track_fields_take_place {t t' : Track} (ho : (Row.plain (.track t)).Storable)
    (hof : (Row.plain (.track t)).OffsetsFit) (hoc : (Row.plain (.track t)).Coherent)
    (hf : t'.fileType.Canonical) (hsub : t'.subtype = t.subtype) (hs : t.offsets.Behind 92)
    (hl : t'.offsets = t.offsets) : (Row.plain (.track t)).TakesPlace (.plain (.track t')) := by
  refine head_takes_place (size := docWidth t.subtype) (c := t.offsets) ?_ ?_
    t.head_length t'.head_length ho hof hoc ⟨?_, hf, ?_⟩ ?_ ho.2.2 hs
  · rw [← offsetSizeOf_eq]
    rfl
  · rw [← hl, ← hsub, ← offsetSizeOf_eq]
    rfl
  · intro v hv
    refine ho.1 v ?_
    change v ∈ OffsetItems.asItems t'.offsets.inner at hv
    rw [hl] at hv
    exact hv
  · show t'.offsets.WellTyped
    rw [hl]
    exact ho.2.2
  · show t'.offsets.OffsetsFit _ _
    rw [hsub]
    exact OffsetContainer.OffsetsFit.congr hs.1 (by rw [hl]) hof

/-! ## C76: what this means for tracks and playlists -/

/-- C76, for the fields before the strings: changing ids, the rating or any other of these fields of the tracks of
a file, and flushing, gives a file with exactly the changed tracks. -/
theorem edited_track_fields_survive (f : Nat → UInt16 → Track → Track) {d : Database} (hi : d.Intact) {k : Nat}
    {t : Table} (ht : d.content.header.findTable (.plain .tracks) = some (k, t)) {l : List (Nat × Page)}
    (hc : d.Chain t.lastPage.val.toNat t.firstPage.val.toNat l)
    (hp : ∀ x ∈ l, x.2.header.pageType = .plain .tracks)
    (hf : ∀ x ∈ rowsOf l, ∀ r, x.2.2 = .plain (.track r) → r.offsets.Behind 92 ∧
      (f x.1 x.2.1 r).offsets = r.offsets ∧ (f x.1 x.2.1 r).subtype = r.subtype ∧
      (f x.1 x.2.1 r).fileType.Canonical) :
    ∃ it it' d' d2 it2 rows it2', d.iterRows Track = .ok it ∧ it.Edits Track f it' ∧
      (d.after it'.pages).flush = .ok d' ∧ Database.openAt d'.io 0 d.dbType = .ok d2 ∧
      d2.content.header = d.content.header ∧
      d2.iterRows Track = .ok it2 ∧ it2.Runs Track rows it2' ∧
      Pointwise (fun x y => y.1 = x.1 ∧ y.2.1 = x.2.1 ∧
        ∃ r, x.2.2 = .plain (.track r) ∧ y.2.2 = f x.1 x.2.1 r) (rowsOf l) rows ∧
      ∀ n pg, 1 ≤ n → (∀ x ∈ l, x.1 ≠ n) → d.view n = .ok pg →
        ∃ pg', d2.view n = .ok pg' ∧ pg.ReadBack pg' := by
  have hrow : ∀ {r : Row} {a : Track}, RowVariant.fromRow r = some a → r = .plain (.track a) := by
    intro r a h
    simp only [RowVariant.fromRow] at h
    split at h
    · injection h with h
      rw [h]
    · cases h
  obtain ⟨-, -, -, -, -, -, -, -, -, -, -, -, -, L, -⟩ := row_variants_lawful
  obtain ⟨-, -, -, -, -, -, -, -, -, -, -, -, -, M, -⟩ := row_assign_lawful
  obtain ⟨it, it', d', d2, it2, rows, it2', h1, h2, h3, h4, h5, h6, h7, h8, h9⟩ :=
    rows_edited_in_place_survive_partial (α := Track) L M f hi ht hc hp fun x hx a r' s1 s2 s3 h1 h2 => by
      have e1 := hrow h1
      have e2 := hrow h2
      obtain ⟨g1, g2, g3, g4⟩ := hf x hx a e1
      rw [e1] at s1 s2 s3 ⊢
      rw [e2]
      exact track_fields_take_place s1 s2 s3 g4 g3 g1 g2
  refine ⟨it, it', d', d2, it2, rows, it2', h1, h2, h3, h4, h5, h6, h7, h8.imp fun x hx y _ hxy => ?_, h9⟩
  obtain ⟨e1, e2, a, r, r', e3, e4, e5, e6⟩ := hxy
  refine ⟨e1, e2, a, hrow e3, ?_⟩
  have e4 := hrow e4
  have e6 := hrow e6
  obtain ⟨g1, g2, -⟩ := hf x hx a (hrow e3)
  rw [e4, e6] at e5
  obtain ⟨z, ⟨c, hz, rfl⟩, hy⟩ := e5
  simp only [Row.plain.injEq, PlainRow.track.injEq] at hy
  rw [hy]
  have : c = (f x.1 x.2.1 a).offsets := by
    obtain ⟨z1, z2⟩ := hz
    cases ho : (f x.1 x.2.1 a).offsets.offsets with
    | none => rw [g2] at ho; exact absurd ho g1.1
    | some o =>
      rw [ho] at z2
      cases c
      cases hh : (f x.1 x.2.1 a).offsets
      rw [hh] at z1 ho
      simp only at z1 z2 ho
      rw [z1, z2, ho]
  rw [this]

/-- C76, for playlists: renaming playlists and folders to names that are not longer, or moving them in the tree,
and flushing, gives a file with exactly the changed rows.  Missing: longer names, see
`longer_name_is_damaged`. -/
theorem renamed_playlists_survive_partial (f : Nat → UInt16 → PlaylistTreeNode → PlaylistTreeNode) {d : Database}
    (hi : d.Intact) {k : Nat} {t : Table}
    (ht : d.content.header.findTable (.plain .playlistTree) = some (k, t)) {l : List (Nat × Page)}
    (hc : d.Chain t.lastPage.val.toNat t.firstPage.val.toNat l)
    (hp : ∀ x ∈ l, x.2.header.pageType = .plain .playlistTree)
    (hf : ∀ x ∈ rowsOf l, ∀ r, x.2.2 = .plain (.playlistTreeNode r) →
      (f x.1 x.2.1 r).name.Storable ∧ (f x.1 x.2.1 r).name.size ≤ r.name.size) :
    ∃ it it' d' d2 it2 rows it2', d.iterRows PlaylistTreeNode = .ok it ∧ it.Edits PlaylistTreeNode f it' ∧
      (d.after it'.pages).flush = .ok d' ∧ Database.openAt d'.io 0 d.dbType = .ok d2 ∧
      d2.content.header = d.content.header ∧
      d2.iterRows PlaylistTreeNode = .ok it2 ∧ it2.Runs PlaylistTreeNode rows it2' ∧
      Pointwise (fun x y => y.1 = x.1 ∧ y.2.1 = x.2.1 ∧
        ∃ r, x.2.2 = .plain (.playlistTreeNode r) ∧ y.2.2 = f x.1 x.2.1 r) (rowsOf l) rows ∧
      ∀ n pg, 1 ≤ n → (∀ x ∈ l, x.1 ≠ n) → d.view n = .ok pg →
        ∃ pg', d2.view n = .ok pg' ∧ pg.ReadBack pg' := by
  have hrow : ∀ {r : Row} {a : PlaylistTreeNode}, RowVariant.fromRow r = some a → r = .plain (.playlistTreeNode a) := by
    intro r a h
    simp only [RowVariant.fromRow] at h
    split at h
    · injection h with h
      rw [h]
    · cases h
  obtain ⟨-, -, -, -, -, -, -, -, -, -, L, -⟩ := row_variants_lawful
  obtain ⟨-, -, -, -, -, -, -, -, -, -, M, -⟩ := row_assign_lawful
  obtain ⟨it, it', d', d2, it2, rows, it2', h1, h2, h3, h4, h5, h6, h7, h8, h9⟩ :=
    rows_edited_in_place_survive_partial (α := PlaylistTreeNode) L M f hi ht hc hp fun x hx a r' s1 s2 s3 h1 h2 => by
      have e1 := hrow h1
      have e2 := hrow h2
      obtain ⟨g1, g2⟩ := hf x hx a e1
      rw [e1] at s1 ⊢
      rw [e2]
      refine packed_takes_place s1 ⟨fun v hv => ?_, trivial, trivial⟩ rfl rfl (by omega)
      change v ∈ [(f x.1 x.2.1 a).name] at hv
      rw [List.mem_singleton] at hv
      rw [hv]
      exact g1
  refine ⟨it, it', d', d2, it2, rows, it2', h1, h2, h3, h4, h5, h6, h7, h8.imp fun x hx y _ hxy => ?_, h9⟩
  obtain ⟨e1, e2, a, r, r', e3, e4, e5, e6⟩ := hxy
  refine ⟨e1, e2, a, hrow e3, ?_⟩
  have e4 := hrow e4
  have e6 := hrow e6
  rw [e4, e6] at e5
  injection e5 with e5
  injection e5

end Rekordcrate
