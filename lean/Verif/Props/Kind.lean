import Verif.Props.PageAt
import Verif.Props.RowIter
import Verif.Spec.Kind
import Verif.Props.Table
import Verif.Props.Device

/-! # C102: a file that is opened as one kind of database or as the other

`Database::open` takes the kind from the caller and nothing in the file says which one it is. -/

namespace Rekordcrate
open Rd

/-! ## Numbers at positions -/

theorem U32At.unique {d : Bytes} {p a b : Nat} (ha : U32At d p a) (hb : U32At d p b) : a = b := by
  obtain ⟨x0, x1, x2, x3, h0, h1, h2, h3, rfl⟩ := ha
  obtain ⟨y0, y1, y2, y3, k0, k1, k2, k3, rfl⟩ := hb
  rw [h0] at k0
  rw [h1] at k1
  rw [h2] at k2
  rw [h3] at k3
  cases k0
  cases k1
  cases k2
  cases k3
  rfl

theorem exists_list {α β : Type} {R : Nat → α → β → Prop} {l : List α}
    (h : ∀ (i : Nat) a, l[i]? = some a → ∃ b, R i a b) :
    ∃ l' : List β, l'.length = l.length ∧
      ∀ (i : Nat) a b, l[i]? = some a → l'[i]? = some b → R i a b := by
  induction l generalizing R with
  | nil => exact ⟨[], rfl, fun i a b ha _ => by simp at ha⟩
  | cons a l ih =>
    obtain ⟨b, hb⟩ := h 0 a rfl
    obtain ⟨l', hl, hr⟩ := ih (R := fun i => R (i + 1)) fun i x hx => h (i + 1) x (by simpa using hx)
    refine ⟨b :: l', by simp [hl], fun i x y hx hy => ?_⟩
    rcases i with _ | i
    · simp only [List.getElem?_cons_zero, Option.some.injEq] at hx hy
      subst hx
      subst hy
      exact hb
    · exact hr i x y (by simpa using hx) (by simpa using hy)

/-! ## The header -/

theorem header_other_kind {db db' : DatabaseType} {d : Bytes} {p : Nat} {h : Header} (hh : Header.At db d p h) :
    ∃ h', Header.At db' d p h' ∧ Header.SameButKind db db' h h' := by
  obtain ⟨h0, h1, h2, h3, h4, h5, h6, h7, h8⟩ := hh
  obtain ⟨ts, hl, hr⟩ := exists_list
    (R := fun i (t t' : Table) => Table.At db' d (p + 28 + 16 * i) t' ∧ Table.SameButKind db db' t t')
    (l := h.tables) fun i t ht => by
      obtain ⟨⟨c, hc, e⟩, k1, k2, k3⟩ := h8 i t ht
      exact ⟨{ t with pageType := pageTypeOfCode db' c }, ⟨⟨c, hc, rfl⟩, k1, k2, k3⟩, ⟨c, e, rfl⟩, rfl, rfl, rfl⟩
  refine ⟨{ h with tables := ts }, ⟨h0, h1, by rw [← hl] at h2; exact h2, hl.trans h3, h4, h5, h6, h7,
    fun i t' ht' => ?_⟩, rfl, rfl, rfl, rfl, rfl, hl, fun i t t' ht ht' => (hr i t t' ht ht').2⟩
  have : i < h.tables.length := by rw [← hl]; exact (List.getElem?_eq_some_iff.1 ht').1
  exact (hr i _ t' (List.getElem?_eq_getElem this) ht').1

theorem header_at_unique {db : DatabaseType} {d : Bytes} {p : Nat} {h h' : Header} (hh : Header.At db d p h)
    (hh' : Header.At db d p h') : h = h' := by
  have e1 := header_read_iff.2 ⟨hh, rfl⟩
  have e2 := header_read_iff.2 ⟨hh', rfl⟩
  rw [e1] at e2
  simp only [Res.ok.injEq, Prod.mk.injEq] at e2
  exact e2.1

theorem open_ok_iff {file : Bytes} {pos : Nat} {db : DatabaseType} {d : Database} :
    Database.openAt file pos db = .ok d ↔ ∃ h, Header.At db file pos h ∧
      d = ⟨file, db, h, List.replicate (h.nextUnusedPage.val.toNat - 1) .notLoaded⟩ := by
  have hl : ∀ c q, LazyDatabase.read db file pos = .ok (c, q) ↔ ∃ h, (Header.At db file pos h ∧
      q = pos + 28 + 16 * h.tables.length) ∧
      c = ⟨h, List.replicate (h.nextUnusedPage.val.toNat - 1) .notLoaded⟩ := fun c q => by
    unfold LazyDatabase.read
    simp only [bind_eq_ok, pure_eq_ok, header_read_iff]
    constructor
    · rintro ⟨h, q', h1, e, rfl⟩
      exact ⟨h, h1, e.symm⟩
    · rintro ⟨h, h1, e⟩
      exact ⟨h, q, h1, e.symm, rfl⟩
  constructor
  · intro ho
    unfold Database.openAt at ho
    cases hr : LazyDatabase.read db file pos with
    | ok r =>
      obtain ⟨h, ⟨h1, -⟩, e⟩ := (hl r.1 r.2).1 hr
      rw [hr] at ho
      cases ho
      exact ⟨h, h1, by rw [e]⟩
    | err e => rw [hr] at ho; cases ho
    | panic => rw [hr] at ho; cases ho
  · rintro ⟨h, h1, rfl⟩
    have := (hl _ _).2 ⟨h, ⟨h1, rfl⟩, rfl⟩
    unfold Database.openAt
    rw [this]
    rfl

/-- C102: a file can be opened as one kind of database exactly if it can be opened as the other. -/
theorem opens_as_either_kind (file : Bytes) (pos : Nat) (db db' : DatabaseType) :
    (∃ d, Database.openAt file pos db = .ok d) ↔ ∃ d', Database.openAt file pos db' = .ok d' := by
  have : ∀ db db', (∃ d, Database.openAt file pos db = .ok d) → ∃ d', Database.openAt file pos db' = .ok d' := by
    rintro db db' ⟨d, hd⟩
    obtain ⟨h, h1, -⟩ := open_ok_iff.1 hd
    obtain ⟨h', h2, -⟩ := header_other_kind (db' := db') h1
    exact ⟨_, open_ok_iff.2 ⟨h', h2, rfl⟩⟩
  exact ⟨this _ _, this _ _⟩

/-- C102: the two databases differ in what the codes of the tables stand for and in nothing else, and the header is
stored as the same bytes. -/
theorem opened_as_other_kind {file : Bytes} {pos : Nat} {db db' : DatabaseType} {d d' : Database}
    (h : Database.openAt file pos db = .ok d) (h' : Database.openAt file pos db' = .ok d') :
    Header.SameButKind db db' d.content.header d'.content.header ∧ d'.content.pages = d.content.pages ∧
    d'.io = d.io ∧ d'.content.header.enc = d.content.header.enc := by
  obtain ⟨hd, h1, rfl⟩ := open_ok_iff.1 h
  obtain ⟨hd', h2, rfl⟩ := open_ok_iff.1 h'
  obtain ⟨h'', h3, h4⟩ := header_other_kind (db' := db') h1
  obtain rfl := header_at_unique h2 h3
  obtain ⟨k1, k2, k3, k4, k5, k6, k7⟩ := h4
  refine ⟨⟨k1, k2, k3, k4, k5, k6, k7⟩, by simp only [k3], rfl, ?_⟩
  have ht : hd'.tables.flatMap Table.enc = hd.tables.flatMap Table.enc := by
    have : hd'.tables.map Table.enc = hd.tables.map Table.enc := by
      apply List.ext_getElem (by simp [k6])
      intro i hi hi'
      simp only [List.length_map] at hi hi'
      obtain ⟨⟨c, e1, e2⟩, a1, a2, a3⟩ := k7 i _ _ (List.getElem?_eq_getElem hi') (List.getElem?_eq_getElem hi)
      simp only [List.getElem_map, Table.enc, e1, e2, a1, a2, a3, pageTypeOfCode_enc]
    simp only [List.flatMap, this]
  simp only [Header.enc, k1, k2, k3, k4, k5, ht]

/-! ## Tables -/

theorem pageTypeOfCode_kind (c : UInt32) :
    (∀ t, pageTypeOfCode .plain c ≠ .ext t) ∧ ∀ t, pageTypeOfCode .ext c ≠ .plain t := by
  unfold pageTypeOfCode
  constructor <;> intro t <;> dsimp only <;> split <;> intro h <;> cases h

theorem findFrom_absent {pt : PageType} {ts : List Table} (h : ∀ t ∈ ts, t.pageType ≠ pt) (i : Nat) :
    Header.findFrom pt i ts = none := by
  induction ts generalizing i with
  | nil => rfl
  | cons t ts ih =>
    unfold Header.findFrom
    rw [if_neg (h t (List.mem_cons_self ..)), ih fun x hx => h x (List.mem_cons_of_mem _ hx)]

theorem opened_tables {file : Bytes} {pos : Nat} {db : DatabaseType} {d : Database}
    (h : Database.openAt file pos db = .ok d) : ∀ t ∈ d.content.header.tables, ∃ c, t.pageType = pageTypeOfCode db c := by
  obtain ⟨h, h1, rfl⟩ := open_ok_iff.1 h
  intro t ht
  obtain ⟨i, hi⟩ := List.getElem?_of_mem ht
  obtain ⟨⟨c, -, e⟩, -⟩ := h1.2.2.2.2.2.2.2.2 i t hi
  exact ⟨c, e⟩

/-- C102: a database that is opened as an extended one has no table of a plain type, and one that is opened as a plain
one has no table of an extended type: asking for the pages is an error. -/
theorem no_tables_of_other_kind {file : Bytes} {pos : Nat} {d : Database} :
    (Database.openAt file pos .ext = .ok d → ∀ t, d.iterPages (.plain t) = .err .tableTypeNotPresent) ∧
    (Database.openAt file pos .plain = .ok d → ∀ t, d.iterPages (.ext t) = .err .tableTypeNotPresent) := by
  constructor <;> intro h t <;> unfold Database.iterPages Header.findTable <;> rw [findFrom_absent]
  · intro x hx
    obtain ⟨c, e⟩ := opened_tables h x hx
    rw [e]
    exact (pageTypeOfCode_kind c).2 t
  · intro x hx
    obtain ⟨c, e⟩ := opened_tables h x hx
    rw [e]
    exact (pageTypeOfCode_kind c).1 t

/-- C102: a database that is opened as an extended one gives no rows of any of the fifteen types that can be iterated
over: asking for them is an error, whatever the file holds. -/
theorem no_rows_as_extended {file : Bytes} {pos : Nat} {d : Database} (h : Database.openAt file pos .ext = .ok d) :
    d.iterRows Album = .err .tableTypeNotPresent ∧ d.iterRows Artist = .err .tableTypeNotPresent ∧
    d.iterRows Artwork = .err .tableTypeNotPresent ∧ d.iterRows Color = .err .tableTypeNotPresent ∧
    d.iterRows Genre = .err .tableTypeNotPresent ∧ d.iterRows HistoryPlaylist = .err .tableTypeNotPresent ∧
    d.iterRows HistoryEntry = .err .tableTypeNotPresent ∧ d.iterRows History = .err .tableTypeNotPresent ∧
    d.iterRows Key = .err .tableTypeNotPresent ∧ d.iterRows Label = .err .tableTypeNotPresent ∧
    d.iterRows PlaylistTreeNode = .err .tableTypeNotPresent ∧ d.iterRows PlaylistEntry = .err .tableTypeNotPresent ∧
    d.iterRows ColumnEntry = .err .tableTypeNotPresent ∧ d.iterRows Track = .err .tableTypeNotPresent ∧
    d.iterRows Menu = .err .tableTypeNotPresent := by
  have hp := no_tables_of_other_kind.1 h
  refine ⟨?_, ?_, ?_, ?_, ?_, ?_, ?_, ?_, ?_, ?_, ?_, ?_, ?_, ?_, ?_⟩ <;>
    (unfold Database.iterRows; rw [show RowVariant.pageType _ = PageType.plain _ from rfl, hp]; rfl)

/-! ## Pages -/

theorem page_header_other_kind {db db' : DatabaseType} {d : Bytes} {p : Nat} {h : PageHeader}
    (hh : PageHeader.At db d p h) : ∃ c, U32At d (p + 8) c.toNat ∧ h.pageType = pageTypeOfCode db c ∧
      PageHeader.At db' d p { h with pageType := pageTypeOfCode db' c } := by
  obtain ⟨h0, h1, ⟨c, hc, e⟩, h2⟩ := hh
  exact ⟨c, hc, e, h0, h1, ⟨c, hc, rfl⟩, h2⟩

theorem page_header_at_unique {db : DatabaseType} {d : Bytes} {p : Nat} {h h' : PageHeader}
    (hh : PageHeader.At db d p h) (hh' : PageHeader.At db d p h') : h = h' := by
  have e1 := page_header_read_iff.2 ⟨hh, rfl⟩
  have e2 := page_header_read_iff.2 ⟨hh', rfl⟩
  rw [e1] at e2
  simp only [Res.ok.injEq, Prod.mk.injEq] at e2
  exact e2.1

theorem index_content_at_unique {d : Bytes} {p : Nat} {c c' : IndexPageContent}
    (h : IndexPageContent.At d p c) (h' : IndexPageContent.At d p c') : c = c' := by
  have e1 := index_page_read_iff.2 ⟨h, rfl⟩
  have e2 := index_page_read_iff.2 ⟨h', rfl⟩
  rw [e1] at e2
  simp only [Res.ok.injEq, Prod.mk.injEq] at e2
  exact e2.1

theorem offsets_unique {rows rows' : RowMap} {P : UInt16 → Prop} (h : rows.Sorted) (h' : rows'.Sorted)
    (ho : ∀ o, (∃ row, (o, row) ∈ rows) ↔ P o) (ho' : ∀ o, (∃ row, (o, row) ∈ rows') ↔ P o) :
    rows'.map (·.1) = rows.map (·.1) := by
  have hs : ∀ m : RowMap, m.Sorted → RowMap.Sorted (m.map fun x => (x.1, Row.unknown)) := fun m hm => by
    rw [sorted_iff] at hm ⊢
    exact List.pairwise_map.2 hm
  have hm : ∀ (m : RowMap), (∀ o, (∃ row, (o, row) ∈ m) ↔ P o) →
      ∀ x, x ∈ m.map (fun x => (x.1, Row.unknown)) ↔ P x.1 ∧ x.2 = .unknown := fun m hm x => by
    rw [List.mem_map, ← hm]
    constructor
    · rintro ⟨y, hy, rfl⟩
      exact ⟨⟨y.2, hy⟩, rfl⟩
    · rintro ⟨⟨row, hr⟩, e⟩
      exact ⟨_, hr, by rw [← e]⟩
  have := RowMap.Sorted.ext (hs _ h') (hs _ h) fun x => (hm _ ho' x).trans (hm _ ho x).symm
  have := congrArg (List.map (·.1)) this
  simpa [List.map_map, Function.comp_def] using this

theorem data_content_other_kind {d : Bytes} {p n : Nat} {h h' : PageHeader} {c c' : DataPageContent}
    (hn : h'.packedRowCounts = h.packedRowCounts)
    (hc : DataPageContent.At SoundTextAt d p (p + n) h c) (hc' : DataPageContent.At SoundTextAt d p (p + n) h' c') :
    c'.header = c.header ∧ c'.rowGroups = c.rowGroups ∧ c'.rows.map (·.1) = c.rows.map (·.1) := by
  obtain ⟨a1, a2, a3, a4, a5, a6, a7, a8, a9, a10, a11⟩ := hc
  obtain ⟨b1, b2, b3, b4, b5, b6, b7, b8, b9, b10, b11⟩ := hc'
  refine ⟨?_, ?_, ?_⟩
  · have e1 := dataHeader_read_iff.2 ⟨⟨a1, a2, a3, a4⟩, rfl⟩
    have e2 := dataHeader_read_iff.2 ⟨⟨b1, b2, b3, b4⟩, rfl⟩
    rw [e1] at e2
    simp only [Res.ok.injEq, Prod.mk.injEq] at e2
    exact e2.1.symm
  · have e1 := (groups_read_iff (heap := n)).2 ⟨rfl, a5, a6, a7⟩
    have e2 := (groups_read_iff (heap := n)).2 ⟨rfl, b5, b6, b7⟩
    rw [hn, e1] at e2
    simp only [Res.ok.injEq, Prod.mk.injEq] at e2
    exact e2.1.symm
  · rw [hn] at b9
    exact offsets_unique (sorted_iff.2 a8) (sorted_iff.2 b8) a9 b9

/-- C102: a page that can be read in databases of both kinds is the same one but for its page type, which has the same
code, and its rows, which are at the same offsets. -/
theorem page_as_other_kind {pageSize : Nat} {db db' : DatabaseType} {d : Bytes} {p : Nat} {pg pg' : Page} {q q' : Nat}
    (h : Page.read pageSize db d p = .ok (pg, q)) (h' : Page.read pageSize db' d p = .ok (pg', q')) :
    PageHeader.SameButKind db db' pg.header pg'.header ∧ PageContent.SameButRows pg.content pg'.content ∧ q' = q := by
  obtain ⟨h1, h2⟩ := page_read_iff.1 h
  obtain ⟨h1', h2'⟩ := page_read_iff.1 h'
  obtain ⟨c, -, e, hk⟩ := page_header_other_kind (db' := db') h1
  have eh := page_header_at_unique h1' hk
  have ef : pg'.header.pageFlags = pg.header.pageFlags := by rw [eh]
  refine ⟨?_, ?_⟩
  · rw [eh]
    exact ⟨⟨c, e, rfl⟩, rfl, rfl, rfl, rfl, rfl, rfl, rfl, rfl⟩
  · cases hc : pg.content with
    | index x =>
      cases hc' : pg'.content with
      | index y =>
        rw [hc] at h2
        rw [hc'] at h2'
        obtain ⟨-, k1, rfl⟩ := h2
        obtain ⟨-, k2, rfl⟩ := h2'
        obtain rfl := index_content_at_unique k1 k2
        exact ⟨rfl, rfl⟩
      | data y =>
        rw [hc] at h2
        rw [hc'] at h2'
        have a := h2.1
        have b := h2'.1
        rw [ef, a] at b
        cases b
    | data x =>
      cases hc' : pg'.content with
      | index y =>
        rw [hc] at h2
        rw [hc'] at h2'
        have a := h2.1
        have b := h2'.1
        rw [ef, a] at b
        cases b
      | data y =>
        rw [hc] at h2
        rw [hc'] at h2'
        obtain ⟨-, n, e1, k1, rfl⟩ := h2
        obtain ⟨-, n', e2, k2, rfl⟩ := h2'
        rw [e1] at e2
        cases e2
        exact ⟨data_content_other_kind (by rw [eh]) k1 k2, rfl⟩

/-- C102: an index page can be read in a database of one kind exactly if it can be read in one of the other, and it is
stored as the same bytes. -/
theorem index_page_as_other_kind {pageSize : Nat} {db db' : DatabaseType} {d : Bytes} {p : Nat} {pg : Page} {q : Nat}
    {c : IndexPageContent} (h : Page.read pageSize db d p = .ok (pg, q)) (hi : pg.content = .index c) :
    ∃ pg', Page.read pageSize db' d p = .ok (pg', q) ∧ pg'.content = .index c ∧
      PageHeader.SameButKind db db' pg.header pg'.header ∧ pg'.write pageSize = pg.write pageSize := by
  obtain ⟨h1, h2⟩ := page_read_iff.1 h
  obtain ⟨x, -, e, hk⟩ := page_header_other_kind (db' := db') h1
  rw [hi] at h2
  refine ⟨⟨{ pg.header with pageType := pageTypeOfCode db' x }, .index c⟩, page_read_iff.2 ⟨hk, h2⟩, rfl,
    ⟨⟨x, e, rfl⟩, rfl, rfl, rfl, rfl, rfl, rfl, rfl, rfl⟩, ?_⟩
  unfold Page.write PageHeader.enc
  simp only [hi, e, pageTypeOfCode_enc]

/-- C102: a data page with a code that the other kind of database does not know is read there with `Unknown` for each
of its rows. -/
theorem data_page_as_unknown {pageSize : Nat} {db db' : DatabaseType} {d : Bytes} {p : Nat} {pg : Page} {q : Nat}
    {c : DataPageContent} (h : Page.read pageSize db d p = .ok (pg, q)) (hd : pg.content = .data c) {x : UInt32}
    (hx : U32At d (p + 8) x.toNat) (hu : pageTypeOfCode db' x = .unknown x) :
    Page.read pageSize db' d p =
      .ok (⟨{ pg.header with pageType := .unknown x },
        .data { c with rows := c.rows.map fun r => (r.1, .unknown) }⟩, q) := by
  obtain ⟨h1, h2⟩ := page_read_iff.1 h
  obtain ⟨y, hy, -, hk⟩ := page_header_other_kind (db' := db') h1
  have := UInt32.toNat_inj.1 (hx.unique hy)
  subst this
  rw [hu] at hk
  rw [hd] at h2
  obtain ⟨k0, n, k1, k2, k3⟩ := h2
  refine page_read_iff.2 ⟨hk, k0, n, k1, ?_, k3⟩
  obtain ⟨a1, a2, a3, a4, a5, a6, a7, a8, a9, a10, a11⟩ := k2
  refine ⟨a1, a2, a3, a4, a5, a6, a7, List.pairwise_map.2 a8, fun o => ?_, fun o row hr => ?_, by simpa using a11⟩
  · rw [← a9]
    constructor
    · rintro ⟨row, hr⟩
      obtain ⟨r, hr', e⟩ := List.mem_map.1 hr
      cases e
      exact ⟨_, hr'⟩
    · rintro ⟨row, hr⟩
      exact ⟨_, List.mem_map.2 ⟨_, hr, rfl⟩⟩
  · obtain ⟨r, -, e⟩ := List.mem_map.1 hr
    cases e
    exact ⟨_, rfl⟩

/-! ## A file of the other kind that is misread -/

/-- An extended database with one page of 96 bytes, on which one track has one tag. -/
def trackTagFile (track tag : UInt8) : Bytes :=
  Header.enc ⟨96, 1, ⟨3⟩, 5, 1, [⟨.ext .trackTag, 0, ⟨2⟩, ⟨2⟩⟩]⟩ ++ List.replicate 52 0 ++ List.replicate 96 0 ++
    [0, 0, 0, 0, 2, 0, 0, 0, 4, 0, 0, 0, 3, 0, 0, 0, 0, 0, 0, 0, 0, 0, 0, 0] ++ PackedRowCounts.enc ⟨1, 1⟩ ++
    [0x24, 0, 0, 16, 0] ++ [1, 0, 0, 0, 0, 0, 0, 0] ++
    [0, 0, 0, 0, track, 0, 0, 0, tag, 0, 0, 0, 3, 0, 0, 0] ++ List.replicate 36 0 ++ [1, 0, 0, 0]

/-- The database that is opened from this file. -/
def trackTagDb (track tag : UInt8) (db : DatabaseType) (t : PageType) : Database :=
  ⟨trackTagFile track tag, db, ⟨96, 1, ⟨3⟩, 5, 1, [⟨t, 0, ⟨2⟩, ⟨2⟩⟩]⟩, [.notLoaded, .notLoaded]⟩

/-- Its page with the rows. -/
def trackTagPage (t : PageType) (row : Row) : Page :=
  ⟨⟨⟨2⟩, t, ⟨3⟩, 0, 0, ⟨1, 1⟩, .newDataPage, 0, 16⟩,
    .data ⟨⟨1, 0, 0, 0⟩, [⟨List.replicate 16 0, 1, 0⟩], [(0, row)]⟩⟩

/-- C102: the full property is false: the tags of the tracks of an extended database are read as labels if it is opened
as a plain one. The tag 9 of the track 7 becomes a label with the identifier 0 whose name is two null characters. -/
theorem track_tags_read_as_labels :
    (∃ d, Database.openAt (trackTagFile 7 9) 0 .ext = .ok d ∧
      d.view 2 = .ok (trackTagPage (.ext .trackTag) (.ext (.trackTag ⟨7, 9, 3⟩)))) ∧
    ∃ d, Database.openAt (trackTagFile 7 9) 0 .plain = .ok d ∧
      (d.allRows Label).1 = .ok [⟨0, .short [0, 0]⟩] := by
  refine ⟨⟨trackTagDb 7 9 .ext (.ext .trackTag), by decide +kernel, by decide +kernel⟩,
    trackTagDb 7 9 .plain (.plain .labels), by decide +kernel, ?_⟩
  obtain ⟨rs, h1, h2, -⟩ := all_rows_of_file (α := Label) (k := 0) (d := trackTagDb 7 9 .plain (.plain .labels))
    (t := ⟨.plain .labels, 0, ⟨2⟩, ⟨2⟩⟩) row_variants_lawful.2.2.2.2.2.2.2.2.2.1 (by decide +kernel)
    (l := [(2, trackTagPage (.plain .labels) (.plain (.label ⟨0, .short [0, 0]⟩)))])
    (.last (by decide) (by decide +kernel)) (by simp [trackTagDb]) (by simp [RowVariant.pageType, trackTagPage])
  rw [h1]
  rw [show rowsOf [(2, trackTagPage (.plain .labels) (.plain (.label ⟨0, .short [0, 0]⟩)))] =
    [(2, 0, .plain (.label ⟨0, .short [0, 0]⟩))] from rfl] at h2
  cases h2 with
  | cons h ht =>
    cases ht
    simp only [RowVariant.fromRow, Option.some.injEq] at h
    rw [← h]

/-- C102: the tag of the track 1 makes the program panic. -/
theorem track_tag_panics : ∃ d, Database.openAt (trackTagFile 1 9) 0 .plain = .ok d ∧
    (d.allRows Label).1 = .panic := by
  refine ⟨trackTagDb 1 9 .plain (.plain .labels), by decide +kernel, ?_⟩
  have h : ((trackTagDb 1 9 .plain (.plain .labels)).pagesOf ⟨.plain .labels, 0, ⟨2⟩, ⟨2⟩⟩).next.1 = .panic := by
    decide +kernel
  have hi : (trackTagDb 1 9 .plain (.plain .labels)).iterRows Label =
      .ok ⟨(trackTagDb 1 9 .plain (.plain .labels)).pagesOf ⟨.plain .labels, 0, ⟨2⟩, ⟨2⟩⟩, 0, []⟩ := by
    decide +kernel
  unfold Database.allRows Database.collectRows
  rw [hi]
  simp only
  rw [RowIterator.collect.eq_def]
  have hn : RowIterator.next Label ⟨(trackTagDb 1 9 .plain (.plain .labels)).pagesOf ⟨.plain .labels, 0, ⟨2⟩, ⟨2⟩⟩, 0, []⟩ =
      (.panic, ⟨((trackTagDb 1 9 .plain (.plain .labels)).pagesOf ⟨.plain .labels, 0, ⟨2⟩, ⟨2⟩⟩).next.2, 0, []⟩) := by
    rw [RowIterator.next_nil rfl]
    cases hn : ((trackTagDb 1 9 .plain (.plain .labels)).pagesOf ⟨.plain .labels, 0, ⟨2⟩, ⟨2⟩⟩).next with
    | mk r pages =>
      rw [hn] at h
      simp only at h
      subst h
      rfl
  split <;> rename_i he <;> rw [hn] at he <;> cases he

/-! ## Examples -/

/-- C102: the file opens as both kinds, with the same header but for the type of the table. -/
example : Database.openAt (trackTagFile 7 9) 0 .ext = .ok (trackTagDb 7 9 .ext (.ext .trackTag)) ∧
    Database.openAt (trackTagFile 7 9) 0 .plain = .ok (trackTagDb 7 9 .plain (.plain .labels)) := by
  constructor <;> decide +kernel

/-- C102: the database of genres, opened as an extended one, has a page with `Unknown` for its genre. -/
example : ∃ pg, Page.read 96 .plain (exampleFile .genres 1 3) 192 = .ok (pg, 288) ∧
    Page.read 96 .ext (exampleFile .genres 1 3) 192 = .ok (⟨{ pg.header with pageType := .unknown 1 },
      .data ⟨⟨1, 0, 0, 0⟩, [⟨List.replicate 16 0, 1, 0⟩], [(0, .unknown)]⟩⟩, 288) := by
  refine ⟨exampleDbPage 2, by decide +kernel, ?_⟩
  exact data_page_as_unknown (db := .plain) (pg := exampleDbPage 2)
    (c := ⟨⟨1, 0, 0, 0⟩, [⟨List.replicate 16 0, 1, 0⟩], [(0, .plain (.genre ⟨7, .short [0x41]⟩))]⟩) (x := 1)
    (by decide +kernel) (by decide +kernel)
    ⟨1, 0, 0, 0, by decide +kernel, by decide +kernel, by decide +kernel, by decide +kernel, by decide⟩ (by decide)

/-- C102: its index page is read as the same index page. -/
example : ∃ pg pg' c, Page.read 96 .plain (exampleFile .genres 1 3) 96 = .ok (pg, 156) ∧ pg.content = .index c ∧
    Page.read 96 .ext (exampleFile .genres 1 3) 96 = .ok (pg', 156) ∧ pg'.content = .index c := by
  have h : Page.read 96 .plain (exampleFile .genres 1 3) 96 = .ok (exampleDbPage 1, 156) := by decide +kernel
  have hc : (exampleDbPage 1).content = .index ⟨⟨0x1fff, 0x1fff, 0, ⟨1⟩, ⟨2⟩, 0, 0x1fff⟩, []⟩ := by decide +kernel
  obtain ⟨pg', h1, h2, -⟩ := index_page_as_other_kind (db' := .ext) h hc
  exact ⟨_, pg', _, h, hc, h1, h2⟩

/-- C102: asking the database of genres for its genres is an error if it was opened as an extended one. -/
example : ∃ d, Database.openAt (exampleFile .genres 1 3) 0 .ext = .ok d ∧
    d.iterRows Genre = .err .tableTypeNotPresent := by
  obtain ⟨d, hd⟩ := (opens_as_either_kind _ 0 .plain .ext).1 ⟨_, exampleDb_open⟩
  exact ⟨d, hd, (no_rows_as_extended hd).2.2.2.2.1⟩

end Rekordcrate
