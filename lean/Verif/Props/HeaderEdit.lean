import Verif.Props.EditExample
import Verif.Props.Flush

/-! # C108: a changed header is stored -/

namespace Rekordcrate

/-! ## Every page keeps its place -/

/-- C108: whatever header is found when a file is opened, it has as many tables as it says, and their page types
are types of this kind of database. -/
theorem open_header_consistent {file : Bytes} {pos : Nat} {db : DatabaseType} {d : Database}
    (h : Database.openAt file pos db = .ok d) : d.content.header.Consistent db := by
  unfold Database.openAt LazyDatabase.read at h
  obtain ⟨r, h6, h⟩ := Res.bind_eq_ok.1 h
  injection h with h
  subst h
  obtain ⟨hd, q, h7, h8⟩ := Rd.bind_eq_ok.1 h6
  rw [Rd.pure_eq_ok] at h8
  obtain ⟨h8, -⟩ := h8
  rw [← h8]
  exact (header_read_write _ _ _ _ _ h7).1

theorem setHeader_storable {d : Database} (hi : d.Intact) {h : Header}
    (hs : h.pageSize = d.content.header.pageSize) (hf : 28 + 16 * h.tables.length ≤ h.pageSize.toNat)
    (hc : h.Consistent d.dbType) : (d.setHeader h).Storable := by
  refine ⟨hc, hf, fun n pg hp => ?_⟩
  change pg.Sound h.pageSize.toNat d.dbType
  rw [hs]
  exact hi.storable.pages n pg hp

theorem setHeader_view {d : Database} {h : Header} (hs : h.pageSize = d.content.header.pageSize) (n : Nat) :
    (d.setHeader h).view n = d.view n := by
  unfold Database.view Database.setHeader
  simp only [hs]

/-- C108: exactly which changed headers are found again.  If the page size stays as it was and the header fits in
the first page, then storing the database and opening the file again gives the changed header if and only if it
has as many tables as it says and the page types of the tables are types of this kind of database. -/
theorem header_edit_stored_iff {d : Database} (hi : d.Intact) {h : Header}
    (hs : h.pageSize = d.content.header.pageSize) (hf : 28 + 16 * h.tables.length ≤ h.pageSize.toNat) :
    (∃ d' d2, (d.setHeader h).flush = .ok d' ∧ Database.openAt d'.io 0 d.dbType = .ok d2 ∧
      d2.content.header = h) ↔
    (h.tables.length = h.numTables.toNat ∧ ∀ t ∈ h.tables, t.pageType.ValidFor d.dbType) := by
  constructor
  · rintro ⟨d', d2, -, h2, rfl⟩
    exact open_header_consistent h2
  · intro hc
    obtain ⟨d', d2, h1, h2, h3, -⟩ := flush_then_reopen (setHeader_storable hi hs hf hc)
    exact ⟨d', d2, h1, h2, h3⟩

/-- C108: such a change of the header leaves the pages alone.  Every page in front of the first unused page of the
changed header is what it was, whether it was in memory or not (offsets in rows that were left to the writer are
filled in); there are no pages behind.  Missing: other page sizes, headers that do not fit in the first page, and
table counts that are wrong, see `table_without_count_is_lost`, `count_without_table_makes_one`,
`changed_page_size_loses_pages` and `long_header_loses_page`. -/
theorem header_edit_keeps_pages_partial {d : Database} (hi : d.Intact) {h : Header}
    (hs : h.pageSize = d.content.header.pageSize) (hf : 28 + 16 * h.tables.length ≤ h.pageSize.toNat)
    (hc : h.Consistent d.dbType) :
    ∃ d' d2, (d.setHeader h).flush = .ok d' ∧ Database.openAt d'.io 0 d.dbType = .ok d2 ∧
      d2.content.header = h ∧
      (∀ n pg, 1 ≤ n → n < h.nextUnusedPage.val.toNat → d.view n = .ok pg →
        ∃ pg', d2.view n = .ok pg' ∧ pg.ReadBack pg') ∧
      ∀ n, 1 ≤ n → h.nextUnusedPage.val.toNat ≤ n → d2.view n = .err (.pageNotPresent n) := by
  have hst := setHeader_storable hi hs hf hc
  obtain ⟨ps, h1, h2, h3, h4, h5⟩ := hst.writes
  have hcont := h2.contains_applyPatches d.io
  have hps : (d.setHeader h).content.header.pageSize.toNat = d.content.header.pageSize.toNat := by
    change h.pageSize.toNat = _
    rw [hs]
  rw [hps] at h3 h5
  refine ⟨_, (d.setHeader h).reopened (applyPatches d.io ps), Database.flush_eq h1, ?_, rfl, ?_, ?_⟩
  · unfold Database.openAt LazyDatabase.read
    have hh : HasAt (applyPatches d.io ps) 0 h.enc := hcont ⟨0, h.enc⟩ (h4 _ (List.mem_cons_self ..))
    change ((Header.read d.dbType >>= fun hd => _) (applyPatches d.io ps) 0 >>= _) = _
    rw [Rd.bind_of_ok (header_roundtrip d.dbType _ hc _ _ hh)]
    rfl
  · intro n pg hn hlt hv
    have key : ∃ a, pg.write d.content.header.pageSize.toNat (n * d.content.header.pageSize.toNat) =
        .ok ((), n * d.content.header.pageSize.toNat + d.content.header.pageSize.toNat, a) ∧
        Contains (applyPatches d.io ps) a := by
      rcases Database.view_cases hv with hp | ⟨hp, q, hr⟩
      · obtain ⟨a, ha1, ha2⟩ := h5 _ pg hp
        rw [Nat.sub_add_cancel hn] at ha1
        exact ⟨a, ha1, fun q hq => hcont q (ha2 q hq)⟩
      · obtain ⟨hso, hcan⟩ := hi.file n pg q hn hp hr
        obtain ⟨a, ha1, ha2⟩ := page_rewrite_contained hr hcan
        obtain ⟨a', hw, hin, -, -⟩ := page_roundtrip hso (n * d.content.header.pageSize.toNat)
        rw [ha1] at hw
        simp only [Res.ok.injEq, Prod.mk.injEq, true_and] at hw
        subst hw
        refine ⟨a, ha1, fun q hq i hi => ?_⟩
        have hold := ha2 q hq i hi
        have hin := hin q hq
        obtain ⟨S, hS⟩ : ∃ S, S = d.content.header.pageSize.toNat := ⟨_, rfl⟩
        rw [← hS] at hin
        have hlen : q.off + i < d.io.length := by
          rcases Nat.lt_or_ge (q.off + i) d.io.length with h | h
          · exact h
          · rw [List.getElem?_eq_none h] at hold
            have := List.getElem?_eq_none_iff.1 hold.symm
            omega
        rw [applyPatches_of_not_covers hlen, hold]
        intro r hr' hc
        obtain ⟨c1, c2⟩ := hc
        have hn1 : 1 * S ≤ n * S := Nat.mul_le_mul_right S hn
        rcases h3 r hr' with h | ⟨m, hm, h6, h7⟩
        · rw [← hS] at h
          omega
        · rw [← hS] at h6 h7
          rcases Nat.lt_trichotomy m n with hlt | rfl | hgt
          · have : (m + 1) * S ≤ n * S := Nat.mul_le_mul_right S hlt
            omega
          · obtain ⟨-, pg0, hpg⟩ := hm
            change d.content.pages[m - 1]? = _ at hpg
            rw [hp] at hpg
            cases hpg
          · have : (n + 1) * S ≤ m * S := Nat.mul_le_mul_right S hgt
            rw [Nat.add_mul] at this
            omega
    obtain ⟨a, ha1, ha2⟩ := key
    obtain ⟨a', hw, -, -, hr⟩ := page_roundtrip (hi.sound hn hv) (n * d.content.header.pageSize.toNat)
    rw [ha1] at hw
    simp only [Res.ok.injEq, Prod.mk.injEq, true_and] at hw
    subst hw
    obtain ⟨pg', q, hr1, hr2⟩ := hr _ ha2
    refine ⟨pg', ?_, hr2⟩
    unfold Database.view Database.reopened
    change (match (List.replicate (h.nextUnusedPage.val.toNat - 1) LazyPage.notLoaded)[n - 1]? with
      | some (.loaded pg) => Res.ok pg
      | some .notLoaded =>
        match Page.read h.pageSize.toNat d.dbType (applyPatches d.io ps) (n * h.pageSize.toNat) with
        | .ok (pg, _) => .ok pg
        | .err e => .err e
        | .panic => .panic
      | none => .err (.pageNotPresent n)) = _
    rw [List.getElem?_replicate, if_pos (by omega)]
    simp only
    rw [hs, hr1]
  · intro n hn hge
    unfold Database.view Database.reopened
    change (match (List.replicate (h.nextUnusedPage.val.toNat - 1) LazyPage.notLoaded)[n - 1]? with
      | some (.loaded pg) => Res.ok pg
      | some .notLoaded => _
      | none => .err (.pageNotPresent n)) = _
    rw [List.getElem?_replicate, if_neg (by omega)]

/-- C108: so the tables of the changed header have the rows of the pages it names: if the pages from the first page
of a table to its last page were `l`, all in front of the first unused page, then after storing and opening again
`iter_rows` gives exactly the rows of these pages, in order.  Missing: as above. -/
theorem header_edit_rows_partial {α : Type} [RowVariant α] (hα : RowVariant.Lawful α) {d : Database} (hi : d.Intact)
    {h : Header} (hs : h.pageSize = d.content.header.pageSize) (hf : 28 + 16 * h.tables.length ≤ h.pageSize.toNat)
    (hk : h.Consistent d.dbType) {k : Nat} {t : Table} (ht : h.findTable (RowVariant.pageType α) = some (k, t))
    {l : List (Nat × Page)} (hc : d.Chain t.lastPage.val.toNat t.firstPage.val.toNat l)
    (hp : ∀ x ∈ l, x.2.header.pageType = RowVariant.pageType α)
    (hu : ∀ x ∈ l, x.1 < h.nextUnusedPage.val.toNat) :
    ∃ d' d2 it rows it', (d.setHeader h).flush = .ok d' ∧ Database.openAt d'.io 0 d.dbType = .ok d2 ∧
      d2.iterRows α = .ok it ∧ it.Runs α rows it' ∧ Pointwise RowStored (rowsOf l) rows := by
  obtain ⟨d', d2, h1, h2, h3, h4, -⟩ := header_edit_keeps_pages_partial hi hs hf hk
  obtain ⟨l', h5, h6⟩ := hc.transport (d' := d2) (R := Page.ReadBack) (fun _ _ h => h.1) fun x hx =>
    h4 x.1 x.2 (hc.view x hx).2.1 (hu x hx) (hc.view x hx).2.2
  have h7 := rowsOf_pointwise (R := fun _ x y => y.1 = x.1 ∧ x.2.Resolved y.2) (P := fun _ => Page.ReadBack)
    (fun n pg pg' hb => by
      obtain ⟨-, hb⟩ := hb
      cases hcont : pg.content with
      | data c =>
        rw [hcont] at hb
        obtain ⟨c', e, -, -, hb⟩ := hb
        exact ⟨c', e, hb⟩
      | index c =>
        rw [hcont] at hb
        exact ⟨c, hb⟩) h6
  have hfit : ∀ x ∈ rowsOf l, x.2.2.Fits (RowVariant.pageType α) := by
    intro x hx
    unfold rowsOf at hx
    obtain ⟨y, hy, hx⟩ := List.mem_flatMap.1 hx
    cases hcont : y.2.content with
    | index c => rw [hcont] at hx; cases hx
    | data c =>
      rw [hcont] at hx
      obtain ⟨z, hz, rfl⟩ := List.mem_map.1 hx
      have := ((hi.sound (hc.view y hy).2.1 (hc.view y hy).2.2).data c hcont).2.1 z hz
      rw [hp y hy] at this
      exact this.2.1
  obtain ⟨it, rows, it', h8, h9, h10, -⟩ := row_iteration_exact hα (d := d2) (by rw [h3]; exact ht) h5
    (fun y hy => by
      obtain ⟨x, hx, -, -, hr⟩ := h7.mem_right hy
      exact hr.fits (hfit x hx))
  refine ⟨d', d2, it, rows, it', h1, h2, h8, h9, (h7.trans h10).imp fun x _ y _ hxy => ?_⟩
  obtain ⟨z, ⟨e1, e2, e3⟩, e4, e5, e6⟩ := hxy
  exact ⟨e4.trans e1, e5.trans e2, z.2.2, e3, e6⟩

/-- C108: a change of the header that leaves the page size and the first unused page alone goes together with
everything said of intact databases: edits of pages and rows before and after it, and storing them. -/
theorem header_edit_intact {d : Database} (hi : d.Intact) {h : Header}
    (hs : h.pageSize = d.content.header.pageSize) (hu : h.nextUnusedPage = d.content.header.nextUnusedPage)
    (hf : 28 + 16 * h.tables.length ≤ h.pageSize.toNat) (hc : h.Consistent d.dbType) :
    (d.setHeader h).Intact ∧ ∀ n, (d.setHeader h).view n = d.view n := by
  refine ⟨⟨setHeader_storable hi hs hf hc, ?_, ?_⟩, setHeader_view hs⟩
  · change d.content.pages.length = h.nextUnusedPage.val.toNat - 1
    rw [hu]
    exact hi.length
  · change ∀ (n : Nat) (pg : Page) (q : Nat), 1 ≤ n → d.content.pages[n - 1]? = some .notLoaded →
      Page.read h.pageSize.toNat d.dbType d.io (n * h.pageSize.toNat) = .ok (pg, q) →
      pg.Sound h.pageSize.toNat d.dbType ∧ pg.Canonical h.pageSize.toNat d.io (n * h.pageSize.toNat)
    rw [hs]
    exact hi.file

/-- C108: a change of the header makes no new pages.  Until the file is opened again, a page behind the last page
of the database is not present, whatever the header says about the first unused page. -/
theorem raised_unused_page_not_present (d : Database) (h : Header) {i : PageIndex}
    (hi : d.content.pages.length < i.val.toNat) :
    (d.setHeader h).loadPage i = .err (.pageNotPresent i.val.toNat) := by
  have h0 : subU i.val.toNat 1 = .ok (i.val.toNat - 1) := if_pos (by omega)
  unfold Database.loadPage
  rw [h0]
  change (match d.content.pages[i.val.toNat - 1]? with
    | none => Res.err (.pageNotPresent i.val.toNat)
    | some (.loaded pg) => _
    | some .notLoaded => _) = _
  rw [List.getElem?_eq_none (by omega)]

/-! ## Cases -/

/-- A change that is stored: another sequence number, more pages for the tracks, and a third table. -/
def changedHeader : Header :=
  { smallHeader with
    sequence := 9
    numTables := 3
    tables := [⟨.plain .tracks, 0, ⟨1⟩, ⟨2⟩⟩, ⟨.plain .playlistTree, 7, ⟨2⟩, ⟨2⟩⟩, ⟨.plain .keys, 0, ⟨2⟩, ⟨2⟩⟩] }

/-- C108: the changed header meets the hypotheses. -/
theorem changedHeader_consistent : changedHeader.Consistent smallDb.dbType := by
  refine ⟨rfl, fun t ht => ?_⟩
  simp only [changedHeader, List.mem_cons, List.not_mem_nil, or_false] at ht
  rcases ht with rfl | rfl | rfl
  · exact ⟨0, rfl⟩
  · exact ⟨7, rfl⟩
  · exact ⟨5, rfl⟩

example : ∃ d' d2, (smallDb.setHeader changedHeader).flush = .ok d' ∧ Database.openAt d'.io 0 .plain = .ok d2 ∧
    d2.content.header = changedHeader ∧ ∃ pg', d2.view 1 = .ok pg' ∧ tracksPage.ReadBack pg' := by
  obtain ⟨d', d2, h1, h2, h3, h4, -⟩ := header_edit_keeps_pages_partial smallFile_intact (h := changedHeader) rfl
    (by decide) changedHeader_consistent
  exact ⟨d', d2, h1, h2, h3, h4 1 tracksPage (by decide) (by decide)
    (view_of_read (size := 288) rfl rfl smallFile_read1)⟩

/-- C108: the changed header, then a page of the database, then the file. -/
example : ∃ d' d2, ((smallDb.setHeader changedHeader).setPage 0 tracksPage).flush = .ok d' ∧
    Database.openAt d'.io 0 .plain = .ok d2 ∧ d2.content.header = changedHeader := by
  have hi := (header_edit_intact smallFile_intact (h := changedHeader) rfl rfl (by decide)
    changedHeader_consistent).1
  have hst : ((smallDb.setHeader changedHeader).setPage 0 tracksPage).Storable := by
    refine ⟨hi.storable.header, hi.storable.headerFits, fun n pg hp => ?_⟩
    match n, hp with
    | 0, hp =>
      change some (LazyPage.loaded tracksPage) = _ at hp
      injection hp with hp
      injection hp with hp
      rw [← hp]
      exact tracksPage_sound
    | 1, hp => cases hp
    | n + 2, hp => cases hp
  obtain ⟨d', d2, h1, h2, h3, -⟩ := flush_then_reopen hst
  exact ⟨d', d2, h1, h2, h3⟩

example : (smallDb.setHeader { smallHeader with nextUnusedPage := ⟨9⟩ }).loadPage ⟨3⟩ = .err (.pageNotPresent 3) :=
  raised_unused_page_not_present _ _ (by decide)

/-- C108: a header in which the playlists come first, for which there are pages. -/
def swappedHeader : Header := { smallHeader with sequence := 9, tables := smallHeader.tables.reverse }

example : ∃ d' d2 it rows it', (smallDb.setHeader swappedHeader).flush = .ok d' ∧
    Database.openAt d'.io 0 .plain = .ok d2 ∧ d2.iterRows PlaylistTreeNode = .ok it ∧
    it.Runs PlaylistTreeNode rows it' ∧ Pointwise RowStored (rowsOf [(2, nodesPage)]) rows := by
  obtain ⟨-, -, -, -, -, -, -, -, -, -, L, -⟩ := row_variants_lawful
  refine header_edit_rows_partial (α := PlaylistTreeNode) L smallFile_intact (h := swappedHeader) rfl (by decide)
    ⟨rfl, fun t ht => ?_⟩ (k := 0) (t := ⟨.plain .playlistTree, 0, ⟨2⟩, ⟨2⟩⟩) (by decide)
    (.last (by decide) (view_of_read (size := 288) rfl rfl smallFile_read2)) ?_ ?_
  · simp only [swappedHeader, smallHeader, List.reverse_cons, List.reverse_nil, List.nil_append, List.cons_append,
      List.mem_cons, List.not_mem_nil, or_false] at ht
    rcases ht with rfl | rfl
    · exact ⟨7, rfl⟩
    · exact ⟨0, rfl⟩
  · intro x hx
    rw [List.mem_singleton.1 hx]
    rfl
  · intro x hx
    rw [List.mem_singleton.1 hx]
    decide

/-- The header that is found when the database with the changed header was stored and the file is opened again. -/
def headerAgain (d : Database) (h : Header) : Option Header :=
  match (d.setHeader h).flush with
  | .ok d' =>
    match Database.openAt d'.io 0 d.dbType with
    | .ok d2 => some d2.content.header
    | _ => none
  | _ => none

/-- C108 fails: a table that is added to the list of tables, but not to the count, is not there when the file is
opened again. -/
theorem table_without_count_is_lost :
    headerAgain smallDb { smallHeader with tables := changedHeader.tables } =
      some { smallHeader with tables := changedHeader.tables.take 2 } := by decide +kernel

/-- C108 fails: if the count is one too high, the bytes behind the header become a table of tracks. -/
theorem count_without_table_makes_one :
    headerAgain smallDb { smallHeader with numTables := 3 } =
      some { smallHeader with numTables := 3, tables := smallHeader.tables ++ [⟨.plain .tracks, 0, ⟨0⟩, ⟨0⟩⟩] } := by
  decide +kernel

/-- C108 fails: with another page size the header is found again, but page 1 is not the page with the track. -/
theorem changed_page_size_loses_pages :
    ∃ d' d2, (smallDb.setHeader { smallHeader with pageSize := 144 }).flush = .ok d' ∧
      Database.openAt d'.io 0 .plain = .ok d2 ∧ d2.content.header = { smallHeader with pageSize := 144 } ∧
      smallDb.view 1 = .ok tracksPage ∧ d2.view 1 ≠ .ok tracksPage := by
  have h : (match (smallDb.setHeader { smallHeader with pageSize := 144 }).flush with
      | .ok d' =>
        match Database.openAt d'.io 0 .plain with
        | .ok d2 => d2.content.header == { smallHeader with pageSize := 144 } && d2.view 1 != .ok tracksPage
        | _ => false
      | _ => false) = true := by decide +kernel
  split at h
  · rename_i d' h1
    split at h
    · rename_i d2 h2
      simp only [Bool.and_eq_true, beq_iff_eq, bne_iff_ne] at h
      exact ⟨d', d2, h1, h2, h.1, view_of_read (size := 288) rfl rfl smallFile_read1, h.2⟩
    · cases h
  · cases h

/-- A header of 300 bytes. -/
def longHeader : Header :=
  { smallHeader with numTables := 17, tables := List.replicate 17 ⟨.plain .tracks, 0, ⟨1⟩, ⟨1⟩⟩ }

/-- C108 fails: a header with so many tables that it does not fit in the first page is written over the next page,
and is found again; the page with the track is not. -/
theorem long_header_loses_page :
    ∃ d' d2, (smallDb.setHeader longHeader).flush = .ok d' ∧
      Database.openAt d'.io 0 .plain = .ok d2 ∧ d2.content.header.tables.length = 17 ∧
      d2.content.header.pageSize = smallHeader.pageSize ∧
      smallDb.view 1 = .ok tracksPage ∧ ∀ pg, d2.view 1 ≠ .ok pg := by
  have h : (match (smallDb.setHeader longHeader).flush with
      | .ok d' =>
        match Database.openAt d'.io 0 .plain with
        | .ok d2 => d2.content.header.tables.length == 17 && d2.content.header.pageSize == smallHeader.pageSize &&
          (match d2.view 1 with | .ok _ => false | _ => true)
        | _ => false
      | _ => false) = true := by decide +kernel
  split at h
  · rename_i d' h1
    split at h
    · rename_i d2 h2
      simp only [Bool.and_eq_true, beq_iff_eq] at h
      refine ⟨d', d2, h1, h2, h.1.1, h.1.2, view_of_read (size := 288) rfl rfl smallFile_read1, fun pg hp => ?_⟩
      have := h.2
      rw [hp] at this
      cases this
    · cases h
  · cases h

end Rekordcrate
