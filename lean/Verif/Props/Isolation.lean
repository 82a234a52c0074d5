import Verif.Props.Again
import Verif.Props.Truncate
import Verif.Spec.Isolation

/-! # C84: damage elsewhere in the file -/

namespace Rekordcrate

open Rd

/-! ## Rows that were read have their offsets -/

/-- The row has offsets, if rows of its kind have any. -/
def Row.OffsetsKnown : Row → Prop
  | .plain (.album r) => r.offsets.offsets ≠ none
  | .plain (.artist r) => r.offsets.offsets ≠ none
  | .plain (.track r) => r.offsets.offsets ≠ none
  | .ext (.tag r) => r.offsets.offsets ≠ none
  | _ => True

theorem OffsetContainer.read_known {T : Type} [OffsetItems T] {offset start : Nat} {size : OffsetSize} {d : Bytes}
    {c : OffsetContainer T} {q : Nat} (h : (OffsetContainer.read offset size : Rd (OffsetContainer T)) d start = .ok (c, q)) :
    c.offsets ≠ none := by
  obtain ⟨-, -, a, vs, rfl, -⟩ := OffsetContainer.read_eq_ok h
  simp

theorem Row.read_known {r : Row} {t : PageType} {img : Bytes} {p q : Nat} (h : Row.read t img p = .ok (r, q)) :
    r.OffsetsKnown := by
  cases t with
  | unknown c =>
    have h : (Pure.pure Row.unknown : Rd Row) img p = _ := h
    rw [pure_eq_ok] at h
    obtain ⟨rfl, rfl⟩ := h
    trivial
  | plain t =>
    obtain ⟨r', q1, h1, h⟩ := bind_eq_ok.1 (show (PlainRow.read t >>= _ : Rd _) img p = _ from h)
    rw [pure_eq_ok] at h
    obtain ⟨rfl, rfl⟩ := h
    cases r' with
    | album r =>
      cases t <;> (obtain ⟨x, q2, h2, h⟩ := bind_eq_ok.1 h1; rw [pure_eq_ok] at h; obtain ⟨h, -⟩ := h) <;>
        first
        | (injection h with h; subst h; exact OffsetContainer.read_known (Album.head_inv h2).2)
        | cases h
    | artist r =>
      cases t <;> (obtain ⟨x, q2, h2, h⟩ := bind_eq_ok.1 h1; rw [pure_eq_ok] at h; obtain ⟨h, -⟩ := h) <;>
        first
        | (injection h with h; subst h; exact OffsetContainer.read_known (Artist.head_inv h2).2)
        | cases h
    | track r =>
      cases t <;> (obtain ⟨x, q2, h2, h⟩ := bind_eq_ok.1 h1; rw [pure_eq_ok] at h; obtain ⟨h, -⟩ := h) <;>
        first
        | (injection h with h; subst h; exact OffsetContainer.read_known (Track.head_inv h2).2)
        | cases h
    | _ => trivial
  | ext t =>
    obtain ⟨r', q1, h1, h⟩ := bind_eq_ok.1 (show (ExtRow.read t >>= _ : Rd _) img p = _ from h)
    rw [pure_eq_ok] at h
    obtain ⟨rfl, rfl⟩ := h
    cases r' with
    | tag r =>
      cases t <;> (obtain ⟨x, q2, h2, h⟩ := bind_eq_ok.1 h1; rw [pure_eq_ok] at h; obtain ⟨h, -⟩ := h) <;>
        first
        | (injection h with h; subst h; exact OffsetContainer.read_known (TagOrCategory.head_inv h2).2)
        | cases h
    | _ => trivial

theorem OffsetContainer.Resolved.eq {T : Type} [OffsetItems T] {N : Nat} {size : OffsetSize} {a b : OffsetContainer T}
    (h : Resolved N size a b) (hk : a.offsets ≠ none) : b = a := by
  obtain ⟨h1, h2⟩ := h
  cases ha : a.offsets with
  | none => exact absurd ha hk
  | some x =>
    rw [ha] at h2
    cases a; cases b
    simp only at h1 h2 ha
    rw [h1, h2, ha]

theorem Row.Resolved.eq {a b : Row} (h : a.Resolved b) (hk : a.OffsetsKnown) : b = a := by
  unfold Row.Resolved at h
  split at h
  · obtain ⟨x, ⟨o, g1, rfl⟩, rfl⟩ := h; rw [g1.eq hk]
  · obtain ⟨x, ⟨o, g1, rfl⟩, rfl⟩ := h; rw [g1.eq hk]
  · obtain ⟨x, ⟨o, g1, rfl⟩, rfl⟩ := h; rw [g1.eq hk]
  · obtain ⟨x, ⟨o, g1, rfl⟩, rfl⟩ := h; rw [g1.eq hk]
  · exact h

theorem rows_resolved_eq {xs ys : RowMap} (h : Pointwise (fun x y => y.1 = x.1 ∧ x.2.Resolved y.2) xs ys)
    (hk : ∀ x ∈ xs, x.2.OffsetsKnown) : ys = xs := by
  induction h with
  | nil => rfl
  | cons hr _ ih =>
    rename_i a b as bs _
    rw [ih fun x hx => hk x (List.mem_cons_of_mem _ hx)]
    have := hr.2.eq (hk a (List.mem_cons_self ..))
    cases a; cases b
    simp only at hr this
    rw [hr.1, this]

theorem Page.read_known {pageSize : Nat} {db : DatabaseType} {img : Bytes} {p q : Nat} {pg : Page}
    (h : Page.read pageSize db img p = .ok (pg, q)) :
    ∀ c, pg.content = .data c → ∀ x ∈ c.rows, x.2.OffsetsKnown := by
  intro c hc x hx
  obtain ⟨-, -, h⟩ := Page.read_eq_ok h
  rcases Page.content_read_inv h with ⟨-, d, hd, hr⟩ | ⟨-, d, hd, -⟩
  · rw [hc] at hd
    injection hd with hd
    subst hd
    obtain ⟨-, -, -, -, -, -, -, -, -, -, hrows⟩ := DataPageContent.read_inv hr
    obtain ⟨q, hq⟩ := hrows x hx
    exact Row.read_known hq
  · rw [hc] at hd; cases hd

/-! ## Pages -/

theorem AgreeOn.hasAt {img img' : Bytes} {lo hi p : Nat} {bs : Bytes} (h : AgreeOn img img' lo hi)
    (hb : HasAt img p bs) (h1 : lo ≤ p) (h2 : p + bs.length ≤ hi) : HasAt img' p bs := by
  intro i hi'
  rw [← h (p + i) (by omega) (by omega)]
  exact hb i hi'

/-- C84: what a file holds outside a page does not matter for reading the page, if the page is one that could be
stored and is in the form of the writer. -/
theorem page_isolated_partial {pageSize : Nat} {db : DatabaseType} {img img' : Bytes} {p q : Nat} {pg : Page}
    (h : Page.read pageSize db img p = .ok (pg, q)) (hs : pg.Sound pageSize db) (hc : pg.Canonical pageSize img p)
    (ha : AgreeOn img img' p (p + pageSize)) :
    ∃ pg' q', Page.read pageSize db img' p = .ok (pg', q') ∧ pg.SameRows pg' := by
  obtain ⟨ps, h1, h2⟩ := page_rewrite_contained h hc
  obtain ⟨ps', h3, h4, -, h5⟩ := page_roundtrip hs p
  rw [h1] at h3
  simp only [Res.ok.injEq, Prod.mk.injEq, true_and] at h3
  subst h3
  obtain ⟨pg', q', h6, h7, h8⟩ := h5 img' fun x hx => ha.hasAt (h2 x hx) (h4 x hx).1 (h4 x hx).2
  refine ⟨pg', q', h6, h7, ?_⟩
  cases hp : pg.content with
  | index c => rw [hp] at h8; exact h8
  | data c =>
    rw [hp] at h8
    obtain ⟨c', g1, g2, g3, g4⟩ := h8
    exact ⟨c', g1, g2, rows_resolved_eq g4 (Page.read_known h c hp), g3⟩

/-! ## Tables -/

/-- C84: opening a file only depends on the bytes of its header. -/
theorem open_isolated {db : DatabaseType} {file file' : Bytes} {d : Database} (ho : Database.openAt file 0 db = .ok d)
    (ha : AgreeOn file file' 0 d.content.header.enc.length) :
    Database.openAt file' 0 db = .ok { d with io := file' } := by
  unfold Database.openAt LazyDatabase.read at ho ⊢
  obtain ⟨r, h1, h⟩ := Res.bind_eq_ok.1 ho
  injection h with h
  subst h
  obtain ⟨hd, q, h2, h3⟩ := bind_eq_ok.1 h1
  rw [pure_eq_ok] at h3
  obtain ⟨h3, -⟩ := h3
  rw [← h3] at ha ⊢
  have hc := Header.read_consistent h2
  obtain ⟨_, hb, -, rfl⟩ := Header.inv db _ _ _ _ h2
  rw [bind_of_ok (Header.rt db hd hc _ _ (ha.hasAt hb (Nat.le_refl _) (by simp only [Nat.zero_add]; exact Nat.le_refl _)))]
  rfl

theorem rowsOf_same {l l' : List (Nat × Page)} (h : Pointwise (fun x y => y.1 = x.1 ∧ x.2.SameRows y.2) l l') :
    rowsOf l' = rowsOf l := by
  induction h with
  | nil => rfl
  | cons hr _ ih =>
    rename_i a b as bs _
    unfold rowsOf at ih ⊢
    rw [List.flatMap_cons, List.flatMap_cons, ih]
    congr 1
    obtain ⟨n, pg⟩ := a
    obtain ⟨n', pg'⟩ := b
    obtain ⟨h1, -, h2⟩ := hr
    simp only at h1 h2 ⊢
    subst h1
    cases hc : pg.content with
    | index c => rw [hc] at h2; rw [h2]
    | data c =>
      rw [hc] at h2
      obtain ⟨c', g1, -, g3, -⟩ := h2
      rw [g1]
      simp only
      rw [g3]

/-- C84: a table whose pages could be stored and are in the form of the writer has the same pages and rows in every
file that agrees on these pages. -/
theorem trail_isolated_partial {db : DatabaseType} {file file' : Bytes} {c : LazyDatabase} {t : Table}
    {l : List (Nat × Page)} (hl : Database.TrailOf ⟨file, db, c⟩ t l (.ok ()))
    (hn : ∀ x ∈ c.pages, x = .notLoaded)
    (hs : ∀ x ∈ l, x.2.Sound c.header.pageSize.toNat db ∧
      x.2.Canonical c.header.pageSize.toNat file (x.1 * c.header.pageSize.toNat))
    (ha : ∀ x ∈ l, AgreeOn file file' (x.1 * c.header.pageSize.toNat)
      (x.1 * c.header.pageSize.toNat + c.header.pageSize.toNat)) :
    ∃ l', Database.TrailOf ⟨file', db, c⟩ t l' (.ok ()) ∧
      Pointwise (fun x y => y.1 = x.1 ∧ x.2.SameRows y.2) l l' ∧ rowsOf l' = rowsOf l := by
  have view : ∀ {n : Nat} {pg : Page}, Database.view ⟨file, db, c⟩ n = .ok pg →
      pg.Sound c.header.pageSize.toNat db ∧ pg.Canonical c.header.pageSize.toNat file (n * c.header.pageSize.toNat) →
      AgreeOn file file' (n * c.header.pageSize.toNat) (n * c.header.pageSize.toNat + c.header.pageSize.toNat) →
      ∃ pg', Database.view ⟨file', db, c⟩ n = .ok pg' ∧ pg.SameRows pg' := by
    intro n pg hv hs ha
    unfold Database.view at hv ⊢
    simp only at hv ⊢
    cases hp : c.pages[n - 1]? with
    | none => rw [hp] at hv; cases hv
    | some x =>
      have := hn x (List.mem_of_getElem? hp)
      subst this
      rw [hp] at hv
      simp only at hv ⊢
      cases hr : Page.read c.header.pageSize.toNat db file (n * c.header.pageSize.toNat) with
      | err e => rw [hr] at hv; cases hv
      | panic => rw [hr] at hv; cases hv
      | ok x =>
        rw [hr] at hv
        injection hv with hv
        subst hv
        obtain ⟨pg', q', h1, h2⟩ := page_isolated_partial (pg := x.1) (q := x.2) hr hs.1 hs.2 ha
        exact ⟨pg', by rw [h1], h2⟩
  unfold Database.TrailOf at hl ⊢
  generalize hr : (Res.ok () : Res Unit) = r at hl
  have : ∃ l', Database.Trail ⟨file', db, c⟩ t.lastPage.val.toNat 1 t.firstPage.val.toNat l' r ∧
      Pointwise (fun x y => y.1 = x.1 ∧ x.2.SameRows y.2) l l' := by
    generalize 1 = lo at hl ⊢
    generalize t.firstPage.val.toNat = n at hl ⊢
    generalize t.lastPage.val.toNat = last at hl ⊢
    induction hl with
    | last hlo hv =>
      obtain ⟨pg', h1, h2⟩ := view hv (hs _ (List.mem_cons_self ..)) (ha _ (List.mem_cons_self ..))
      exact ⟨_, .last hlo h1, .cons ⟨rfl, h2⟩ .nil⟩
    | link hlo hne hv _ ih =>
      obtain ⟨pg', h1, h2⟩ := view hv (hs _ (List.mem_cons_self ..)) (ha _ (List.mem_cons_self ..))
      obtain ⟨l', h3, h4⟩ := ih (fun x hx => hs x (List.mem_cons_of_mem _ hx))
        (fun x hx => ha x (List.mem_cons_of_mem _ hx)) hr
      exact ⟨_, .link hlo hne h1 (by rw [h2.1]; exact h3), .cons ⟨rfl, h2⟩ h4⟩
    | back => cases hr
    | fails => cases hr
    | panics => cases hr
  obtain ⟨l', h1, h2⟩ := this
  exact ⟨l', h1, h2, rowsOf_same h2⟩

/-- C84: whatever happens to the file outside the header and the pages of a table, loops over this table give the
same results. -/
theorem rows_isolated_partial {db : DatabaseType} {file file' : Bytes} {d : Database}
    (ho : Database.openAt file 0 db = .ok d) (hh : AgreeOn file file' 0 d.content.header.enc.length)
    {α : Type} [RowVariant α] {before after : List Table} {t : Table} {l : List (Nat × Page)}
    (ht : d.content.header.tables = before ++ t :: after) (hp : t.pageType = RowVariant.pageType α)
    (hb : ∀ t' ∈ before, t'.pageType ≠ RowVariant.pageType α) (hl : d.TrailOf t l (.ok ()))
    (hs : ∀ x ∈ l, x.2.Sound d.content.header.pageSize.toNat db ∧
      x.2.Canonical d.content.header.pageSize.toNat file (x.1 * d.content.header.pageSize.toNat))
    (ha : ∀ x ∈ l, AgreeOn file file' (x.1 * d.content.header.pageSize.toNat)
      (x.1 * d.content.header.pageSize.toNat + d.content.header.pageSize.toNat)) :
    ∃ d', Database.openAt file' 0 db = .ok d' ∧ ∀ (β : Type) (f : α → Res β),
      (d'.collectRows α f).1 = (d.collectRows α f).1 := by
  refine ⟨_, open_isolated ho hh, fun β f => ?_⟩
  obtain ⟨-, hio, hdb, -, hnl⟩ := open_reads_header ho
  obtain ⟨io, db', c⟩ := d
  simp only at hio hdb ht hs ha
  subst hio hdb
  have hn : ∀ x ∈ c.pages, x = .notLoaded := by
    intro x hx
    cases x with
    | notLoaded => rfl
    | loaded pg =>
      obtain ⟨i, hi⟩ := List.mem_iff_getElem?.1 hx
      exact absurd ⟨by omega, pg, hi⟩ (hnl (i + 1))
  obtain ⟨l', h1, -, h2⟩ := trail_isolated_partial hl hn hs ha
  obtain ⟨out, h3, hu⟩ := table_exists_unique (α := α) (⟨io, db', c⟩ : Database) f
  obtain ⟨out', -, hu'⟩ := table_exists_unique (α := α) (⟨file', db', c⟩ : Database) f
  rw [hu' _ (collect_rows_table _ f).1, hu _ (collect_rows_table _ f).1]
  refine (hu' _ ?_).symm
  cases h3 with
  | missing hm => exact absurd hp (hm t (by rw [ht]; simp))
  | rows ht' hp' hb' hl' hv =>
    rename_i t' l2 r
    have := first_unique (ht'.symm.trans ht) hp' hp hb' hb
    subst this
    obtain ⟨rfl, rfl⟩ := hl'.unique hl
    rw [← h2] at hv
    exact .rows ht hp hb h1 hv

/-! ## Example and witness -/

/-- C84: the tracks of the example file can be read if the page with the playlists is overwritten. -/
example : ∃ d', Database.openAt (smallFile.take 576 ++ List.replicate 288 0xff) 0 .plain = .ok d' ∧
    ∀ (β : Type) (f : Track → Res β), (d'.collectRows Track f).1 = (smallDb.collectRows Track f).1 := by
  have agree : ∀ {hi : Nat}, hi ≤ 576 → ∀ {lo : Nat}, AgreeOn smallFile (smallFile.take 576 ++ List.replicate 288 0xff) lo hi := by
    intro hi hh lo i _ h2
    have hlen : (smallFile.take 576).length = 576 := by decide +kernel
    rw [List.getElem?_append_left (by omega), List.getElem?_take, if_pos (by omega)]
  have ht : smallDb.content.header.tables = [] ++ ⟨.plain .tracks, 0, ⟨1⟩, ⟨1⟩⟩ ::
      [⟨.plain .playlistTree, 0, ⟨2⟩, ⟨2⟩⟩] := rfl
  have hl : smallDb.TrailOf ⟨.plain .tracks, 0, ⟨1⟩, ⟨1⟩⟩ [(1, tracksPage)] (.ok ()) :=
    .last (Nat.le_refl 1) smallDb_view1
  refine rows_isolated_partial (α := Track) smallFile_open (agree (by decide)) ht rfl (fun _ h => by cases h) hl ?_ ?_
  · intro x hx
    rw [List.mem_singleton] at hx
    subst hx
    exact ⟨tracksPage_sound, tracksPage_exact⟩
  · intro x hx
    rw [List.mem_singleton] at hx
    subst hx
    exact agree (by decide)

/-- C84 is false in full: rows can lie outside their page, so that damage to the bytes after the page changes them. -/
theorem row_outside_page_damaged : ∃ file' d d' pg pg', AgreeOn runawayFile file' 0 192 ∧
    Database.openAt runawayFile 0 .plain = .ok d ∧ Database.openAt file' 0 .plain = .ok d' ∧
    d.content.header.pageSize = 96 ∧ d.view 1 = .ok pg ∧ d'.view 1 = .ok pg' ∧
    (rowsOf [(1, pg)]).map (fun x => x.2.2) = [.plain (.genre ⟨7, .long (.isrc [0x41, 0x42])⟩)] ∧
    (rowsOf [(1, pg')]).map (fun x => x.2.2) = [.plain (.genre ⟨8, .long (.isrc [0x41, 0x42])⟩)] := by
  have agree : ∀ i : Fin 192, runawayFile[i.val]? = (runawayFile.set 192 8)[i.val]? := by decide +kernel
  have ho : Database.openAt (runawayFile.set 192 8) 0 .plain = .ok ⟨runawayFile.set 192 8, .plain, runawayContent⟩ := by
    decide +kernel
  have ho' : Database.openAt runawayFile 0 .plain = .ok ⟨runawayFile, .plain, runawayContent⟩ := by decide +kernel
  obtain ⟨pg, h1, h2⟩ := view_rows (file := runawayFile) (c := runawayContent)
    (rows := [.plain (.genre ⟨7, .long (.isrc [0x41, 0x42])⟩)]) rfl rfl (by decide +kernel)
  obtain ⟨pg', h3, h4⟩ := view_rows (file := runawayFile.set 192 8) (c := runawayContent)
    (rows := [.plain (.genre ⟨8, .long (.isrc [0x41, 0x42])⟩)]) rfl rfl (by decide +kernel)
  exact ⟨_, _, _, pg, pg', fun i _ hi => agree ⟨i, hi⟩, ho', ho, rfl, h1, h3, h2, h4⟩

end Rekordcrate
