import Verif.Lemmas.Again
import Verif.Props.Flush
import Verif.Props.Insert
import Verif.Spec.Again

/-! # C79: working on a database again and again -/

namespace Rekordcrate

/-! ## What became of a page -/

theorem OffsetContainer.Resolved.trans {T : Type} [OffsetItems T] {N : Nat} {size size' : OffsetSize}
    {a b c : OffsetContainer T} (h1 : Resolved N size a b) (h2 : Resolved N size' b c) : Resolved N size a c := by
  obtain ⟨e1, h1⟩ := h1
  obtain ⟨e2, h2⟩ := h2
  refine ⟨e2.trans e1, ?_⟩
  cases ha : a.offsets with
  | some x =>
    rw [ha] at h1
    simp only at h1 ⊢
    rw [h1] at h2
    exact h2
  | none =>
    rw [ha] at h1
    obtain ⟨os, e, g1, g2, g3⟩ := h1
    rw [g3] at h2
    exact ⟨os, e, g1, g2, h2⟩

theorem Row.Resolved.trans {a b c : Row} (h1 : a.Resolved b) (h2 : b.Resolved c) : a.Resolved c := by
  unfold Row.Resolved at h1
  split at h1
  · obtain ⟨x, ⟨o, g1, rfl⟩, rfl⟩ := h1
    obtain ⟨y, ⟨o', g2, rfl⟩, rfl⟩ := h2
    exact ⟨_, ⟨o', g1.trans g2, rfl⟩, rfl⟩
  · obtain ⟨x, ⟨o, g1, rfl⟩, rfl⟩ := h1
    obtain ⟨y, ⟨o', g2, rfl⟩, rfl⟩ := h2
    exact ⟨_, ⟨o', g1.trans g2, rfl⟩, rfl⟩
  · obtain ⟨x, ⟨o, g1, rfl⟩, rfl⟩ := h1
    obtain ⟨y, ⟨o', g2, rfl⟩, rfl⟩ := h2
    exact ⟨_, ⟨o', g1.trans g2, rfl⟩, rfl⟩
  · obtain ⟨x, ⟨o, g1, rfl⟩, rfl⟩ := h1
    obtain ⟨y, ⟨o', g2, rfl⟩, rfl⟩ := h2
    exact ⟨_, ⟨o', g1.trans g2, rfl⟩, rfl⟩
  · subst h1
    exact h2

theorem Pointwise.compose {α : Type} {R : α → α → Prop} (hR : ∀ x y z, R x y → R y z → R x z) {as bs cs : List α}
    (h1 : Pointwise R as bs) (h2 : Pointwise R bs cs) : Pointwise R as cs := by
  induction h1 generalizing cs with
  | nil => exact h2
  | cons hr _ ih =>
    cases h2 with
    | cons hr' h2 => exact .cons (hR _ _ _ hr hr') (ih h2)

theorem RowGroup.Same.trans {a b c : RowGroup} (h1 : a.Same b) (h2 : b.Same c) : a.Same c := by
  obtain ⟨f1, f2, f3⟩ := h1
  obtain ⟨g1, g2, g3⟩ := h2
  refine ⟨g1.trans f1, g2.trans f2, fun s hs => ?_⟩
  have : b.slotsUsed = a.slotsUsed := RowGroup.Same.slotsUsed ⟨f1, f2, f3⟩
  rw [g3 s (by omega), f3 s hs]

theorem Page.ReadBack.trans {a b c : Page} (h1 : a.ReadBack b) (h2 : b.ReadBack c) : a.ReadBack c := by
  obtain ⟨e1, h1⟩ := h1
  obtain ⟨e2, h2⟩ := h2
  refine ⟨e2.trans e1, ?_⟩
  cases ha : a.content with
  | index x =>
    rw [ha] at h1
    simp only at h1 ⊢
    rw [h1] at h2
    exact h2
  | data x =>
    rw [ha] at h1
    obtain ⟨y, hy, f1, f2, f3⟩ := h1
    rw [hy] at h2
    obtain ⟨z, hz, g1, g2, g3⟩ := h2
    exact ⟨z, hz, g1.trans f1, Pointwise.compose (R := RowGroup.Same) (fun _ _ _ h h' => h.trans h') f2 g2,
      f3.compose (fun _ _ _ h h' => ⟨h'.1.trans h.1, h.2.trans h'.2⟩) g3⟩

theorem Page.Kept.trans {a b c : Page} (h1 : a.Kept b) (h2 : b.Kept c) : a.Kept c := by
  rcases h1 with rfl | h1
  · exact h2
  · rcases h2 with rfl | h2
    · exact .inr h1
    · exact .inr (h1.trans h2)

/-! ## Flushing -/

theorem Page.read_sixteen {pageSize : Nat} {db : DatabaseType} {img : Bytes} {p q : Nat} {pg : Page}
    (h : Page.read pageSize db img p = .ok (pg, q)) :
    ∀ c, pg.content = .data c → ∀ g ∈ c.rowGroups, g.rowOffsets.length = 16 := by
  intro c hc
  obtain ⟨-, -, h⟩ := Page.read_eq_ok h
  rcases Page.content_read_inv h with ⟨-, d, hd, hr⟩ | ⟨-, d, hd, -⟩
  · rw [hc] at hd
    injection hd with hd
    subst hd
    exact (DataPageContent.read_inv hr).2.2.2.2.2.2.1
  · rw [hc] at hd
    cases hd

/-- After a flush of an intact and complete database, the file holds every page, sound and in the form the writer
produces. -/
theorem flushed_pages {d : Database} (hi : d.Intact) (hc : d.Complete) :
    ∃ d1, d.flush = .ok d1 ∧ d1.content = d.content ∧ d1.dbType = d.dbType ∧
      Database.openAt d1.io 0 d.dbType = .ok (d.reopened d1.io) ∧
      ∀ n, 1 ≤ n → n < d.content.header.nextUnusedPage.val.toNat →
        ∃ pg pg' q, d.view n = .ok pg ∧ pg.ReadBack pg' ∧
          Page.read d.content.header.pageSize.toNat d.dbType d1.io (n * d.content.header.pageSize.toNat) = .ok (pg', q) ∧
          pg'.Sound d.content.header.pageSize.toNat d.dbType ∧
          pg'.Canonical d.content.header.pageSize.toNat d1.io (n * d.content.header.pageSize.toNat) := by
  obtain ⟨d1, d2, h1, h2, h3, rfl, h5⟩ := hi.reopen_written
  refine ⟨d1, h1, h2, ?_, h3, fun n hn hlt => ?_⟩
  · obtain ⟨ps, g1, -⟩ := hi.storable.writes
    rw [Database.flush_eq g1] at h1
    injection h1 with h1
    rw [← h1]
  · obtain ⟨pg, hv⟩ := hc n hn hlt
    obtain ⟨pg', g1, g2, q, a, g3, g4⟩ := h5 n pg hn hv
    have hs := hi.sound hn hv
    rcases Database.view_cases g1 with hp | ⟨-, q', hr⟩
    · simp only [Database.reopened, List.getElem?_replicate] at hp
      split at hp <;> cases hp
    · exact ⟨pg, pg', q', hv, g2, hr, hs.again g2 (Page.read_sixteen hr), hs.canonical g2 g3 g4⟩

theorem flush_intact {d d1 : Database} (hi : d.Intact) (hc : d.Complete) (hf : d.flush = .ok d1) :
    d1.Intact ∧ d1.Complete ∧ d1.content = d.content ∧ d1.dbType = d.dbType ∧
      ∀ n pg, 1 ≤ n → d.view n = .ok pg → ∃ pg', d1.view n = .ok pg' ∧ pg.Kept pg' := by
  obtain ⟨d1', h1, h2, h3, -, h5⟩ := flushed_pages hi hc
  rw [hf] at h1
  injection h1 with h1
  subst h1
  have hview : ∀ n pg, 1 ≤ n → d.view n = .ok pg → ∃ pg', d1.view n = .ok pg' ∧ pg.Kept pg' := by
    intro n pg hn hv
    rcases Database.view_cases hv with hp | ⟨hp, -⟩
    · exact ⟨pg, Database.view_loaded (by rw [h2]; exact hp), .inl rfl⟩
    · have hlt := Database.view_lt hv
      rw [hi.length] at hlt
      obtain ⟨pg0, pg', q, g1, g2, g3, -⟩ := h5 n hn (by omega)
      rw [hv] at g1
      injection g1 with g1
      subst g1
      refine ⟨pg', ?_, .inr g2⟩
      unfold Database.view
      rw [h2, h3, hp]
      simp only
      rw [g3]
  refine ⟨⟨⟨by rw [h2, h3]; exact hi.storable.header, by rw [h2]; exact hi.storable.headerFits,
    by rw [h2, h3]; exact hi.storable.pages⟩, by rw [h2]; exact hi.length, ?_⟩, ?_, h2, h3, hview⟩
  · intro n pg q hn hp hr
    rw [h2] at hp
    rw [h2, h3] at hr ⊢
    have hlt := (List.getElem?_eq_some_iff.1 hp).1
    rw [hi.length] at hlt
    obtain ⟨-, pg', q', -, -, g3, g4, g5⟩ := h5 n hn (by omega)
    rw [hr] at g3
    simp only [Res.ok.injEq, Prod.mk.injEq] at g3
    obtain ⟨rfl, -⟩ := g3
    exact ⟨g4, g5⟩
  · intro n hn hlt
    rw [h2] at hlt
    obtain ⟨pg, hv⟩ := hc n hn hlt
    obtain ⟨pg', hv', -⟩ := hview n pg hn hv
    exact ⟨pg', hv'⟩

theorem reopen_intact {d d1 d2 : Database} (hi : d.Intact) (hc : d.Complete) (hf : d.flush = .ok d1)
    (ho : Database.openAt d1.io 0 d.dbType = .ok d2) :
    d2.Intact ∧ d2.Complete ∧ d2.content.header = d.content.header ∧ d2.dbType = d.dbType ∧
      ∀ n pg, 1 ≤ n → d.view n = .ok pg → ∃ pg', d2.view n = .ok pg' ∧ pg.Kept pg' := by
  obtain ⟨d1', h1, h2, h3, h4, h5⟩ := flushed_pages hi hc
  rw [hf] at h1
  injection h1 with h1
  subst h1
  rw [ho] at h4
  injection h4 with h4
  subst h4
  have hview : ∀ n pg pg' q, 1 ≤ n → n < d.content.header.nextUnusedPage.val.toNat → d.view n = .ok pg →
      Page.read d.content.header.pageSize.toNat d.dbType d1.io (n * d.content.header.pageSize.toNat) = .ok (pg', q) →
      (d.reopened d1.io).view n = .ok pg' := by
    intro n pg pg' q hn hlt _ hr
    unfold Database.view Database.reopened
    simp only
    rw [List.getElem?_replicate, if_pos (by omega)]
    simp only
    rw [hr]
  refine ⟨⟨⟨hi.storable.header, hi.storable.headerFits, ?_⟩, ?_, ?_⟩, ?_, rfl, rfl, ?_⟩
  · intro n pg hp
    simp only [Database.reopened, List.getElem?_replicate] at hp
    split at hp <;> cases hp
  · simp [Database.reopened]
  · intro n pg q hn hp hr
    have hlt : n < d.content.header.nextUnusedPage.val.toNat := by
      simp only [Database.reopened, List.getElem?_replicate] at hp
      split at hp
      · omega
      · cases hp
    obtain ⟨-, pg', q', -, -, g3, g4, g5⟩ := h5 n hn hlt
    have hr : Page.read d.content.header.pageSize.toNat d.dbType d1.io (n * d.content.header.pageSize.toNat) = .ok (pg, q) := hr
    rw [hr] at g3
    simp only [Res.ok.injEq, Prod.mk.injEq] at g3
    obtain ⟨rfl, -⟩ := g3
    exact ⟨g4, g5⟩
  · intro n hn hlt
    obtain ⟨pg, pg', q, g1, -, g3, -⟩ := h5 n hn hlt
    exact ⟨pg', hview n pg pg' q hn hlt g1 g3⟩
  · intro n pg hn hv
    have hlt := Database.view_lt hv
    rw [hi.length] at hlt
    obtain ⟨pg0, pg', q, g1, g2, g3, -⟩ := h5 n hn (by omega)
    have := hview n pg0 pg' q hn (by omega) g1 g3
    rw [hv] at g1
    injection g1 with g1
    subst g1
    exact ⟨pg', this, .inr g2⟩

/-! ## Careers -/

theorem lastAssigned_mem {l : List (Nat × Page)} {n : Nat} {pg : Page} (h : lastAssigned l n = some pg) :
    (n, pg) ∈ l := by
  unfold lastAssigned at h
  obtain ⟨x, hx, rfl⟩ := Option.map_eq_some_iff.1 h
  have := List.mem_filter.1 (List.mem_of_getLast? hx)
  obtain ⟨h1, h2⟩ := this
  have h2 : x.1 = n := by simpa using h2
  rw [← h2]
  exact h1

theorem lastAssigned_append (l l' : List (Nat × Page)) (n : Nat) :
    lastAssigned (l ++ l') n = (lastAssigned l' n).or (lastAssigned l n) := by
  unfold lastAssigned
  rw [List.filter_append, List.getLast?_append]
  cases (l'.filter fun x => x.1 == n).getLast? <;> simp

/-- What page `n` should be after the assignments `l`: the last page assigned, or else what it was. -/
def Database.Expected (d : Database) (l : List (Nat × Page)) (n : Nat) (pg : Page) : Prop :=
  lastAssigned l n = some pg ∨ (lastAssigned l n = none ∧ d.view n = .ok pg)

/-- C79: however long one works on an intact and complete database, storing it and opening it again and again, it
stays intact and complete, keeps its header, and every page is the last one assigned to its place, or else what it
was at the beginning; only offsets inside rows that were left to the writer are filled in. -/
theorem career_keeps_pages {d d' : Database} {l : List (Nat × Page)} (h : d.Career l d') (hi : d.Intact)
    (hc : d.Complete) (hs : ∀ x ∈ l, x.2.Sound d.content.header.pageSize.toNat d.dbType) :
    d'.Intact ∧ d'.Complete ∧ d'.content.header = d.content.header ∧ d'.dbType = d.dbType ∧
      ∀ n pg, 1 ≤ n → n < d.content.header.nextUnusedPage.val.toNat → d.Expected l n pg →
        ∃ pg', d'.view n = .ok pg' ∧ pg.Kept pg' := by
  induction h with
  | done d =>
    refine ⟨hi, hc, rfl, rfl, fun n pg _ _ he => ?_⟩
    rcases he with he | ⟨-, he⟩
    · cases he
    · exact ⟨pg, he, .inl rfl⟩
  | @work d d1 d' l l' h _ ih =>
    obtain ⟨v1, -, v3, -⟩ := session_keeps_pages h
    have v5 := session_db h
    have hi1 : d1.Intact := session_intact h hi fun n pg ha =>
      hs (n, pg) (List.mem_append_left _ (lastAssigned_mem ha))
    have hc1 : d1.Complete := by
      intro n hn hlt
      rw [v3] at hlt
      rw [v1 n hn]
      cases ha : lastAssigned l n with
      | some pg => exact ⟨pg, rfl⟩
      | none => exact hc n hn hlt
    obtain ⟨g1, g2, g3, g4, g5⟩ := ih hi1 hc1 (by rw [v3, v5]; exact fun x hx => hs x (List.mem_append_right _ hx))
    refine ⟨g1, g2, g3.trans v3, g4.trans v5, fun n pg hn hlt he => g5 n pg hn (by rw [v3]; exact hlt) ?_⟩
    unfold Database.Expected at he ⊢
    rw [lastAssigned_append] at he
    rw [v1 n hn]
    cases ha : lastAssigned l' n with
    | some pg' => rw [ha] at he; simpa using he
    | none =>
      rw [ha] at he
      cases hb : lastAssigned l n with
      | some pg' =>
        rw [hb] at he
        simpa using he
      | none =>
        rw [hb] at he
        simpa using he
  | @flush d d1 d' l h _ ih =>
    obtain ⟨f1, f2, f3, f4, f5⟩ := flush_intact hi hc h
    obtain ⟨g1, g2, g3, g4, g5⟩ := ih f1 f2 (by rw [f3, f4]; exact hs)
    rw [f3] at g3 g5
    rw [f4] at g4
    refine ⟨g1, g2, g3, g4, fun n pg hn hlt he => ?_⟩
    rcases he with he | ⟨he, hv⟩
    · exact g5 n pg hn hlt (.inl he)
    · obtain ⟨pg1, hv1, hk⟩ := f5 n pg hn hv
      obtain ⟨pg', hv', hk'⟩ := g5 n pg1 hn hlt (.inr ⟨he, hv1⟩)
      exact ⟨pg', hv', hk.trans hk'⟩
  | @reopen d d1 d2 d' l h ho _ ih =>
    obtain ⟨f1, f2, f3, f4, f5⟩ := reopen_intact hi hc h ho
    obtain ⟨g1, g2, g3, g4, g5⟩ := ih f1 f2 (by rw [f3, f4]; exact hs)
    rw [f3] at g3 g5
    rw [f4] at g4
    refine ⟨g1, g2, g3, g4, fun n pg hn hlt he => ?_⟩
    rcases he with he | ⟨he, hv⟩
    · exact g5 n pg hn hlt (.inl he)
    · obtain ⟨pg1, hv1, hk⟩ := f5 n pg hn hv
      obtain ⟨pg', hv', hk'⟩ := g5 n pg1 hn hlt (.inr ⟨he, hv1⟩)
      exact ⟨pg', hv', hk.trans hk'⟩

/-- C79: it can always go on: an intact database can be flushed and the file opened again. -/
theorem career_goes_on {d d' : Database} {l : List (Nat × Page)} (h : d.Career l d') (hi : d.Intact)
    (hc : d.Complete) (hs : ∀ x ∈ l, x.2.Sound d.content.header.pageSize.toNat d.dbType) :
    ∃ d1 d2, d'.flush = .ok d1 ∧ Database.openAt d1.io 0 d'.dbType = .ok d2 := by
  obtain ⟨d1, h1, -, -, h4, -⟩ := flushed_pages (career_keeps_pages h hi hc hs).1 (career_keeps_pages h hi hc hs).2.1
  exact ⟨d1, _, h1, h4⟩

/-- C79: the file that a flush leaves is in the form the writer produces: open it, load pages and iterate in any
order, flush; the file is the same. -/
theorem flushed_file_stable {d d1 d2 d3 : Database} (hi : d.Intact) (hc : d.Complete) (hf : d.flush = .ok d1)
    (ho : Database.openAt d1.io 0 d.dbType = .ok d2) (hs : d2.Session [] d3) : d3.flush = .ok d3 ∧ d3.io = d1.io := by
  obtain ⟨d1', h1, h2, h3, h4, h5⟩ := flushed_pages hi hc
  rw [hf] at h1
  injection h1 with h1
  subst h1
  have hcan : CanonicalFile d.dbType d1.io d2.content.header := by
    have he : d2 = d.reopened d1.io := by
      rw [ho] at h4
      injection h4
    rw [he]
    refine ⟨hi.storable.headerFits, ?_, ?_⟩
    · intro i (hi1 : 28 + 16 * d.content.header.tables.length ≤ i) (hi2 : i < d.content.header.pageSize.toNat)
      obtain ⟨ps, g1, g2, -, g4, -⟩ := hi.storable.writes
      rw [Database.flush_eq g1] at hf
      injection hf with hf
      rw [← hf]
      have := g2.contains_applyPatches d.io _ (g4 _ (List.mem_cons_of_mem _ (List.mem_cons_self ..)))
      have := this (i - d.content.header.enc.length) (by
        rw [Header.enc_length, List.length_replicate]; omega)
      rw [List.getElem?_replicate] at this
      simp only [Header.enc_length] at this
      rw [if_pos (by omega)] at this
      rwa [show 28 + 16 * d.content.header.tables.length + (i - (28 + 16 * d.content.header.tables.length)) = i by
        omega] at this
    · intro n pg q hn hlt hr
      obtain ⟨-, pg', q', -, -, g3, -, g5⟩ := h5 n hn hlt
      have hr : Page.read d.content.header.pageSize.toNat d.dbType d1.io (n * d.content.header.pageSize.toNat) = .ok (pg, q) := hr
      rw [hr] at g3
      simp only [Res.ok.injEq, Prod.mk.injEq] at g3
      obtain ⟨rfl, -⟩ := g3
      exact g5
  refine ⟨flush_without_modification ho hcan hs, ?_⟩
  rw [(session_keeps_pages hs).2.1]
  rw [ho] at h4
  injection h4 with h4
  rw [h4]
  rfl

/-! ## Rows -/

theorem Row.fits_of_kept {r r' : Row} {pt : PageType} (h : r' = r ∨ r.Resolved r') (hf : r.Fits pt) : r'.Fits pt := by
  rcases h with rfl | h
  · exact hf
  · exact h.fits hf

/-- C79: the same for the rows of a table whose pages were assigned pages with the same links: `iter_rows` gives the
rows of the pages assigned last, page by page, at their offsets. -/
theorem career_keeps_rows {α : Type} [RowVariant α] (hα : RowVariant.Lawful α) {d d' : Database}
    {l : List (Nat × Page)} (h : d.Career l d') (hi : d.Intact) (hc : d.Complete)
    (hs : ∀ x ∈ l, x.2.Sound d.content.header.pageSize.toNat d.dbType)
    {k : Nat} {t : Table} (ht : d.content.header.findTable (RowVariant.pageType α) = some (k, t))
    {ps : List (Nat × Page)} (hch : d.Chain t.lastPage.val.toNat t.firstPage.val.toNat ps)
    (hp : ∀ x ∈ ps, x.2.header.pageType = RowVariant.pageType α)
    (hl : ∀ x ∈ ps, ∀ pg, lastAssigned l x.1 = some pg →
      pg.header.nextPage = x.2.header.nextPage ∧ pg.header.pageType = x.2.header.pageType) :
    ∃ it rows it', d'.iterRows α = .ok it ∧ it.Runs α rows it' ∧
      Pointwise RowKept (rowsOf (afterAssigned l ps)) rows := by
  obtain ⟨-, -, g3, g4, g5⟩ := career_keeps_pages h hi hc hs
  have hnew : ∀ x ∈ ps, ((lastAssigned l x.1).getD x.2).header.nextPage = x.2.header.nextPage ∧
      ((lastAssigned l x.1).getD x.2).header.pageType = x.2.header.pageType ∧
      ((lastAssigned l x.1).getD x.2).Sound d.content.header.pageSize.toNat d.dbType := by
    intro x hx
    cases ha : lastAssigned l x.1 with
    | some pg => exact ⟨(hl x hx pg ha).1, (hl x hx pg ha).2, hs _ (lastAssigned_mem ha)⟩
    | none => exact ⟨rfl, rfl, hi.sound (hch.view x hx).2.1 (hch.view x hx).2.2⟩
  obtain ⟨ps', h1, h2⟩ := hch.transport_link (d' := d')
    (R := fun n pg pg' => ((lastAssigned l n).getD pg).Kept pg' ∧ pg'.header.nextPage = pg.header.nextPage)
    (fun _ _ _ h => h.2) fun x hx => by
      obtain ⟨-, hn, hv⟩ := hch.view x hx
      have hlt := Database.view_lt hv
      rw [hi.length] at hlt
      obtain ⟨pg', e1, e2⟩ := g5 x.1 ((lastAssigned l x.1).getD x.2) hn (by omega) (by
        unfold Database.Expected
        cases ha : lastAssigned l x.1 with
        | some pg => exact .inl rfl
        | none => exact .inr ⟨rfl, hv⟩)
      refine ⟨pg', e1, e2, ?_⟩
      rcases e2 with rfl | e2
      · exact (hnew x hx).1
      · rw [e2.1]; exact (hnew x hx).1
  have h3 : Pointwise (fun x y => y.1 = x.1 ∧ x.2.Kept y.2) (afterAssigned l ps) ps' := by
    have := h2.map_map (S := fun x y => y.1 = x.1 ∧ x.2.Kept y.2)
      (fun x => (x.1, (lastAssigned l x.1).getD x.2)) id fun a b hab => ⟨hab.1, hab.2.1⟩
    rwa [List.map_id] at this
  have h4 := rowsOf_pointwise (R := fun _ x y => y.1 = x.1 ∧ (y.2 = x.2 ∨ x.2.Resolved y.2)) (P := fun _ => Page.Kept)
    (fun n pg pg' hk => by
      rcases hk with rfl | ⟨-, hb⟩
      · cases hcont : pg'.content with
        | data c =>
          refine ⟨c, rfl, ?_⟩
          have : ∀ rows : List (UInt16 × Row),
              Pointwise (fun x y => y.1 = x.1 ∧ (y.2 = x.2 ∨ x.2.Resolved y.2)) rows rows := by
            intro rows
            induction rows with
            | nil => exact .nil
            | cons x xs ih => exact .cons ⟨rfl, .inl rfl⟩ ih
          exact this _
        | index c => exact ⟨c, rfl⟩
      · cases hcont : pg.content with
        | data c =>
          rw [hcont] at hb
          obtain ⟨c', e, -, -, hb⟩ := hb
          exact ⟨c', e, hb.imp fun _ _ _ _ h => ⟨h.1, .inr h.2⟩⟩
        | index c =>
          rw [hcont] at hb
          exact ⟨c, hb⟩) h3
  have hfit : ∀ x ∈ rowsOf (afterAssigned l ps), x.2.2.Fits (RowVariant.pageType α) := by
    intro x hx
    unfold rowsOf afterAssigned at hx
    obtain ⟨y, hy, hx⟩ := List.mem_flatMap.1 hx
    obtain ⟨z, hz, rfl⟩ := List.mem_map.1 hy
    obtain ⟨-, f2, f3⟩ := hnew z hz
    cases hcont : ((lastAssigned l z.1).getD z.2).content with
    | index c => simp only [hcont] at hx; cases hx
    | data c =>
      simp only [hcont] at hx
      obtain ⟨w, hw, rfl⟩ := List.mem_map.1 hx
      have := (f3.data c hcont).2.1 w hw
      rw [f2, hp z hz] at this
      exact this.2.1
  obtain ⟨it, rows, it', h8, h9, h10, -⟩ := row_iteration_exact hα (d := d') (by rw [g3]; exact ht) h1
    (fun y hy => by
      obtain ⟨x, hx, -, -, hr⟩ := h4.mem_right hy
      exact Row.fits_of_kept hr (hfit x hx))
  refine ⟨it, rows, it', h8, h9, (h4.trans h10).imp fun x _ y _ hxy => ?_⟩
  obtain ⟨z, ⟨e1, e2, e3⟩, e4, e5, e6⟩ := hxy
  exact ⟨e4.trans e1, e5.trans e2, z.2.2, e3, e6⟩

/-! ## Concrete case -/

theorem newDb_complete : newDb.Complete := by
  intro n hn (hlt : n < 2)
  have : n = 1 := by omega
  subst this
  exact ⟨_, rfl⟩

theorem fresh_grown_sound {as : List Allocation} {pg' : Page}
    (h : Page.History (Page.fresh 472 ⟨1⟩ ⟨2⟩ (.plain .playlistEntries) ⟨1, 0, 0, 0⟩) as pg')
    (ha : ∀ a ∈ as, a.Adequate (.plain .playlistEntries)) :
    pg'.Sound 512 .plain ∧ pg'.header.nextPage = ⟨2⟩ ∧ pg'.header.pageType = .plain .playlistEntries ∧
      rowsOf [(1, pg')] = (insertedRows as).map fun y => (1, y) := by
  have hg : PageGrown 512 (Page.fresh 472 ⟨1⟩ ⟨2⟩ (.plain .playlistEntries) ⟨1, 0, 0, 0⟩) as pg' :=
    ⟨⟨472, _, rfl, fresh_page_well_formed 472 ⟨1⟩ ⟨2⟩ _ _,
      List.Pairwise.nil, fun x hx => (by cases hx), fun x hx => (by cases hx)⟩, h, ha⟩
  obtain ⟨g1, g2, g3, c, c', g4, g5, g6⟩ := hg.sound (newDb_intact.sound (n := 1) (by omega) rfl)
  refine ⟨g1, g2, g3, ?_⟩
  have h0 : c.rows = [] := by
    simp only [Page.fresh] at g4
    injection g4 with g4
    rw [← g4]
  unfold rowsOf
  simp [g5, g6, h0]

theorem entries_adequate (n : Nat) (r : PlaylistEntry) :
    Allocation.Adequate (.plain .playlistEntries) ⟨n, 12, some (.plain (.playlistEntry r))⟩ := by
  intro r' hr
  injection hr with hr
  subst hr
  exact ⟨⟨fun v hv => (by simp [Row.strings, PlaylistEntry.strings] at hv), trivial, trivial⟩, rfl, trivial, trivial,
    12, rfl, Nat.le_refl _⟩

theorem newDb_history_one : ∃ pg', Page.History (Page.fresh 472 ⟨1⟩ ⟨2⟩ (.plain .playlistEntries) ⟨1, 0, 0, 0⟩)
    [⟨0, 12, some (.plain (.playlistEntry ⟨1, 7, 2⟩))⟩] pg' := by
  obtain ⟨pg', o1, h, rfl⟩ : ∃ pg' o1, Page.History
      (Page.fresh 472 ⟨1⟩ ⟨2⟩ (.plain .playlistEntries) ⟨1, 0, 0, 0⟩)
      [⟨o1, 12, some (.plain (.playlistEntry ⟨1, 7, 2⟩))⟩] pg' ∧ o1 = 0 := by
    refine ⟨_, _, Page.History.inserted 12 _ rfl rfl (Page.History.done _), ?_⟩
    decide +kernel
  exact ⟨pg', h⟩

/-- C79: an entry is inserted into the empty table of the example; the database is flushed and opened; a second
entry is inserted; the database is flushed, flushed again and opened.  Both entries are there. -/
example : ∃ (pg1 pg2 : Page) (d' : Database) (it it' : RowIterator) (rows : List (Nat × UInt16 × PlaylistEntry)),
    newDb.Career [(1, pg1), (1, pg2)] d' ∧ d'.iterRows PlaylistEntry = .ok it ∧ it.Runs PlaylistEntry rows it' ∧
    rows = [(1, 0, ⟨1, 7, 2⟩), (1, 12, ⟨2, 9, 2⟩)] := by
  obtain ⟨pg1, pg2, hh1, hh2⟩ : ∃ pg1 pg2, Page.History (Page.fresh 472 ⟨1⟩ ⟨2⟩ (.plain .playlistEntries) ⟨1, 0, 0, 0⟩)
      [⟨0, 12, some (.plain (.playlistEntry ⟨1, 7, 2⟩))⟩] pg1 ∧
      Page.History (Page.fresh 472 ⟨1⟩ ⟨2⟩ (.plain .playlistEntries) ⟨1, 0, 0, 0⟩)
      [⟨0, 12, some (.plain (.playlistEntry ⟨1, 7, 2⟩))⟩, ⟨12, 12, some (.plain (.playlistEntry ⟨2, 9, 2⟩))⟩] pg2 := by
    obtain ⟨pg2, h⟩ := newDb_history
    obtain ⟨pg1, h1⟩ := newDb_history_one
    exact ⟨pg1, pg2, h1, h⟩
  obtain ⟨s1, n1, t1, -⟩ := fresh_grown_sound hh1 (by
    intro a ha
    rw [List.mem_singleton] at ha
    subst ha
    exact entries_adequate _ _)
  obtain ⟨s2, n2, t2, r2⟩ := fresh_grown_sound hh2 (by
    intro a ha
    simp only [List.mem_cons, List.not_mem_nil, or_false] at ha
    rcases ha with rfl | rfl <;> exact entries_adequate _ _)
  have a1 : newDb.Session [(1, pg1)] (newDb.setPage 0 pg1) := .assign (i := ⟨1⟩) pg1 rfl (.done _)
  have c1 : ∀ d', (newDb.setPage 0 pg1).Career [] d' → newDb.Career [(1, pg1)] d' := fun d' h => .work a1 h
  have hs1 : ∀ x ∈ [(1, pg1)], x.2.Sound newDb.content.header.pageSize.toNat newDb.dbType := by
    intro x hx
    rw [List.mem_singleton] at hx
    subst hx
    exact s1
  obtain ⟨d1, d2, f1, o1⟩ := career_goes_on (c1 _ (.done _)) newDb_intact newDb_complete hs1
  have k1 := c1 _ (.reopen f1 o1 (.done _))
  obtain ⟨i2, m2, e2, b2, v2⟩ := career_keeps_pages k1 newDb_intact newDb_complete hs1
  obtain ⟨pg0, hv, -⟩ := v2 1 pg1 (by decide) (by decide) (.inl rfl)
  have a2 : d2.Session [(1, pg2)] _ :=
    .assign (i := ⟨1⟩) pg2 (((d2.loadPage_view ⟨1⟩ (by decide)).1 _ pg0).2 ⟨hv, rfl⟩) (.done _)
  have hs2 : ∀ x ∈ [(1, pg2)], x.2.Sound d2.content.header.pageSize.toNat d2.dbType := by
    intro x hx
    rw [List.mem_singleton] at hx
    subst hx
    rw [e2, b2]
    exact s2
  obtain ⟨d3, d4, f3, o3⟩ := career_goes_on (.work a2 (.done _)) i2 m2 (by simpa using hs2)
  obtain ⟨d5, d6, f5, o5⟩ := career_goes_on (.work a2 (.flush f3 (.done _))) i2 m2 (by simpa using hs2)
  have k2 : newDb.Career [(1, pg1), (1, pg2)] d6 :=
    .work a1 (.reopen f1 o1 (.work a2 (.flush f3 (.reopen f5 o5 (.done _)))))
  obtain ⟨-, -, -, -, -, -, -, -, -, -, -, L, -⟩ := row_variants_lawful
  obtain ⟨it, rows, it', g1, g2, g3⟩ := career_keeps_rows (α := PlaylistEntry) L k2 newDb_intact newDb_complete
    (by
      intro x hx
      simp only [List.mem_cons, List.not_mem_nil, or_false] at hx
      rcases hx with rfl | rfl
      · exact s1
      · exact s2)
    (k := 0) (t := ⟨.plain .playlistEntries, 0, ⟨1⟩, ⟨1⟩⟩) rfl (.last (by decide) rfl)
    (fun x hx => by rw [List.mem_singleton] at hx; rw [hx]; rfl)
    (fun x hx pg ha => by
      rw [List.mem_singleton] at hx
      subst hx
      change some pg2 = some pg at ha
      injection ha with ha
      subst ha
      exact ⟨n2, t2⟩)
  refine ⟨pg1, pg2, d6, it, it', rows, k2, g1, g2, ?_⟩
  have hrows : rowsOf (afterAssigned [(1, pg1), (1, pg2)] [(1, Page.fresh 472 ⟨1⟩ ⟨2⟩ (.plain .playlistEntries)
      ⟨1, 0, 0, 0⟩)]) = rowsOf [(1, pg2)] := rfl
  have w : Pointwise RowKept (rowsOf (afterAssigned [(1, pg1), (1, pg2)]
    [(1, Page.fresh 472 ⟨1⟩ ⟨2⟩ (.plain .playlistEntries) ⟨1, 0, 0, 0⟩)])) rows := g3
  rw [hrows, r2] at w
  cases w with
  | cons e1 w =>
    cases w with
    | cons e2 w =>
      cases w
      rename_i y1 y2
      obtain ⟨m1, k1, q1⟩ := y1
      obtain ⟨m2, k2, q2⟩ := y2
      obtain ⟨rfl, rfl, q1', e1, f1⟩ := e1
      obtain ⟨rfl, rfl, q2', e2, f2⟩ := e2
      have e1 : q1' = .plain (.playlistEntry ⟨1, 7, 2⟩) := e1.elim id id
      have e2 : q2' = .plain (.playlistEntry ⟨2, 9, 2⟩) := e2.elim id id
      subst e1 e2
      injection f1 with f1
      injection f2 with f2
      subst f1 f2
      rfl

end Rekordcrate
