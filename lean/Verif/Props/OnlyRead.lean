import Verif.Spec.OnlyRead
import Verif.Lemmas.Begun
import Verif.Props.Flush

/-!
# C106: storing a database that was only read

The full property, "opening a database, looking at it and closing it leaves the file as it was", is false:
bytes that are not kept in memory are replaced. These are the bytes behind the tables on the first page and the
slots of index pages behind their entries. In the project's own `data/pdb/num_rows/export.pdb` page 17 has
such a slot. What the file is afterwards is described exactly.
-/

namespace Rekordcrate

/-- Nothing is written in front of a page whose row groups have room. -/
theorem Page.write_off {pg : Page} {size p q : Nat} {ps : List Patch}
    (hg : ∀ c, pg.content = .data c → (∀ g ∈ c.rowGroups, g.rowOffsets.length = 16) ∧ 36 * c.rowGroups.length ≤ size)
    (h : pg.write size p = .ok ((), q, ps)) : ∀ x ∈ ps, p ≤ x.off := by
  have e := congrFun (pg.forget_writeT size) p
  rw [h] at e
  unfold Tw.forget at e
  have hu := Page.upAt (pg := pg) (size := size) (p := p) hg
  cases ht : (pg.writeT size p).2 with
  | ok x =>
    rw [ht] at e
    simp only [Res.ok.injEq, Prod.mk.injEq] at e
    rw [← e.2.2]
    exact hu
  | err x => rw [ht] at e; cases e
  | panic => rw [ht] at e; cases e

theorem replicate_entries_getElem? (m t : Nat) (ht : t < 4 * m) :
    ((List.replicate m IndexEntry.empty).flatMap IndexEntry.enc)[t]? =
      ([0xf8, 0xff, 0xff, 0x1f] : Bytes)[t % 4]? := by
  have he : IndexEntry.empty.enc = ([0xf8, 0xff, 0xff, 0x1f] : Bytes) := by decide +kernel
  induction m generalizing t with
  | zero => omega
  | succ m ih =>
    rw [List.replicate_succ, List.flatMap_cons, he]
    by_cases h4 : t < 4
    · rw [List.getElem?_append_left (by simpa using h4), Nat.mod_eq_of_lt h4]
    · rw [List.getElem?_append_right (by simp; omega)]
      have := ih (t - 4) (by omega)
      simp only [List.length_cons, List.length_nil]
      rw [this]
      congr 1
      omega

/-- Contained writes change nothing, so only the others are left. -/
theorem applyPatches_append_of_contains {img : Bytes} {ps qs : List Patch} (h : Contains img ps) :
    applyPatches img (ps ++ qs) = applyPatches img qs := by
  rw [applyPatches_append, applyPatches_of_contains h]

/-- One page: it is written without failure, and what it changes are the leftover bytes. -/
theorem page_only_read {size : Nat} {db : DatabaseType} {file img : Bytes} {p q : Nat} {pg : Page}
    (h : Page.read size db file p = .ok (pg, q)) (hr : pg.RegularAt size file p)
    (ha : ∀ i, p ≤ i → img[i]? = file[i]?) :
    ∃ ps, pg.write size p = .ok ((), p + size, ps) ∧
      (∀ i b, pg.LeftoverAt size p i b → (applyPatches img ps)[i]? = some b) ∧
      ∀ i, (∀ b, ¬ pg.LeftoverAt size p i b) → (applyPatches img ps)[i]? = img[i]? := by
  have lift : ∀ {o : Nat} {bs : Bytes}, p ≤ o → HasAt file o bs → HasAt img o bs := by
    intro o bs ho hb i hi
    rw [ha (o + i) (by omega)]
    exact hb i hi
  obtain ⟨-, hh, hcont⟩ := Page.read_eq_ok h
  rcases Page.content_read_inv hcont with ⟨-, c, hd, hrd⟩ | ⟨-, c, hd, hrd⟩
  · obtain ⟨-, -, -, -, -, -, h16, -⟩ := DataPageContent.read_inv hrd
    unfold Page.RegularAt at hr
    rw [hd] at hr
    obtain ⟨hroom, hstr⟩ := hr
    obtain ⟨ps, hw, hc⟩ := page_rewrite_contained h ⟨hstr, by unfold Page.Padded; rw [hd]; trivial⟩
    have hoff := Page.write_off (fun c' hc' => by
      rw [hd] at hc'
      cases hc'
      exact ⟨h16, hroom⟩) hw
    have hci : Contains img ps := fun x hx => lift (hoff x hx) (hc x hx)
    refine ⟨ps, hw, fun i b hb => ?_, fun i _ => by rw [applyPatches_of_contains hci]⟩
    obtain ⟨c', hc', -⟩ := hb
    rw [hd] at hc'
    cases hc'
  · obtain ⟨hn, hb, he, -⟩ := IndexPageContent.read_inv hrd
    unfold Page.RegularAt at hr
    rw [hd] at hr
    obtain ⟨hfit, ⟨m, hm⟩⟩ := hr
    have hw := (IndexPageContent.write_eq_ok (c := c) (pageSize := size) (p := p + 32)).2
      ⟨by omega, by omega, rfl, rfl⟩
    have hend : p + 32 + 48 + 4 * c.entries.length +
        4 * ((size - 80) / 4 - c.header.numEntries.toNat) = p + size := by omega
    have hend' : p + 32 + 28 + 4 * c.entries.length +
        4 * ((size - 80) / 4 - c.header.numEntries.toNat) = p + size - 20 := by omega
    rw [hend, hend'] at hw
    refine ⟨_, Page.write_eq_ok.2 ⟨_, by rw [hd]; exact hw, rfl⟩, ?_⟩
    have hhi : HasAt img p pg.header.enc := lift (Nat.le_refl _) hh
    have hbi : HasAt img (p + 32) c.header.enc := lift (by omega) hb
    have hei : HasAt img (p + 32 + 28) (c.entries.flatMap IndexEntry.enc) := lift (by omega) he
    have hel : (c.entries.flatMap IndexEntry.enc).length = 4 * c.entries.length := by
      induction c.entries with
      | nil => rfl
      | cons x l ih => rw [List.flatMap_cons, List.length_append, ih, IndexEntry.enc_length, List.length_cons]; omega
    have hlen : p + 60 + 4 * c.entries.length ≤ img.length := by
      rcases Nat.eq_zero_or_pos c.entries.length with h0 | h0
      · have := hbi 27 (by rw [IndexPageHeader.enc_length]; omega)
        rw [List.getElem?_eq_getElem (show 27 < c.header.enc.length by rw [IndexPageHeader.enc_length]; omega)] at this
        have := (List.getElem?_eq_some_iff.1 this).1
        omega
      · have := hei (4 * c.entries.length - 1) (by omega)
        rw [List.getElem?_eq_getElem
          (show 4 * c.entries.length - 1 < (c.entries.flatMap IndexEntry.enc).length by omega)] at this
        have := (List.getElem?_eq_some_iff.1 this).1
        omega
    rw [show ∀ a b c' d e : Patch, [a] ++ [b, c', d, e] = [a, b, c'] ++ [d, e] from fun _ _ _ _ _ => rfl,
      applyPatches_append_of_contains (by
        rw [Contains.cons_iff, Contains.cons_iff, Contains.cons_iff]
        exact ⟨hhi, hbi, hei, Contains.nil⟩)]
    have hrl : ((List.replicate ((size - 80) / 4 - c.header.numEntries.toNat) IndexEntry.empty).flatMap
        IndexEntry.enc).length = size - 80 - 4 * c.entries.length := by
      have : ∀ m, ((List.replicate m IndexEntry.empty).flatMap IndexEntry.enc).length = 4 * m := by
        intro m
        induction m with
        | zero => rfl
        | succ m ih =>
          rw [List.replicate_succ, List.flatMap_cons, List.length_append, ih, IndexEntry.enc_length]
          omega
      rw [this]
      omega
    rw [applyPatches_cons, applyPatches_cons, applyPatches_nil]
    have hz : ∀ i, (Patch.apply (Patch.apply img ⟨p + 32 + 28 + 4 * c.entries.length,
        (List.replicate ((size - 80) / 4 - c.header.numEntries.toNat) IndexEntry.empty).flatMap
          IndexEntry.enc⟩) ⟨p + size - 20, List.replicate 20 (0 : UInt8)⟩)[i]? =
        if p + size ≤ i + 20 ∧ i < p + size then some 0
        else if p + 60 + 4 * c.entries.length ≤ i ∧ i < p + size - 20 then
          ([0xf8, 0xff, 0xff, 0x1f] : Bytes)[(i - p - 60) % 4]?
        else img[i]? := by
      intro i
      have hlen2 := Patch.apply_length_le img ⟨p + 32 + 28 + 4 * c.entries.length,
        (List.replicate ((size - 80) / 4 - c.header.numEntries.toNat) IndexEntry.empty).flatMap IndexEntry.enc⟩
      have e1 := Patch.apply_getElem? img ⟨p + 32 + 28 + 4 * c.entries.length,
        (List.replicate ((size - 80) / 4 - c.header.numEntries.toNat) IndexEntry.empty).flatMap IndexEntry.enc⟩ i
      simp only at e1
      rw [hrl] at e1
      by_cases hi : p + size ≤ i + 20 ∧ i < p + size
      · rw [if_pos hi, Patch.apply_getElem?, if_pos (by simp only [List.length_replicate]; omega)]
        simp only
        rw [List.getElem?_replicate, if_pos (by omega)]
      · rw [if_neg hi]
        have hnc : ¬ (p + size - 20 ≤ i ∧ i < p + size - 20 + 20) := by omega
        rw [Patch.apply_getElem?]
        simp only [List.length_replicate]
        rw [if_neg hnc]
        by_cases hs : p + 60 + 4 * c.entries.length ≤ i ∧ i < p + size - 20
        · rw [if_pos hs]
          rw [if_pos (by omega)] at e1
          rw [replicate_entries_getElem? _ _ (by omega)] at e1
          have hsome : (Patch.apply img ⟨p + 32 + 28 + 4 * c.entries.length,
              (List.replicate ((size - 80) / 4 - c.header.numEntries.toNat) IndexEntry.empty).flatMap
                IndexEntry.enc⟩)[i]? = ([0xf8, 0xff, 0xff, 0x1f] : Bytes)[(i - p - 60) % 4]? := by
            rw [e1]
            congr 1
            omega
          have hlt : i < (Patch.apply img ⟨p + 32 + 28 + 4 * c.entries.length,
              (List.replicate ((size - 80) / 4 - c.header.numEntries.toNat) IndexEntry.empty).flatMap
                IndexEntry.enc⟩).length := by
            apply Nat.lt_of_not_le
            intro hle
            rw [List.getElem?_eq_none hle] at hsome
            have := List.getElem?_eq_none_iff.1 hsome.symm
            simp only [List.length_cons, List.length_nil] at this
            omega
          rw [if_pos hlt]
          exact hsome
        · rw [if_neg hs]
          rw [if_neg (by omega)] at e1
          have hlen3 : i < p + size - 20 ∨ p + size ≤ i := by omega
          rcases hlen3 with h3 | h3
          · have hil : i < img.length := by omega
            rw [if_pos (by omega), e1, if_pos hil]
          · by_cases hil : i < img.length
            · rw [if_pos (by omega), e1, if_pos hil]
            · rw [if_neg hil, if_neg (by omega)] at e1
              rw [e1, if_neg (show ¬ (i < p + size - 20 ∧ List.replicate 20 (0 : UInt8) ≠ []) from
                fun h => absurd h.1 (by omega)), ite_self, List.getElem?_eq_none (by omega)]
    refine ⟨fun i b hb => ?_, fun i hi => ?_⟩
    · rw [hz]
      obtain ⟨c', hc', hb⟩ := hb
      rw [hd] at hc'
      cases hc'
      rcases hb with ⟨k, j, h1, h2, h3, rfl⟩ | ⟨rfl, h1, h2⟩
      · have hj : j < 4 := by
          have := (List.getElem?_eq_some_iff.1 h3).1
          simpa using this
        rw [if_neg (by omega), if_pos (by omega), ← h3]
        congr 1
        omega
      · rw [if_pos ⟨h1, h2⟩]
    · rw [hz]
      rw [if_neg, if_neg]
      · rintro ⟨h1, h2⟩
        have hj : (i - p - 60) % 4 < ([0xf8, 0xff, 0xff, 0x1f] : Bytes).length := by
          simp only [List.length_cons, List.length_nil]
          omega
        refine hi _ ⟨c, hd, .inl ⟨(i - p - 60) / 4, (i - p - 60) % 4, by omega, by omega,
          List.getElem?_eq_getElem hj, by omega⟩⟩
      · rintro ⟨h1, h2⟩
        exact hi 0 ⟨c, hd, .inr ⟨rfl, h1, h2⟩⟩

/-- The byte at `i` is one behind the entries of an index page among these pages, the first of which
starts at `p`. -/
def LeftoverIn (size p : Nat) (l : List LazyPage) (i : Nat) (b : UInt8) : Prop :=
  ∃ (k : Nat) (pg : Page), l[k]? = some (.loaded pg) ∧ pg.LeftoverAt size (p + k * size) i b

theorem Page.LeftoverAt.range {size base i : Nat} {pg : Page} {b : UInt8} (h : pg.LeftoverAt size base i b) :
    base ≤ i ∧ i < base + size ∨ size < 20 := by
  obtain ⟨c, -, ⟨k, j, h1, h2, h3, rfl⟩ | ⟨-, h1, h2⟩⟩ := h
  · have hj : j < 4 := by
      have := (List.getElem?_eq_some_iff.1 h3).1
      simpa using this
    omega
  · omega

/-- The pages one after the other. -/
theorem pages_only_read {size p : Nat} {db : DatabaseType} {file img : Bytes} {l : List LazyPage}
    (hl : ∀ (k : Nat) (pg : Page), l[k]? = some (.loaded pg) → 20 ≤ size ∧
      (∃ q, Page.read size db file (p + k * size) = .ok (pg, q)) ∧ pg.RegularAt size file (p + k * size))
    (ha : ∀ i, p ≤ i → img[i]? = file[i]?) :
    ∃ ps, PagesWritten size p l ps ∧
      (∀ i b, LeftoverIn size p l i b → (applyPatches img ps)[i]? = some b) ∧
      ∀ i, (∀ b, ¬ LeftoverIn size p l i b) → (applyPatches img ps)[i]? = img[i]? := by
  induction l generalizing p img with
  | nil =>
    refine ⟨[], .nil, fun i b h => ?_, fun i _ => rfl⟩
    obtain ⟨k, pg, hk, -⟩ := h
    cases hk
  | cons x l ih =>
    have hl' : ∀ (k : Nat) (pg : Page), l[k]? = some (.loaded pg) → 20 ≤ size ∧
        (∃ q, Page.read size db file (p + size + k * size) = .ok (pg, q)) ∧
        pg.RegularAt size file (p + size + k * size) := by
      intro k pg hk
      have := hl (k + 1) pg hk
      rwa [show p + (k + 1) * size = p + size + k * size by rw [Nat.add_mul]; omega] at this
    have hcons : ∀ i b, LeftoverIn size p (x :: l) i b ↔
        (∃ pg, x = .loaded pg ∧ pg.LeftoverAt size p i b) ∨ LeftoverIn size (p + size) l i b := by
      intro i b
      constructor
      · rintro ⟨k, pg, hk, h⟩
        cases k with
        | zero =>
          simp only [List.getElem?_cons_zero, Option.some.injEq] at hk
          rw [Nat.zero_mul, Nat.add_zero] at h
          exact .inl ⟨pg, hk, h⟩
        | succ k =>
          rw [show p + (k + 1) * size = p + size + k * size by rw [Nat.add_mul]; omega] at h
          exact .inr ⟨k, pg, hk, h⟩
      · rintro (⟨pg, rfl, h⟩ | ⟨k, pg, hk, h⟩)
        · exact ⟨0, pg, rfl, by rw [Nat.zero_mul, Nat.add_zero]; exact h⟩
        · exact ⟨k + 1, pg, hk, by
            rw [show p + (k + 1) * size = p + size + k * size by rw [Nat.add_mul]; omega]; exact h⟩
    cases x with
    | notLoaded =>
      obtain ⟨ps, h1, h2, h3⟩ := ih hl' (fun i hi => ha i (by omega))
      refine ⟨ps, .skip h1, fun i b h => ?_, fun i h => ?_⟩
      · rcases (hcons i b).1 h with ⟨pg, hx, -⟩ | h
        · cases hx
        · exact h2 i b h
      · exact h3 i fun b hb => h b ((hcons i b).2 (.inr hb))
    | loaded pg =>
      obtain ⟨h20, ⟨q, hr⟩, hreg⟩ := hl 0 pg rfl
      rw [Nat.zero_mul, Nat.add_zero] at hr hreg
      obtain ⟨a, hw, hw2, hw3⟩ := page_only_read hr hreg ha
      have ha' : ∀ i, p + size ≤ i → (applyPatches img a)[i]? = file[i]? := by
        intro i hi
        rw [hw3 i, ha i (by omega)]
        intro b hb
        have := hb.range
        omega
      obtain ⟨ps, h1, h2, h3⟩ := ih hl' ha'
      refine ⟨a ++ ps, .page hw h1, fun i b h => ?_, fun i h => ?_⟩
      · rw [applyPatches_append]
        rcases (hcons i b).1 h with ⟨pg', hx, h⟩ | h
        · cases hx
          rw [h3 i, hw2 i b h]
          rintro b' ⟨k, pg', hk, hb'⟩
          have r1 := h.range
          have r2 := hb'.range
          omega
        · exact h2 i b h
      · rw [applyPatches_append, h3 i fun b hb => h b ((hcons i b).2 (.inr hb)),
          hw3 i fun b hb => h b ((hcons i b).2 (.inl ⟨pg, rfl, hb⟩))]

/-- After a session without assignments, the pages in memory are those of the file. -/
theorem session_pages_read {file : Bytes} {db : DatabaseType} {d d' : Database}
    (ho : Database.openAt file 0 db = .ok d) (hs : d.Session [] d') {k : Nat} {pg : Page}
    (hk : d'.content.pages[k]? = some (.loaded pg)) :
    ∃ q, Page.read d.content.header.pageSize.toNat db file ((k + 1) * d.content.header.pageSize.toNat) = .ok (pg, q) := by
  unfold Database.openAt LazyDatabase.read at ho
  obtain ⟨⟨c, q⟩, h0, ho⟩ := Res.bind_eq_ok.1 ho
  obtain ⟨hd, p1, h1, h2⟩ := Rd.bind_eq_ok.1 h0
  clear h0
  rw [Rd.pure_eq_ok] at h2
  obtain ⟨rfl, rfl⟩ := h2
  simp only [Res.ok.injEq] at ho
  subst ho
  obtain ⟨s1, s2, s3, s4⟩ := session_keeps_pages hs
  simp only at s1 s2 s3 s4 ⊢
  have hv : d'.view (k + 1) = .ok pg := by
    unfold Database.view
    rw [Nat.add_sub_cancel, hk]
  rw [s1 (k + 1) (by omega)] at hv
  unfold Database.view at hv
  simp only [lastAssigned, List.filter_nil, List.getLast?_nil, Option.map_none] at hv
  rw [List.getElem?_replicate] at hv
  have hlt : k < hd.nextUnusedPage.val.toNat - 1 := by
    rw [← List.length_replicate (n := hd.nextUnusedPage.val.toNat - 1) (a := LazyPage.notLoaded), ← s4]
    exact (List.getElem?_eq_some_iff.1 hk).1
  rw [if_pos (by omega)] at hv
  simp only at hv
  cases hr : Page.read hd.pageSize.toNat db file ((k + 1) * hd.pageSize.toNat) with
  | ok x =>
    rw [hr] at hv
    simp only [Res.ok.injEq] at hv
    subst hv
    exact ⟨x.2, rfl⟩
  | err e => rw [hr] at hv; cases hv
  | panic => rw [hr] at hv; cases hv

/-- C106: open a database, load pages and iterate over tables without changing anything, and flush: the
flush succeeds, and the file afterwards is the same except for the bytes that are not kept in memory, which are
replaced as given by `Leftover`. This holds whatever the file contains and however long it is, as long as the
tables fit in the first page and the pages in memory are regular. -/
theorem flush_only_read_partial {file : Bytes} {db : DatabaseType} {d d' : Database}
    (ho : Database.openAt file 0 db = .ok d) (hs : d.Session [] d')
    (hfit : 28 + 16 * d.content.header.tables.length ≤ d.content.header.pageSize.toNat)
    (hreg : ∀ n pg, 1 ≤ n → d'.content.pages[n - 1]? = some (.loaded pg) →
      pg.RegularAt d.content.header.pageSize.toNat file (n * d.content.header.pageSize.toNat)) :
    ∃ file', d'.flush = .ok { d' with io := file' } ∧
      (∀ i b, d'.Leftover i b → file'[i]? = some b) ∧
      ∀ i, (∀ b, ¬ d'.Leftover i b) → file'[i]? = file[i]? := by
  have hopen := ho
  unfold Database.openAt LazyDatabase.read at ho
  obtain ⟨⟨c, q⟩, h0, ho⟩ := Res.bind_eq_ok.1 ho
  obtain ⟨hd, p1, h1, h2⟩ := Rd.bind_eq_ok.1 h0
  clear h0
  rw [Rd.pure_eq_ok] at h2
  obtain ⟨rfl, rfl⟩ := h2
  simp only [Res.ok.injEq] at ho
  subst ho
  obtain ⟨-, hb, -⟩ := header_read_write _ _ _ _ _ h1
  obtain ⟨s1, s2, s3, s4⟩ := session_keeps_pages hs
  simp only at s1 s2 s3 s4 hfit hreg
  -- every page in memory is what the file holds
  have hpages : ∀ (k : Nat) (pg : Page), d'.content.pages[k]? = some (.loaded pg) → 20 ≤ hd.pageSize.toNat ∧
      (∃ q, Page.read hd.pageSize.toNat db file (hd.pageSize.toNat + k * hd.pageSize.toNat) = .ok (pg, q)) ∧
      pg.RegularAt hd.pageSize.toNat file (hd.pageSize.toNat + k * hd.pageSize.toNat) := by
    intro k pg hk
    have e : hd.pageSize.toNat + k * hd.pageSize.toNat = (k + 1) * hd.pageSize.toNat := by
      rw [Nat.add_mul]; omega
    refine ⟨by omega, ?_, ?_⟩
    · rw [e]
      exact session_pages_read hopen hs hk
    · rw [e]
      exact hreg (k + 1) pg (by omega) hk
  -- the first page
  have hlen : hd.enc.length ≤ file.length := by
    have := hb (hd.enc.length - 1) (by rw [hd.enc_length]; omega)
    rw [List.getElem?_eq_getElem (show hd.enc.length - 1 < hd.enc.length by rw [hd.enc_length]; omega)] at this
    have := (List.getElem?_eq_some_iff.1 this).1
    omega
  have hz : ∀ i, (applyPatches file d'.headerPatches)[i]? =
      if 28 + 16 * hd.tables.length ≤ i ∧ i < hd.pageSize.toNat then some 0 else file[i]? := by
    intro i
    unfold Database.headerPatches
    rw [s3]
    rw [applyPatches_cons, Patch.apply_of_hasAt hb, applyPatches_cons, applyPatches_nil, Patch.apply_getElem?]
    simp only [List.length_replicate]
    rw [hd.enc_length] at hlen ⊢
    by_cases hi : 28 + 16 * hd.tables.length ≤ i ∧ i < hd.pageSize.toNat
    · rw [if_pos hi, if_pos (by omega), List.getElem?_replicate, if_pos (by omega)]
    · rw [if_neg hi, if_neg (by omega)]
      by_cases hl : i < file.length
      · rw [if_pos hl]
      · rw [if_neg hl, List.getElem?_eq_none (by omega)]
        exact if_neg fun h => absurd h.1 (by omega)
  obtain ⟨ps, hps, hp1, hp2⟩ := pages_only_read (img := applyPatches file d'.headerPatches) hpages
    (fun i hi => by rw [hz, if_neg (by omega)])
  have hw := Database.flushWrites_of (d := d') (ps := ps) (by rw [s3]; exact hfit) (by rw [s3]; exact hps)
  have hiff : ∀ i b, LeftoverIn hd.pageSize.toNat hd.pageSize.toNat d'.content.pages i b ↔
      ∃ n pg, 1 ≤ n ∧ d'.content.pages[n - 1]? = some (.loaded pg) ∧
        pg.LeftoverAt hd.pageSize.toNat (n * hd.pageSize.toNat) i b := by
    intro i b
    constructor
    · rintro ⟨k, pg, hk, h⟩
      refine ⟨k + 1, pg, by omega, hk, ?_⟩
      rwa [show (k + 1) * hd.pageSize.toNat = hd.pageSize.toNat + k * hd.pageSize.toNat by
        rw [Nat.add_mul]; omega]
    · rintro ⟨n, pg, hn, hk, h⟩
      refine ⟨n - 1, pg, hk, ?_⟩
      obtain ⟨m, rfl⟩ : ∃ m, n = m + 1 := ⟨n - 1, by omega⟩
      rwa [Nat.add_sub_cancel, show hd.pageSize.toNat + m * hd.pageSize.toNat = (m + 1) * hd.pageSize.toNat by
        rw [Nat.add_mul]; omega]
  refine ⟨_, Database.flush_eq hw, fun i b hl => ?_, fun i hl => ?_⟩
  · rw [s2]
    rw [applyPatches_append]
    unfold Database.Leftover at hl
    rw [s3] at hl
    rcases hl with ⟨h1, h2, rfl⟩ | hl
    · rw [hp2 i, hz, if_pos ⟨h1, h2⟩]
      rintro b ⟨k, pg, -, hlo⟩
      have := hlo.range
      omega
    · exact hp1 i b ((hiff i b).2 hl)
  · rw [s2]
    rw [applyPatches_append, hp2 i fun b hb => hl b (by
      unfold Database.Leftover
      rw [s3]
      exact .inr ((hiff i b).1 hb)), hz, if_neg fun h => hl 0 (by
        unfold Database.Leftover
        rw [s3]
        exact .inl ⟨h.1, h.2, rfl⟩)]

/-- C106: so the file does not change exactly if the bytes that are not kept in memory are the ones that are
written for them. -/
theorem flush_only_read_unchanged_iff {file : Bytes} {db : DatabaseType} {d d' : Database}
    (ho : Database.openAt file 0 db = .ok d) (hs : d.Session [] d')
    (hfit : 28 + 16 * d.content.header.tables.length ≤ d.content.header.pageSize.toNat)
    (hreg : ∀ n pg, 1 ≤ n → d'.content.pages[n - 1]? = some (.loaded pg) →
      pg.RegularAt d.content.header.pageSize.toNat file (n * d.content.header.pageSize.toNat)) :
    d'.flush = .ok { d' with io := file } ↔ ∀ i b, d'.Leftover i b → file[i]? = some b := by
  obtain ⟨file', h1, h2, h3⟩ := flush_only_read_partial ho hs hfit hreg
  constructor
  · intro h i b hl
    rw [h1] at h
    simp only [Res.ok.injEq, Database.mk.injEq] at h
    rw [← h.1]
    exact h2 i b hl
  · intro h
    have : file' = file := by
      apply List.ext_getElem?
      intro i
      by_cases hl : ∃ b, d'.Leftover i b
      · obtain ⟨b, hl⟩ := hl
        rw [h2 i b hl, h i b hl]
      · exact h3 i fun b hb => hl ⟨b, hb⟩
    rw [h1, this]

/-- C106: and it is enough to store it once: opening the file afterwards, looking at no other pages than before
and storing it again changes nothing. -/
theorem flush_only_read_again {file file' : Bytes} {db : DatabaseType} {d d' e e' : Database}
    (ho : Database.openAt file 0 db = .ok d) (hs : d.Session [] d')
    (hfit : 28 + 16 * d.content.header.tables.length ≤ d.content.header.pageSize.toNat)
    (hreg : ∀ n pg, 1 ≤ n → d'.content.pages[n - 1]? = some (.loaded pg) →
      pg.RegularAt d.content.header.pageSize.toNat file (n * d.content.header.pageSize.toNat))
    (hf : d'.flush = .ok { d' with io := file' })
    (ho' : Database.openAt file' 0 db = .ok e) (hs' : e.Session [] e')
    (hreg' : ∀ n pg, 1 ≤ n → e'.content.pages[n - 1]? = some (.loaded pg) →
      pg.RegularAt e.content.header.pageSize.toNat file' (n * e.content.header.pageSize.toNat))
    (hsub : ∀ n pg, 1 ≤ n → e'.content.pages[n - 1]? = some (.loaded pg) →
      ∃ pg', d'.content.pages[n - 1]? = some (.loaded pg')) :
    e.content = d.content ∧ e'.flush = .ok { e' with io := file' } := by
  obtain ⟨f, h1, h2, h3⟩ := flush_only_read_partial ho hs hfit hreg
  rw [h1] at hf
  simp only [Res.ok.injEq, Database.mk.injEq, and_true] at hf
  subst hf
  obtain ⟨-, -, s3, -⟩ := session_keeps_pages hs
  -- the first 60 bytes of pages and the header stay as they are
  have keep : ∀ n, 1 ≤ n → AgreeOn file f (n * d.content.header.pageSize.toNat)
      (n * d.content.header.pageSize.toNat + 60) := by
    intro n hn i hlo hhi
    refine (h3 i fun b hb => ?_).symm
    unfold Database.Leftover at hb
    rw [s3] at hb
    have hge : d.content.header.pageSize.toNat ≤ n * d.content.header.pageSize.toNat := Nat.le_mul_of_pos_left _ hn
    rcases hb with ⟨-, hb, -⟩ | ⟨m, pg, hm, hl, hb⟩
    · omega
    · have hr := hreg m pg hm hl
      have hrange := hb.range
      obtain ⟨c, hc, hb⟩ := hb
      unfold Page.RegularAt at hr
      rw [hc] at hr
      simp only at hr
      have hlow : m * d.content.header.pageSize.toNat + 60 ≤ i := by
        rcases hb with ⟨k, j, -, -, -, rfl⟩ | ⟨-, hb, -⟩ <;> omega
      rcases Nat.lt_trichotomy m n with hmn | rfl | hmn
      · have := Nat.mul_le_mul_right d.content.header.pageSize.toNat (show m + 1 ≤ n from hmn)
        rw [Nat.add_mul, Nat.one_mul] at this
        omega
      · omega
      · have := Nat.mul_le_mul_right d.content.header.pageSize.toNat (show n + 1 ≤ m from hmn)
        rw [Nat.add_mul, Nat.one_mul] at this
        omega
  have hcontent : e.content = d.content := by
    unfold Database.openAt LazyDatabase.read at ho ho'
    obtain ⟨⟨c, q⟩, h0, ho⟩ := Res.bind_eq_ok.1 ho
    obtain ⟨hd, p1, hh, hc⟩ := Rd.bind_eq_ok.1 h0
    rw [Rd.pure_eq_ok] at hc
    obtain ⟨rfl, rfl⟩ := hc
    simp only [Res.ok.injEq] at ho
    subst ho
    simp only at hfit h3 s3
    obtain ⟨hcons, hb, -⟩ := header_read_write _ _ _ _ _ hh
    have hb' : HasAt f 0 hd.enc := by
      intro i hi
      rw [← hb i hi]
      refine h3 _ fun b hl => ?_
      rw [hd.enc_length] at hi
      unfold Database.Leftover at hl
      rw [s3] at hl
      rcases hl with ⟨hl, -⟩ | ⟨m, pg, hm, hl, hx⟩
      · omega
      · have := hx.range
        have hge : hd.pageSize.toNat ≤ m * hd.pageSize.toNat := Nat.le_mul_of_pos_left _ hm
        omega
    obtain ⟨⟨c', q'⟩, h0', ho'⟩ := Res.bind_eq_ok.1 ho'
    obtain ⟨hd', p', hh', hc'⟩ := Rd.bind_eq_ok.1 h0'
    rw [Header.rt db hd hcons f 0 hb'] at hh'
    simp only [Res.ok.injEq, Prod.mk.injEq] at hh'
    obtain ⟨rfl, -⟩ := hh'
    rw [Rd.pure_eq_ok] at hc'
    obtain ⟨rfl, -⟩ := hc'
    simp only [Res.ok.injEq] at ho'
    subst ho'
    rfl
  refine ⟨hcontent, ?_⟩
  obtain ⟨-, -, s3', -⟩ := session_keeps_pages hs'
  refine (flush_only_read_unchanged_iff ho' hs' (by rw [hcontent]; exact hfit) hreg').2 fun i b hb => h2 i b ?_
  unfold Database.Leftover at hb ⊢
  rw [s3', hcontent] at hb
  rw [s3]
  refine hb.imp id ?_
  rintro ⟨n, pg, hn, hl, c, hc, hb⟩
  obtain ⟨pg', hl'⟩ := hsub n pg hn hl
  refine ⟨n, pg', hn, hl', ?_⟩
  obtain ⟨m, rfl⟩ : ∃ m, n = m + 1 := ⟨n - 1, by omega⟩
  rw [Nat.add_sub_cancel] at hl hl'
  obtain ⟨q, hr⟩ := session_pages_read ho' hs' hl
  obtain ⟨q', hr'⟩ := session_pages_read ho hs hl'
  rw [hcontent] at hr
  have ka := keep (m + 1) hn
  obtain ⟨hv, hx, hy⟩ := Page.read_eq_ok hr
  obtain ⟨hv', hx', hy'⟩ := Page.read_eq_ok hr'
  have hhd : pg.header = pg'.header := by
    have ha := PageHeader.rt db _ hv _ _ hx
    have hb := PageHeader.rt db _ hv' _ _ (hx'.of_agree fun i h1 h2 => (ka i (by omega) (by
      rw [PageHeader.enc_length] at h2; omega)))
    rw [ha] at hb
    simp only [Res.ok.injEq, Prod.mk.injEq] at hb
    exact hb.1
  rcases Page.content_read_inv hy with ⟨-, c1, hd1, hrd1⟩ | ⟨hi1, c1, hd1, hrd1⟩
  · rw [hd1] at hc
    cases hc
  rw [hd1] at hc
  cases hc
  rcases Page.content_read_inv hy' with ⟨hi2, -⟩ | ⟨-, c2, hd2, hrd2⟩
  · rw [← hhd, hi1] at hi2
    cases hi2
  obtain ⟨hn1, hb1, -⟩ := IndexPageContent.read_inv hrd1
  obtain ⟨hn2, hb2, -⟩ := IndexPageContent.read_inv hrd2
  have hih : c.header = c2.header := by
    have ha := IndexPageHeader.rt _ _ _ hb1
    have hb := IndexPageHeader.rt _ _ _ (hb2.of_agree fun i h1 h2 => (ka i (by omega) (by
      rw [IndexPageHeader.enc_length] at h2; omega)))
    rw [ha] at hb
    simp only [Res.ok.injEq, Prod.mk.injEq] at hb
    exact hb.1
  refine ⟨c2, hd2, ?_⟩
  rw [hn2, ← hih, ← hn1]
  exact hb

/-! ## Examples -/

/-- The example file with a stale entry in the first, unused slot of the index page 1. -/
def staleFile : Bytes := (exampleFile .genres 1 3).take 156 ++ [0x88, 0x12, 0, 0] ++ (exampleFile .genres 1 3).drop 160

/-- The database opened from it. -/
def staleDb : Database := { exampleDb .genres 1 3 with io := staleFile }

theorem staleDb_open : Database.openAt staleFile 0 .plain = .ok staleDb := by decide +kernel

theorem staleDb_load : staleDb.loadPage ⟨1⟩ = .ok (staleDb.setPage 0 (exampleDbPage 1), exampleDbPage 1) := by
  decide +kernel

theorem staleDb_session : staleDb.Session [] (staleDb.setPage 0 (exampleDbPage 1)) :=
  .load staleDb_load (.done _)

/-- C106: the full property is false: opening this database, loading page 1 and flushing replaces the stale entry. -/
theorem only_read_can_change : ∃ (file file' : Bytes) (d d' : Database), Database.openAt file 0 .plain = .ok d ∧
    d.Session [] d' ∧ d'.flush = .ok { d' with io := file' } ∧ file' ≠ file :=
  ⟨staleFile, exampleFile .genres 1 3, _, _, staleDb_open, staleDb_session, by decide +kernel, by decide +kernel⟩

/-- C106: that database meets the hypotheses of `flush_only_read_partial`, and so does the one without stale entry. -/
theorem stale_regular (n : Nat) (pg : Page) (hn : 1 ≤ n)
    (h : (staleDb.setPage 0 (exampleDbPage 1)).content.pages[n - 1]? = some (.loaded pg)) :
    pg.RegularAt staleDb.content.header.pageSize.toNat staleFile (n * staleDb.content.header.pageSize.toNat) := by
  have hp : (staleDb.setPage 0 (exampleDbPage 1)).content.pages = [.loaded (exampleDbPage 1), .notLoaded, .notLoaded] := rfl
  rw [hp] at h
  match n, hn, h with
  | 1, _, h =>
    simp only [Nat.sub_self, List.getElem?_cons_zero, Option.some.injEq, LazyPage.loaded.injEq] at h
    subst h
    unfold Page.RegularAt
    rw [show (exampleDbPage 1).content = .index
      { header := ⟨0x1fff, 0x1fff, 0, ⟨1⟩, ⟨2⟩, 0, 0x1fff⟩, entries := [] } by decide +kernel]
    show 80 + 4 * 0 ≤ 96 ∧ 4 ∣ 96
    decide
  | 2, _, h => simp at h
  | 3, _, h => simp at h
  | n + 4, _, h => simp at h

example : ∃ file', (staleDb.setPage 0 (exampleDbPage 1)).flush =
    .ok { staleDb.setPage 0 (exampleDbPage 1) with io := file' } ∧ file'[156]? = some 0xf8 ∧ file'[200]? = staleFile[200]? := by
  obtain ⟨f, h1, h2, h3⟩ := flush_only_read_partial staleDb_open staleDb_session (by decide +kernel) stale_regular
  have hs : (staleDb.setPage 0 (exampleDbPage 1)).content.header.pageSize.toNat = 96 := rfl
  refine ⟨f, h1, h2 156 _ (.inr ⟨1, exampleDbPage 1, by decide, rfl, ?_⟩), h3 200 ?_⟩
  · exact ⟨{ header := ⟨0x1fff, 0x1fff, 0, ⟨1⟩, ⟨2⟩, 0, 0x1fff⟩, entries := [] }, by decide +kernel,
      .inl ⟨0, 0, by decide, by decide +kernel, rfl, by decide +kernel⟩⟩
  · rintro b (⟨-, h, -⟩ | ⟨n, pg, hn, hl, ho⟩)
    · rw [hs] at h
      omega
    · have := ho.range
      rw [hs] at this
      have : n = 2 := by omega
      subst this
      rw [show (staleDb.setPage 0 (exampleDbPage 1)).content.pages[2 - 1]? = some .notLoaded from rfl] at hl
      cases hl

/-- C106: the file of the example after storing it once, which is the one without stale entry, can be opened and
stored again without change. -/
example : ((exampleDb .genres 1 3).setPage 0 (exampleDbPage 1)).flush =
    .ok { (exampleDb .genres 1 3).setPage 0 (exampleDbPage 1) with io := exampleFile .genres 1 3 } :=
  have hf : (staleDb.setPage 0 (exampleDbPage 1)).flush =
      .ok { staleDb.setPage 0 (exampleDbPage 1) with io := exampleFile .genres 1 3 } := by decide +kernel
  have ho : Database.openAt (exampleFile .genres 1 3) 0 .plain = .ok (exampleDb .genres 1 3) := by decide +kernel
  have hl : (exampleDb .genres 1 3).loadPage ⟨1⟩ =
      .ok ((exampleDb .genres 1 3).setPage 0 (exampleDbPage 1), exampleDbPage 1) := by decide +kernel
  have hp : ((exampleDb .genres 1 3).setPage 0 (exampleDbPage 1)).content.pages =
      (staleDb.setPage 0 (exampleDbPage 1)).content.pages := rfl
  (flush_only_read_again staleDb_open staleDb_session (by decide +kernel) stale_regular hf ho (.load hl (.done _))
    (fun n pg hn h => by
      rw [hp] at h
      have := stale_regular n pg hn h
      match n, hn, h with
      | 1, _, h =>
        have hp : (staleDb.setPage 0 (exampleDbPage 1)).content.pages[0]? = some (.loaded (exampleDbPage 1)) := rfl
        rw [Nat.sub_self, hp] at h
        simp only [Option.some.injEq, LazyPage.loaded.injEq] at h
        subst h
        unfold Page.RegularAt at this ⊢
        rw [show (exampleDbPage 1).content = .index
          { header := ⟨0x1fff, 0x1fff, 0, ⟨1⟩, ⟨2⟩, 0, 0x1fff⟩, entries := [] } by decide +kernel] at this ⊢
        exact this
      | 2, _, h => cases h
      | 3, _, h => cases h
      | n + 4, _, h => cases h)
    (fun n pg hn h => ⟨pg, hp ▸ h⟩)).2

/-- C106: the stale entry is what `flush_only_read_unchanged_iff` asks about. -/
example : (staleDb.setPage 0 (exampleDbPage 1)).flush ≠ .ok { staleDb.setPage 0 (exampleDbPage 1) with io := staleFile } := by
  intro h
  have := (flush_only_read_unchanged_iff staleDb_open staleDb_session (by decide +kernel) stale_regular).1 h 156 0xf8
    (.inr ⟨1, exampleDbPage 1, by decide, rfl,
      { header := ⟨0x1fff, 0x1fff, 0, ⟨1⟩, ⟨2⟩, 0, 0x1fff⟩, entries := [] }, by decide +kernel,
      .inl ⟨0, 0, by decide, by decide +kernel, rfl, by decide +kernel⟩⟩)
  exact absurd this (by decide +kernel)

end Rekordcrate
