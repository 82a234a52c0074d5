import Verif.Lemmas.Database
import Verif.Props.Page
import Verif.Props.Header

/-! # Helper lemmas about flushing -/

namespace Rekordcrate

/-! ## Writing twice -/

/-- At covered positions the result does not depend on what was there before. -/
theorem applyPatches_covered {ps : List Patch} (img img' : Bytes) {i : Nat} (h : ∃ q ∈ ps, q.Covers i) :
    (applyPatches img ps)[i]? = (applyPatches img' ps)[i]? ∧ i < (applyPatches img ps).length := by
  induction ps generalizing img img' with
  | nil => obtain ⟨q, hq, -⟩ := h; cases hq
  | cons q ps ih =>
    by_cases hp : ∃ q ∈ ps, q.Covers i
    · exact ih _ _ hp
    · have hq : q.Covers i := by
        obtain ⟨r, hr, hc⟩ := h
        rcases List.mem_cons.1 hr with rfl | hr
        · exact hc
        · exact absurd ⟨r, hr, hc⟩ hp
      have hn : ∀ r ∈ ps, ¬ r.Covers i := fun r hr hc => hp ⟨r, hr, hc⟩
      have hget : ∀ img : Bytes, (q.apply img)[i]? = q.bytes[i - q.off]? := fun img => by
        rw [Patch.apply_getElem?, if_pos (show q.off ≤ i ∧ i < q.off + q.bytes.length from hq)]
      have hlt : ∀ img : Bytes, i < (q.apply img).length := fun img => by
        rcases Nat.lt_or_ge i (q.apply img).length with h | h
        · exact h
        · have h1 := hget img
          rw [List.getElem?_eq_none h] at h1
          have := List.getElem?_eq_none_iff.1 h1.symm
          obtain ⟨h1, h2⟩ := hq
          omega
      rw [applyPatches_cons, applyPatches_cons, applyPatches_of_not_covers (hlt img) hn,
        applyPatches_of_not_covers (hlt img') hn, hget, hget]
      exact ⟨rfl, Nat.lt_of_lt_of_le (hlt img) (applyPatches_length_le _ _)⟩

/-- The file ends where it ended, or where the last write ended. -/
theorem applyPatches_length (img : Bytes) (ps : List Patch) {i : Nat} (h : i < (applyPatches img ps).length) :
    i < img.length ∨ ∃ q ∈ ps, q.bytes ≠ [] ∧ i < q.off + q.bytes.length := by
  induction ps generalizing img with
  | nil => exact .inl h
  | cons q ps ih =>
    rcases ih (q.apply img) h with h | ⟨r, hr, h⟩
    · unfold Patch.apply at h
      split at h
      · exact .inl h
      · rename_i hb
        simp only [List.length_append, List.length_take, List.length_replicate, List.length_drop] at h
        by_cases hi : i < img.length
        · exact .inl hi
        · exact .inr ⟨q, List.mem_cons_self .., hb, by omega⟩
    · exact .inr ⟨r, List.mem_cons_of_mem _ hr, h⟩

theorem applyPatches_reach (img : Bytes) {ps : List Patch} {q : Patch} (hq : q ∈ ps) (hb : q.bytes ≠ []) :
    q.off + q.bytes.length ≤ (applyPatches img ps).length := by
  have hl := List.length_pos_iff.2 hb
  have := (applyPatches_covered (ps := ps) img img (i := q.off + q.bytes.length - 1)
    ⟨q, hq, by unfold Patch.Covers; omega⟩).2
  omega

/-- Making the same writes again changes nothing. -/
theorem applyPatches_twice (img : Bytes) (ps : List Patch) :
    applyPatches (applyPatches img ps) ps = applyPatches img ps := by
  have hle := applyPatches_length_le (applyPatches img ps) ps
  have hge : (applyPatches (applyPatches img ps) ps).length ≤ (applyPatches img ps).length := by
    apply Nat.le_of_not_lt
    intro h
    rcases applyPatches_length _ _ h with h | ⟨q, hq, hb, h⟩
    · omega
    · have := applyPatches_reach img hq hb
      omega
  apply List.ext_getElem?
  intro i
  by_cases hc : ∃ q ∈ ps, q.Covers i
  · exact (applyPatches_covered _ _ hc).1
  · by_cases hi : i < (applyPatches img ps).length
    · exact applyPatches_of_not_covers hi fun q hq h => hc ⟨q, hq, h⟩
    · rw [List.getElem?_eq_none (by omega), List.getElem?_eq_none (by omega)]

/-! ## The writes of a flush -/

/-- The pages from position `p` on, each `size` bytes, and the writes they make. -/
inductive PagesWritten (size : Nat) : Nat → List LazyPage → List Patch → Prop where
  | nil {p : Nat} : PagesWritten size p [] []
  | skip {p : Nat} {l : List LazyPage} {ps : List Patch} (t : PagesWritten size (p + size) l ps) :
      PagesWritten size p (.notLoaded :: l) ps
  | page {p : Nat} {pg : Page} {l : List LazyPage} {a ps : List Patch}
      (h : pg.write size p = .ok ((), p + size, a)) (t : PagesWritten size (p + size) l ps) :
      PagesWritten size p (.loaded pg :: l) (a ++ ps)

theorem PagesWritten.write {size : UInt32} {p : Nat} {l : List LazyPage} {ps : List Patch}
    (h : PagesWritten size.toNat p l ps) :
    ∃ q, Wr.forEach (LazyPage.write size) l p = .ok ((), q, ps) := by
  induction h with
  | nil => exact ⟨_, rfl⟩
  | skip _ ih =>
    obtain ⟨q, ih⟩ := ih
    exact ⟨q, Wr.bind_of_ok (ps1 := []) (Wr.seekBy_nat _ _) ih⟩
  | page h _ ih =>
    obtain ⟨q, ih⟩ := ih
    exact ⟨q, Wr.bind_of_ok h ih⟩

/-- Every write belongs to a page in memory. -/
theorem PagesWritten.mem {size p : Nat} {l : List LazyPage} {ps : List Patch} (h : PagesWritten size p l ps)
    {q : Patch} (hq : q ∈ ps) :
    ∃ (k : Nat) (pg : Page) (a : List Patch), l[k]? = some (.loaded pg) ∧
      pg.write size (p + k * size) = .ok ((), p + k * size + size, a) ∧ q ∈ a := by
  induction h with
  | nil => cases hq
  | @skip p l ps _ ih =>
    obtain ⟨k, pg, a, h1, h2, h3⟩ := ih hq
    refine ⟨k + 1, pg, a, h1, ?_, h3⟩
    rw [show p + (k + 1) * size = p + size + k * size by rw [Nat.add_mul]; omega]
    exact h2
  | @page p pg l a ps h _ ih =>
    rcases List.mem_append.1 hq with hq | hq
    · exact ⟨0, pg, a, rfl, by rw [Nat.zero_mul]; exact h, hq⟩
    · obtain ⟨k, pg, a, h1, h2, h3⟩ := ih hq
      refine ⟨k + 1, pg, a, h1, ?_, h3⟩
      rw [show p + (k + 1) * size = p + size + k * size by rw [Nat.add_mul]; omega]
      exact h2

/-- Every page in memory makes its writes. -/
theorem PagesWritten.page_at {size p : Nat} {l : List LazyPage} {ps : List Patch} (h : PagesWritten size p l ps)
    {k : Nat} {pg : Page} (hk : l[k]? = some (.loaded pg)) :
    ∃ a, pg.write size (p + k * size) = .ok ((), p + k * size + size, a) ∧ ∀ q ∈ a, q ∈ ps := by
  induction h generalizing k with
  | nil => simp at hk
  | @skip p l ps _ ih =>
    cases k with
    | zero => simp at hk
    | succ k =>
      obtain ⟨a, h1, h2⟩ := ih (by simpa using hk)
      refine ⟨a, ?_, h2⟩
      rw [show p + (k + 1) * size = p + size + k * size by rw [Nat.add_mul]; omega]
      exact h1
  | @page p pg' l a ps h _ ih =>
    cases k with
    | zero =>
      simp only [List.getElem?_cons_zero, Option.some.injEq, LazyPage.loaded.injEq] at hk
      subst hk
      exact ⟨a, by rw [Nat.zero_mul]; exact h, fun q hq => List.mem_append_left _ hq⟩
    | succ k =>
      obtain ⟨a', h1, h2⟩ := ih (by simpa using hk)
      refine ⟨a', ?_, fun q hq => List.mem_append_right _ (h2 q hq)⟩
      rw [show p + (k + 1) * size = p + size + k * size by rw [Nat.add_mul]; omega]
      exact h1

theorem PagesWritten.exists {size : Nat} {l : List LazyPage} (p : Nat)
    (h : ∀ (k : Nat) (pg : Page), l[k]? = some (.loaded pg) →
      ∃ a, pg.write size (p + k * size) = .ok ((), p + k * size + size, a)) :
    ∃ ps, PagesWritten size p l ps := by
  induction l generalizing p with
  | nil => exact ⟨[], .nil⟩
  | cons x l ih =>
    obtain ⟨ps, hps⟩ := ih (p + size) fun k pg hk => by
      have := h (k + 1) pg (by simpa using hk)
      rwa [show p + (k + 1) * size = p + size + k * size by rw [Nat.add_mul]; omega] at this
    cases x with
    | notLoaded => exact ⟨ps, .skip hps⟩
    | loaded pg =>
      obtain ⟨a, ha⟩ := h 0 pg rfl
      rw [Nat.zero_mul] at ha
      exact ⟨a ++ ps, .page ha hps⟩

namespace Database

/-- The writes for the first page of the file. -/
def headerPatches (d : Database) : List Patch :=
  [⟨0, d.content.header.enc⟩, ⟨d.content.header.enc.length,
    List.replicate (d.content.header.pageSize.toNat - d.content.header.enc.length) 0⟩]

theorem flushWrites_of {d : Database}
    (hf : 28 + 16 * d.content.header.tables.length ≤ d.content.header.pageSize.toNat) {ps : List Patch}
    (h : PagesWritten d.content.header.pageSize.toNat d.content.header.pageSize.toNat d.content.pages ps) :
    d.flushWrites = .ok (d.headerPatches ++ ps) := by
  obtain ⟨q, hq⟩ := h.write
  unfold flushWrites LazyDatabase.write
  have hlen := d.content.header.enc_length
  have hw : (do
      Wr.emit d.content.header.enc
      Wr.emit (List.replicate (d.content.header.pageSize.toNat - d.content.header.enc.length) 0)
      Wr.forEach (LazyPage.write d.content.header.pageSize) d.content.pages : Wr Unit) 0 =
      .ok ((), q, d.headerPatches ++ ps) := by
    refine Wr.bind_of_ok (ps1 := [⟨0, d.content.header.enc⟩]) (Wr.emit_def _ _) ?_
    rw [Nat.zero_add]
    refine Wr.bind_of_ok (ps2 := ps) (Wr.emit_def _ _) ?_
    rw [List.length_replicate, show d.content.header.enc.length +
      (d.content.header.pageSize.toNat - d.content.header.enc.length) = d.content.header.pageSize.toNat by omega]
    exact hq
  rw [hw]
  rfl

theorem headerPatches_within {d : Database}
    (hf : 28 + 16 * d.content.header.tables.length ≤ d.content.header.pageSize.toNat) :
    PatchesWithin d.headerPatches 0 d.content.header.pageSize.toNat := by
  have hlen := d.content.header.enc_length
  intro q hq
  simp only [headerPatches, List.mem_cons, List.not_mem_nil, or_false] at hq
  rcases hq with rfl | rfl
  · simp only; omega
  · simp only [List.length_replicate]; omega

/-- What a flush of a storable database writes. -/
theorem Storable.writes {d : Database} (h : d.Storable) :
    ∃ ps, d.flushWrites = .ok ps ∧ Compatible ps ∧
      (∀ q ∈ ps, (q.off + q.bytes.length ≤ d.content.header.pageSize.toNat) ∨
        ∃ n, d.IsLoaded n ∧ n * d.content.header.pageSize.toNat ≤ q.off ∧
          q.off + q.bytes.length ≤ (n + 1) * d.content.header.pageSize.toNat) ∧
      (∀ q ∈ d.headerPatches, q ∈ ps) ∧
      ∀ (k : Nat) (pg : Page), d.content.pages[k]? = some (.loaded pg) →
        ∃ a, pg.write d.content.header.pageSize.toNat ((k + 1) * d.content.header.pageSize.toNat) =
          .ok ((), (k + 1) * d.content.header.pageSize.toNat + d.content.header.pageSize.toNat, a) ∧
          ∀ q ∈ a, q ∈ ps := by
  obtain ⟨S, hS⟩ : ∃ S, S = d.content.header.pageSize.toNat := ⟨_, rfl⟩
  have pos : ∀ k, S + k * S = (k + 1) * S := fun k => by rw [Nat.add_mul]; omega
  have hpages : ∀ (k : Nat) (pg : Page), d.content.pages[k]? = some (.loaded pg) →
      ∃ a, pg.write S (S + k * S) = .ok ((), S + k * S + S, a) := fun k pg hk => by
    have hso := h.pages k pg hk
    rw [← hS] at hso
    obtain ⟨a, ha, -⟩ := page_roundtrip hso (S + k * S)
    exact ⟨a, ha⟩
  obtain ⟨ps, hps⟩ := PagesWritten.exists S hpages
  have within : ∀ (k : Nat) (pg : Page) (a : List Patch), d.content.pages[k]? = some (.loaded pg) →
      pg.write S (S + k * S) = .ok ((), S + k * S + S, a) →
      PatchesWithin a ((k + 1) * S) ((k + 1 + 1) * S) := fun k pg a hk ha => by
    have hso := h.pages k pg hk
    rw [← hS] at hso
    obtain ⟨a', h1, h2, -⟩ := page_roundtrip hso (S + k * S)
    rw [ha] at h1
    simp only [Res.ok.injEq, Prod.mk.injEq, true_and] at h1
    subst h1
    rw [pos] at h2
    exact h2.mono (Nat.le_refl _) (by rw [Nat.add_mul (k + 1)]; omega)
  refine ⟨d.headerPatches ++ ps, flushWrites_of h.headerFits (by rw [← hS]; exact hps), ?_, ?_, ?_, ?_⟩
  · -- writes of different pages are in different pages
    have hcomp : ∀ {p : Nat} {l : List LazyPage} {ps : List Patch}, PagesWritten S p l ps →
        (∀ (k : Nat) (pg : Page), l[k]? = some (.loaded pg) → pg.Sound S d.dbType) →
        Compatible ps ∧ ∀ q ∈ ps, p ≤ q.off := by
      intro p l ps hw
      induction hw with
      | nil => intro _; exact ⟨Compatible.nil, fun q hq => by cases hq⟩
      | @skip p l ps _ ih =>
        intro hs
        obtain ⟨i1, i2⟩ := ih fun k pg hk => hs (k + 1) pg (by simpa using hk)
        exact ⟨i1, fun q hq => by have := i2 q hq; omega⟩
      | @page p pg l a ps hpw _ ih =>
        intro hs
        obtain ⟨i1, i2⟩ := ih fun k pg hk => hs (k + 1) pg (by simpa using hk)
        obtain ⟨a', h1, h2, h3, -⟩ := page_roundtrip (hs 0 pg rfl) p
        rw [hpw] at h1
        simp only [Res.ok.injEq, Prod.mk.injEq, true_and] at h1
        subst h1
        refine ⟨h3.append i1 fun q hq r hr => ?_, fun q hq => ?_⟩
        · have := h2 q hq
          have := i2 r hr
          unfold DisjointRanges
          omega
        · rcases List.mem_append.1 hq with hq | hq
          · exact (h2 q hq).1
          · have := i2 q hq; omega
    obtain ⟨c1, c2⟩ := hcomp hps fun k pg hk => by rw [hS]; exact h.pages k pg hk
    refine Compatible.append ?_ c1 fun q hq r hr => ?_
    · apply PatchesDisjoint.compatible
      unfold PatchesDisjoint DisjointRanges headerPatches
      simp only [List.pairwise_cons, List.mem_cons, List.not_mem_nil, or_false, forall_eq, List.Pairwise.nil,
        and_true, false_imp_iff, implies_true]
      omega
    · have h1 := headerPatches_within h.headerFits q hq
      have h2 := c2 r hr
      unfold DisjointRanges
      omega
  · intro q hq
    rcases List.mem_append.1 hq with hq | hq
    · exact .inl (headerPatches_within h.headerFits q hq).2
    · obtain ⟨k, pg, a, h1, h2, h3⟩ := hps.mem hq
      have := within k pg a h1 h2 q h3
      rw [hS] at this
      exact .inr ⟨k + 1, ⟨by omega, pg, h1⟩, this.1, this.2⟩
  · exact fun q hq => List.mem_append_left _ hq
  · intro k pg hk
    obtain ⟨a, h1, h2⟩ := hps.page_at hk
    rw [pos] at h1
    rw [← hS]
    exact ⟨a, h1, fun q hq => List.mem_append_right _ (h2 q hq)⟩

theorem flush_eq {d : Database} {ps : List Patch} (h : d.flushWrites = .ok ps) :
    d.flush = .ok { d with io := applyPatches d.io ps } := by
  unfold flush
  rw [h]
  rfl

end Database

end Rekordcrate
