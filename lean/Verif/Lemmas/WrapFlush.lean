import Verif.Lemmas.WrapRows
import Verif.Lemmas.WrapTool
import Verif.Lemmas.Flush
import Verif.Spec.WrapFlush

/-! # Lemmas on flushing without overflow checks -/

namespace Rekordcrate

/-! ## The writes of a flush -/

/-- The pages from position `p` on, each `size` bytes, and the writes they make. -/
inductive PagesWrittenWrap (size : Nat) : Nat → List LazyPage → List Patch → Prop where
  | nil {p : Nat} : PagesWrittenWrap size p [] []
  | skip {p : Nat} {l : List LazyPage} {ps : List Patch} (t : PagesWrittenWrap size (p + size) l ps) :
      PagesWrittenWrap size p (.notLoaded :: l) ps
  | page {p : Nat} {pg : Page} {l : List LazyPage} {a ps : List Patch}
      (h : pg.writeWrap size p = .ok ((), p + size, a)) (t : PagesWrittenWrap size (p + size) l ps) :
      PagesWrittenWrap size p (.loaded pg :: l) (a ++ ps)

theorem PagesWrittenWrap.write {size : UInt32} {p : Nat} {l : List LazyPage} {ps : List Patch}
    (h : PagesWrittenWrap size.toNat p l ps) :
    ∃ q, Wr.forEach (LazyPage.writeWrap size) l p = .ok ((), q, ps) := by
  induction h with
  | nil => exact ⟨_, rfl⟩
  | skip _ ih =>
    obtain ⟨q, ih⟩ := ih
    exact ⟨q, Wr.bind_of_ok (ps1 := []) (Wr.seekBy_nat _ _) ih⟩
  | page h _ ih =>
    obtain ⟨q, ih⟩ := ih
    exact ⟨q, Wr.bind_of_ok h ih⟩

/-- Every write belongs to a page in memory. -/
theorem PagesWrittenWrap.mem {size p : Nat} {l : List LazyPage} {ps : List Patch} (h : PagesWrittenWrap size p l ps)
    {q : Patch} (hq : q ∈ ps) :
    ∃ (k : Nat) (pg : Page) (a : List Patch), l[k]? = some (.loaded pg) ∧
      pg.writeWrap size (p + k * size) = .ok ((), p + k * size + size, a) ∧ q ∈ a := by
  induction h with
  | nil => cases hq
  | @skip p l ps _ ih =>
    obtain ⟨k, pg, a, h1, h2, h3⟩ := ih hq
    refine ⟨k + 1, pg, a, h1, ?_, h3⟩
    rw [show p + (k + 1) * size = p + size + k * size by rw [Nat.add_mul]; omega]
    exact h2
  | @page p pg l a ps h _ ih =>
    rcases List.mem_append.1 hq with hq | hq
    · exact ⟨0, pg, a, rfl, by rw [Nat.zero_mul]; exact h, hq⟩
    · obtain ⟨k, pg, a, h1, h2, h3⟩ := ih hq
      refine ⟨k + 1, pg, a, h1, ?_, h3⟩
      rw [show p + (k + 1) * size = p + size + k * size by rw [Nat.add_mul]; omega]
      exact h2

theorem PagesWrittenWrap.exists {size : Nat} {l : List LazyPage} (p : Nat)
    (h : ∀ (k : Nat) (pg : Page), l[k]? = some (.loaded pg) →
      ∃ a, pg.writeWrap size (p + k * size) = .ok ((), p + k * size + size, a)) :
    ∃ ps, PagesWrittenWrap size p l ps := by
  induction l generalizing p with
  | nil => exact ⟨[], .nil⟩
  | cons x l ih =>
    obtain ⟨ps, hps⟩ := ih (p + size) fun k pg hk => by
      have := h (k + 1) pg (by simpa using hk)
      rwa [show p + (k + 1) * size = p + size + k * size by rw [Nat.add_mul]; omega] at this
    cases x with
    | notLoaded => exact ⟨ps, .skip hps⟩
    | loaded pg =>
      obtain ⟨a, ha⟩ := h 0 pg rfl
      rw [Nat.zero_mul] at ha
      exact ⟨a ++ ps, .page ha hps⟩

namespace Database

theorem flushWritesWrap_of {d : Database}
    (hf : 28 + 16 * d.content.header.tables.length ≤ d.content.header.pageSize.toNat) {ps : List Patch}
    (h : PagesWrittenWrap d.content.header.pageSize.toNat d.content.header.pageSize.toNat d.content.pages ps) :
    d.flushWritesWrap = .ok (d.headerPatches ++ ps) := by
  obtain ⟨q, hq⟩ := h.write
  unfold flushWritesWrap LazyDatabase.writeWrap
  have hlen := d.content.header.enc_length
  have hw : (do
      Wr.emit d.content.header.enc
      Wr.emit (List.replicate (d.content.header.pageSize.toNat - d.content.header.enc.length) 0)
      Wr.forEach (LazyPage.writeWrap d.content.header.pageSize) d.content.pages : Wr Unit) 0 =
      .ok ((), q, d.headerPatches ++ ps) := by
    refine Wr.bind_of_ok (ps1 := [⟨0, d.content.header.enc⟩]) (Wr.emit_def _ _) ?_
    rw [Nat.zero_add]
    refine Wr.bind_of_ok (ps2 := ps) (Wr.emit_def _ _) ?_
    rw [List.length_replicate, show d.content.header.enc.length +
      (d.content.header.pageSize.toNat - d.content.header.enc.length) = d.content.header.pageSize.toNat by omega]
    exact hq
  rw [hw]
  rfl

end Database

/-! ## Pages in memory -/

section

variable {file : Bytes} {h : Header} {db : DatabaseType}

/-- What stays true of an iterator over the pages of a table, also after failures. -/
structure PageIterator.Steady (it : PageIterator) (file : Bytes) (h : Header) (db : DatabaseType) : Prop where
  io : it.io = file
  size : it.pageSize = h.pageSize
  kind : it.dbType = db
  pages : LoadedFrom file h db it.pages
  off : it.offset = it.start + 1

theorem PageIterator.Steady.next {it : PageIterator} (a : it.Steady file h db) : it.nextWrap.2.Steady file h db := by
  unfold PageIterator.nextWrap
  split
  · exact a
  · rename_i i hi
    split
    · exact a
    · rename_i hlt
      have ho := a.off
      simp only
      split
      · exact ⟨a.io, a.size, a.kind, a.pages, a.off⟩
      · split
        · exact ⟨a.io, a.size, a.kind, a.pages, a.off⟩
        · have hoff : i.val.toNat + 1 = it.start + (i.val.toNat - it.offset) + 1 + 1 := by omega
          split
          · exact ⟨a.io, a.size, a.kind, a.pages, hoff⟩
          · exact ⟨a.io, a.size, a.kind, a.pages, hoff⟩
          · split
            · rename_i pg hr
              rw [a.io, a.size, a.kind] at hr
              obtain ⟨q, hr⟩ := readPageWrap_ok.1 hr
              rw [show i.val.toNat = it.start + (i.val.toNat - it.offset) + 1 by omega] at hr
              exact ⟨a.io, a.size, a.kind, a.pages.set hr, hoff⟩
            · exact ⟨a.io, a.size, a.kind, a.pages, hoff⟩
            · exact ⟨a.io, a.size, a.kind, a.pages, hoff⟩

theorem PageIterator.Steady.afterCalls {it : PageIterator} (a : it.Steady file h db) (n : Nat) :
    (PageIterator.afterCallsWrap n it).Steady file h db := by
  induction n generalizing it with
  | zero => exact a
  | succ n ih => exact ih a.next

theorem Database.About.load {d d1 : Database} {i : PageIndex} {pg : Page} (a : d.About file h db)
    (hl : d.loadPageWrap i = .ok (d1, pg)) : d1.About file h db := by
  have hlen := a.pages.1
  have hb := h.nextUnusedPage.val.toNat_lt
  unfold Database.loadPageWrap at hl
  split at hl
  · cases hl
  · injection hl with hl
    injection hl with hl
    subst hl
    exact a
  · rename_i hp
    obtain ⟨pg', hr, hl⟩ := Res.bind_eq_ok.1 hl
    injection hl with hl
    injection hl with h1 h2
    subst h1
    have hlt := (List.getElem?_eq_some_iff.1 hp).1
    have hi := i.val.toNat_lt
    have hi1 : 1 ≤ i.val.toNat := by
      apply Nat.le_of_not_lt
      intro h0
      have : subWrap64 i.val.toNat 1 = 2 ^ 64 - 1 := by unfold subWrap64; omega
      omega
    have hslot : subWrap64 i.val.toNat 1 + 1 = i.val.toNat := by unfold subWrap64; omega
    rw [a.io, a.header, a.kind] at hr
    obtain ⟨q, hr⟩ := readPageWrap_ok.1 hr
    rw [← hslot] at hr
    exact ⟨a.io, a.header, a.kind, a.pages.set hr⟩

theorem Database.About.session {d d' : Database} (a : d.About file h db) (hs : d.ReleaseSession d') :
    d'.About file h db := by
  induction hs with
  | done d => exact a
  | load hl _ ih => exact ih (a.load hl)
  | @iterate d d' t calls _ ih =>
    refine ih (a.after ?_)
    have st : (d.pagesOf t).Steady file h db := ⟨a.io, by rw [← a.header]; rfl, a.kind, a.pages, rfl⟩
    exact (st.afterCalls calls).pages

end

end Rekordcrate
