import Verif.Lemmas.WrapFlush
import Verif.Props.Flush

/-! # C98: writing back rows, pages and databases without overflow checks -/

namespace Rekordcrate
open Rd

/-! ## Rows and pages -/

/-- C98: without overflow checks, a row that was read is written back to the bytes it was read from, if its ISRCs
have exact length fields: also a row with a string of impossible length. -/
theorem row_release_rewrite {t : PageType} {img : Bytes} {p q : Nat} {r : Row} (h : Row.readWrap t img p = .ok (r, q))
    (he : ∀ x ∈ r.stringsAt p, x.2.ExactAt img x.1) :
    ∃ p' ps, r.writeWrap p = .ok ((), p', ps) ∧ applyPatches img ps = img := by
  obtain ⟨-, p', ps, h1, h2⟩ := Row.readWrap_then_write h he
  exact ⟨p', ps, h1, applyPatches_of_contains h2⟩

theorem DataPageContent.pageHeapSizeWrap_eq {n : Nat} (h : 40 ≤ n) (hn : n < 2 ^ 32) :
    DataPageContent.pageHeapSizeWrap n = n - 40 := by
  unfold DataPageContent.pageHeapSizeWrap subWrap32
  omega

theorem page_release_rewrite_contained {pageSize : Nat} (hp : pageSize < 2 ^ 32) {db : DatabaseType} {img : Bytes}
    {p q : Nat} {pg : Page} (h : Page.readWrap pageSize db img p = .ok (pg, q)) (hc : pg.Canonical pageSize img p) :
    ∃ e ps, pg.writeWrap pageSize p = .ok ((), e, ps) ∧ Contains img ps ∧ (40 ≤ pageSize → e = p + pageSize) := by
  obtain ⟨hv, hh, hcont⟩ := Page.readWrap_eq_ok h
  rcases Page.content_readWrap_inv hcont with ⟨-, c, hd, hr⟩ | ⟨hf, c, hd, hr⟩
  · obtain ⟨hstr, -⟩ := hc
    obtain ⟨-, hb, h36, hg, h16, hrows⟩ := DataPageContent.readWrap_inv hr
    have hstr' : ∀ x ∈ c.rows, ∀ y ∈ x.2.stringsAt (p + 40 + x.1.toNat), y.2.ExactAt img y.1 := by
      intro x hx y hy
      refine hstr y ?_
      unfold Page.stringsAt
      rw [hd]
      exact List.mem_flatMap.2 ⟨x, hx, hy⟩
    obtain ⟨rps, hw, hrc⟩ := DataPageContent.RowsWrittenWrap.of_contains (base := p + 32 + 8) (img := img)
      (rows := c.rows) fun x hx => by
        obtain ⟨q', hx'⟩ := hrows x hx
        obtain ⟨-, p', ps, h1, h2⟩ := Row.readWrap_then_write hx' (hstr' x hx)
        exact ⟨p', ps, h1, h2⟩
    have hwrite := DataPageContent.writeWrap_ok h16 (pageSize := pageSize) (p := p + 32) h36 hw
    refine ⟨_, _, Page.writeWrap_eq_ok.2 ⟨_, by rw [hd]; exact hwrite, rfl⟩, ?_, fun h40 => ?_⟩
    · rw [Contains.append_iff, Contains.append_iff, Contains.append_iff, Contains.append_iff, Contains.cons_iff,
        Contains.cons_iff]
      exact ⟨⟨hh, Contains.nil⟩, ⟨hb, Contains.nil⟩, hg, hrc, Contains.nil⟩
    · rw [DataPageContent.pageHeapSizeWrap_eq h40 hp]
      omega
  · -- index pages are read and written in the same way
    have h' : Page.read pageSize db img p = .ok (pg, q) := by
      have := Page.read_of hv hh (Page.content_read_index (pageSize := pageSize) hf hr)
      rw [← hd] at this
      exact this
    obtain ⟨ps, h1, h2⟩ := page_rewrite_contained h' hc
    refine ⟨_, ps, ?_, h2, fun _ => rfl⟩
    rw [Page.write_agree pg hp p (by rw [h1]; intro hx; cases hx), h1]

/-- C98: without overflow checks, a page that was read is written back without failure, and the file is as before,
if the ISRCs of its rows have exact length fields and an index page is padded as usual. -/
theorem page_release_rewrite {pageSize : Nat} (hp : pageSize < 2 ^ 32) {db : DatabaseType} {img : Bytes} {p q : Nat}
    {pg : Page} (h : Page.readWrap pageSize db img p = .ok (pg, q)) (hc : pg.Canonical pageSize img p) :
    ∃ e ps, pg.writeWrap pageSize p = .ok ((), e, ps) ∧ applyPatches img ps = img := by
  obtain ⟨e, ps, h1, h2, -⟩ := page_release_rewrite_contained hp h hc
  exact ⟨e, ps, h1, applyPatches_of_contains h2⟩

/-! ## Databases -/

/-- C98: without overflow checks, opening a canonical file, loading pages and iterating in any order, then flushing:
the file is as before. -/
theorem flush_release_without_modification {file : Bytes} {db : DatabaseType} {d d' : Database}
    (ho : Database.openAt file 0 db = .ok d) (hc : ReleaseCanonicalFile db file d.content.header)
    (hs : d.ReleaseSession d') : d'.flushWrap = .ok d' := by
  have a := (openAt_about ho).session hs
  have hb : HasAt file 0 d.content.header.enc := by
    unfold Database.openAt LazyDatabase.read at ho
    obtain ⟨⟨c, q⟩, h0, ho⟩ := Res.bind_eq_ok.1 ho
    obtain ⟨hd, p1, h1, h2⟩ := Rd.bind_eq_ok.1 h0
    rw [Rd.pure_eq_ok] at h2
    obtain ⟨rfl, rfl⟩ := h2
    simp only [Res.ok.injEq] at ho
    subst ho
    exact (header_read_write _ _ _ _ _ h1).2.1
  generalize hhd : d.content.header = hd at *
  have hpages : ∀ (k : Nat) (pg : Page), d'.content.pages[k]? = some (.loaded pg) →
      ∃ ps, pg.writeWrap hd.pageSize.toNat (hd.pageSize.toNat + k * hd.pageSize.toNat) =
        .ok ((), hd.pageSize.toNat + k * hd.pageSize.toNat + hd.pageSize.toNat, ps) ∧ Contains file ps := by
    intro k pg hk
    obtain ⟨q, hr⟩ := a.pages.2 k pg hk
    have hlt : k < hd.nextUnusedPage.val.toNat - 1 := by
      rw [← a.pages.1]
      exact (List.getElem?_eq_some_iff.1 hk).1
    obtain ⟨e, ps, h1, h2, h3⟩ := page_release_rewrite_contained hd.pageSize.toNat_lt hr
      (hc.pages (k + 1) pg q (by omega) (by omega) hr)
    rw [h3 hc.pageFits] at h1
    refine ⟨ps, ?_, h2⟩
    rw [show hd.pageSize.toNat + k * hd.pageSize.toNat = (k + 1) * hd.pageSize.toNat by
      rw [Nat.add_mul]; omega]
    exact h1
  obtain ⟨ps, hps⟩ := PagesWrittenWrap.exists (size := hd.pageSize.toNat) hd.pageSize.toNat fun k pg hk => by
    obtain ⟨a, ha, -⟩ := hpages k pg hk
    exact ⟨a, ha⟩
  have hcont : Contains file ps := fun q hq => by
    obtain ⟨k, pg, a, h1, h2, h3⟩ := hps.mem hq
    obtain ⟨a', h4, h5⟩ := hpages k pg h1
    rw [h2] at h4
    simp only [Res.ok.injEq, Prod.mk.injEq, true_and] at h4
    subst h4
    exact h5 q h3
  have hw := Database.flushWritesWrap_of (d := d') (ps := ps) (by rw [a.header]; exact hc.headerFits)
    (by rw [a.header]; exact hps)
  unfold Database.flushWrap
  rw [hw, Res.ok_bind]
  have : applyPatches d'.io (d'.headerPatches ++ ps) = d'.io := by
    rw [a.io]
    refine applyPatches_of_contains ?_
    rw [Contains.append_iff]
    refine ⟨?_, hcont⟩
    unfold Database.headerPatches
    rw [a.header, Contains.cons_iff, Contains.cons_iff]
    refine ⟨hb, fun i hi => ?_, Contains.nil⟩
    rw [List.length_replicate, hd.enc_length] at hi
    simp only
    rw [List.getElem?_replicate, hd.enc_length, if_pos hi]
    exact hc.padding _ (by omega) (by omega)
  rw [this]

/-- C98: a file that is canonical for builds with overflow checks is so for the others, if its pages make no
build with overflow checks panic. -/
theorem CanonicalFile.release {db : DatabaseType} {file : Bytes} {h : Header} (hc : CanonicalFile db file h)
    (h40 : 40 ≤ h.pageSize.toNat) (hn : ∀ n, 1 ≤ n → n < h.nextUnusedPage.val.toNat →
      Page.read h.pageSize.toNat db file (n * h.pageSize.toNat) ≠ .panic) : ReleaseCanonicalFile db file h := by
  refine ⟨h40, hc.headerFits, hc.padding, fun n pg q h1 h2 hr => hc.pages n pg q h1 h2 ?_⟩
  rw [← Page.read_agree h.pageSize.toNat_lt db _ _ (hn n h1 h2)]
  exact hr

/-! ## Concrete cases -/

/-- A string that declares no bytes takes in the following 65532 bytes, wherever it is. -/
theorem empty_string_release_at {img : Bytes} {p : Nat} {c : Bytes} (hc : c.length = 65532)
    (h : HasAt img p ([0x40, 0, 0, 0] ++ c)) : DString.read img p = .panic ∧
      DString.readWrap img p = .ok (.long (.ascii c), p + 4 + 65532) := by
  obtain ⟨h4, hat⟩ := HasAt.append_iff.1 h
  have b0 : img[p]? = some 0x40 := h4 0 (by decide)
  have b1 : img[p + 1]? = some 0 := h4 1 (by decide)
  have b2 : img[p + 2]? = some 0 := h4 2 (by decide)
  have h1 : Rd.u8 img p = .ok (0x40, p + 1) := by rw [u8_eq, b0]
  have hu : U16At img (p + 1) 0 := ⟨0, 0, b1, b2, rfl⟩
  refine ⟨(DString.panic_iff _ _).2 (.inr ⟨0x40, 0, b0, by decide, hu, by decide⟩), ?_⟩
  have h2 : DString.readShortWrap img p = .err .assertFail := by
    unfold DString.readShortWrap
    rw [bind_of_ok h1, require_false_err (by decide)]
  have hm : Rd.magic [0] img (p + 1 + 2) = .ok ((), p + 4) :=
    RT.magic [0] _ _ (by intro i hi; match i with | 0 => exact h4 3 (by decide) | i + 1 => simp at hi)
  have hb : LongBody.read 0x40 65532 img (p + 4) = .ok (.ascii c, p + 4 + 65532) := by
    unfold LongBody.read Rd.orElse
    rw [require_false_err (by decide)]
    simp only
    rw [require_true_bind (by decide), bind_of_ok (bytes_eq_ok.2 ⟨hc, hat, rfl⟩ : Rd.bytes 65532 img (p + 4) = _)]
    rfl
  unfold DString.readWrap Rd.orElse
  rw [h2]
  simp only
  unfold DString.readLongWrap
  rw [bind_of_ok h1, require_true_bind (by decide),
    bind_of_ok (u16_ok_iff.2 ⟨hu, rfl⟩ : Rd.u16 _ (p + 1) = .ok ((0 : UInt16), p + 1 + 2)), bind_of_ok hm]
  rw [show subWrap16 (UInt16.toNat 0) 4 = 65532 from rfl, bind_of_ok hb]
  rfl

/-- A genre whose name declares no bytes: builds with overflow checks panic, the others read it, and write it back. -/
example {img : Bytes} {c : Bytes} (hc : c.length = 65532) (h : HasAt img 0 (encU32 1 ++ ([0x40, 0, 0, 0] ++ c))) :
    Row.read (.plain .genres) img 0 = .panic ∧ ∃ p' ps,
    (Row.plain (.genre ⟨1, .long (.ascii c)⟩)).writeWrap 0 = .ok ((), p', ps) ∧ applyPatches img ps = img := by
  obtain ⟨h1, h2⟩ := HasAt.append_iff.1 h
  have hid : Rd.u32 img 0 = .ok (1, 4) := RT.u32 1 _ _ h1
  have h2 : HasAt img 4 ([0x40, 0, 0, 0] ++ c) := h2
  obtain ⟨h3, h4⟩ := empty_string_release_at hc h2
  have hr : Row.readWrap (.plain .genres) img 0 = .ok (.plain (.genre ⟨1, .long (.ascii c)⟩), 4 + 4 + 65532) := by
    have hg : Genre.readWrap img 0 = .ok (⟨1, .long (.ascii c)⟩, 4 + 4 + 65532) := by
      unfold Genre.readWrap
      rw [bind_of_ok hid, bind_of_ok h4]
      rfl
    have hp : PlainRow.readWrap .genres img 0 = .ok (.genre ⟨1, .long (.ascii c)⟩, 4 + 4 + 65532) := by
      unfold PlainRow.readWrap
      simp only
      rw [bind_of_ok hg]
      rfl
    unfold Row.readWrap
    simp only
    rw [bind_of_ok hp]
    rfl
  refine ⟨?_, row_release_rewrite hr fun x hx => ?_⟩
  · have hg : Genre.read img 0 = .panic := by
      unfold Genre.read
      rw [bind_of_ok hid, bind_of_panic h3]
    have hp : PlainRow.read .genres img 0 = .panic := by
      unfold PlainRow.read
      simp only
      rw [bind_of_panic hg]
    unfold Row.read
    simp only
    rw [bind_of_panic hp]
  · obtain rfl := List.mem_singleton.1 hx
    trivial

/-- The example file, whose pages can all be read. -/
example {d' : Database} (hs : (exampleDb .genres 1 3).ReleaseSession d') : d'.flushWrap = .ok d' :=
  flush_release_without_modification exampleDb_open
    (exampleFile_canonical.release (by decide) fun n h1 h2 => by
      have h3 : n < 4 := h2
      match n, h1, h3 with
      | 1, _, _ => decide +kernel
      | 2, _, _ => decide +kernel
      | 3, _, _ => decide +kernel) hs

end Rekordcrate
