import Verif.Props.FailedFlush

/-! # C39: interrupted flushes, without conditions on the pages -/

namespace Rekordcrate

theorem applyPatches_same {img : Bytes} {ps : List Patch} {i : Nat} (hi : i < img.length)
    (h : ∀ q ∈ ps, ∀ j b, q.bytes[j]? = some b → q.off + j = i → img[i]? = some b) :
    (applyPatches img ps)[i]? = img[i]? := by
  induction ps generalizing img with
  | nil => rfl
  | cons q ps ih =>
    have e : (q.apply img)[i]? = img[i]? := by
      by_cases hc : q.Covers i
      · obtain ⟨c1, c2⟩ := hc
        rw [Patch.apply_getElem?, if_pos ⟨c1, c2⟩]
        have hb : q.bytes[i - q.off]? = some q.bytes[i - q.off] := List.getElem?_eq_getElem (by omega)
        rw [h q (by simp) _ _ hb (by omega)]
        exact hb
      · exact Patch.apply_of_not_covers hi hc
    rw [applyPatches_cons, ih (Nat.lt_of_lt_of_le hi (Patch.apply_length_le img q)), e]
    intro q' hq' j b hb hj
    rw [e]
    exact h q' (by simp [hq']) j b hb hj

/-- Some bytes are the same after every interruption of some writes exactly if no write has another byte there. -/
theorem interrupted_same_iff {img : Bytes} {ps : List Patch} {P : Nat → Prop} :
    (∀ done, Interrupted ps done → ∀ i, i < img.length → P i → (applyPatches img done)[i]? = img[i]?) ↔
      ∀ q ∈ ps, ∀ j b, q.bytes[j]? = some b → P (q.off + j) → q.off + j < img.length → img[q.off + j]? = some b := by
  constructor
  · intro h q hq j b hb hP hlt
    obtain ⟨k, hk, rfl⟩ := List.mem_iff_getElem.1 hq
    rw [← h (ps.take (k + 1)) ⟨k + 1, 0, .inl rfl⟩ _ hlt hP, List.take_succ_eq_append_getElem hk, applyPatches_append]
    have hj : j < ps[k].bytes.length := (List.getElem?_eq_some_iff.1 hb).1
    exact (Patch.hasAt_apply _ _ j hj).trans hb
  · intro h done hd i hi hP
    refine applyPatches_same hi fun q hq j b hb e => ?_
    have old : ∀ q ∈ ps, ∀ j b, q.bytes[j]? = some b → q.off + j = i → img[i]? = some b := by
      intro q hq j b hb e
      subst e
      exact h q hq j b hb hP hi
    obtain ⟨k, m, rfl | ⟨r, hr, rfl⟩⟩ := hd
    · exact old q (List.mem_of_mem_take hq) j b hb e
    · rcases List.mem_append.1 hq with hq | hq
      · exact old q (List.mem_of_mem_take hq) j b hb e
      · rw [List.mem_singleton] at hq
        subst hq
        refine old r (List.mem_of_getElem? hr) j b ?_ e
        obtain ⟨hj, hb⟩ := List.getElem?_eq_some_iff.1 hb
        simp only [List.length_take] at hj
        rw [List.getElem?_eq_some_iff]
        exact ⟨by omega, by rw [← hb]; simp⟩

/-- C39, exactly and for all databases, whether or not the flush would succeed: every byte of the file outside the
header page and the loaded pages is unchanged after every interruption exactly if no write of the flush has another
byte for such a place. -/
theorem flush_crash_iff (d : Database) :
    (∀ done, Interrupted (d.content.writeT 0).1 done → ∀ i, i < d.io.length → ¬ d.InDirtyPage i →
      (applyPatches d.io done)[i]? = d.io[i]?) ↔
      ∀ q ∈ (d.content.writeT 0).1, ∀ j b, q.bytes[j]? = some b → ¬ d.InDirtyPage (q.off + j) →
        q.off + j < d.io.length → d.io[q.off + j]? = some b :=
  interrupted_same_iff

theorem pages_inside {size : UInt32} (h40 : 40 ≤ size.toNat) {l : List LazyPage} {p : Nat}
    (hf : ∀ pg, LazyPage.loaded pg ∈ l → pg.Framed size.toNat ∧ pg.Within size.toNat) :
    ∀ x ∈ (Tw.forEach (LazyPage.writeT size) l p).1, ∃ k pg, l[k]? = some (.loaded pg) ∧
      p + k * size.toNat ≤ x.off ∧ x.off + x.bytes.length ≤ p + (k + 1) * size.toNat := by
  induction l generalizing p with
  | nil => intro x hx; cases hx
  | cons y l ih =>
    intro x hx
    change x ∈ ((y.writeT size >>= fun _ => Tw.forEach (LazyPage.writeT size) l) p).1 at hx
    rw [Tw.bind_def] at hx
    have here : x ∈ (y.writeT size p).1 → ∃ k pg, (y :: l)[k]? = some (.loaded pg) ∧
        p + k * size.toNat ≤ x.off ∧ x.off + x.bytes.length ≤ p + (k + 1) * size.toNat := by
      intro hx
      cases y with
      | notLoaded =>
        rw [Tw.eq_ok_of_forget (t := LazyPage.writeT size .notLoaded)
          (by rw [LazyPage.forget_writeT]; exact Wr.seekBy_nat _ _)] at hx
        cases hx
      | loaded pg =>
        obtain ⟨h1, h2⟩ := hf pg (by simp)
        have hup := Page.upAt (pg := pg) (size := size.toNat) (p := p) (fun c hc => by
          unfold Page.Framed at h1
          rw [hc] at h1
          exact h1) x hx
        have hdown := Page.downAt (p := p) h40 h2 h1 x hx
        exact ⟨0, pg, rfl, by omega, by omega⟩
    have there : ∀ q, q = p + size.toNat → x ∈ (Tw.forEach (LazyPage.writeT size) l q).1 →
        ∃ k pg, (y :: l)[k]? = some (.loaded pg) ∧
        p + k * size.toNat ≤ x.off ∧ x.off + x.bytes.length ≤ p + (k + 1) * size.toNat := by
      intro q hq hx
      obtain ⟨k, pg, h1, h2, h3⟩ := ih (fun pg hpg => hf pg (List.mem_cons_of_mem _ hpg)) x hx
      refine ⟨k + 1, pg, by simpa using h1, ?_, ?_⟩
      · rw [Nat.add_mul]; omega
      · rw [Nat.add_mul (k + 1)]; omega
    split at hx
    · rename_i a q hq
      rcases List.mem_append.1 hx with hx | hx
      · exact here hx
      · refine there q ?_ hx
        have hw : LazyPage.write size y p = .ok (a, q, (y.writeT size p).1) := by
          rw [← LazyPage.forget_writeT]
          unfold Tw.forget
          rw [hq]
        cases y with
        | notLoaded =>
          rw [show LazyPage.write size .notLoaded p = .ok ((), p + size.toNat, []) from Wr.seekBy_nat _ _] at hw
          injection hw with hw
          injection hw with _ hw
          injection hw with hw
          exact hw.symm
        | loaded pg => exact (hf pg (by simp)).1.end_eq hw
    · exact here hx
    · exact here hx

/-- C39, C99: all writes of a flush are inside the header page or a loaded page, if the pages have the shape of pages
and their rows stay inside.  The flush may fail. -/
theorem flush_writes_inside {d : Database} (h : d.Framed) (h40 : 40 ≤ d.content.header.pageSize.toNat)
    (hi : ∀ pg, LazyPage.loaded pg ∈ d.content.pages → pg.Within d.content.header.pageSize.toNat) :
    ∀ x ∈ (d.content.writeT 0).1, ∀ i, x.Covers i → d.InDirtyPage i := by
  have hlen := d.content.header.enc_length
  have hfit := h.headerFits
  intro x hx i hc
  obtain ⟨c1, c2⟩ := hc
  change x ∈ ((Tw.step (Wr.emit d.content.header.enc) >>= fun _ =>
    Tw.step (Wr.emit (List.replicate (d.content.header.pageSize.toNat - d.content.header.enc.length) 0)) >>= fun _ =>
    Tw.forEach (LazyPage.writeT d.content.header.pageSize) d.content.pages) 0).1 at hx
  rw [Tw.bind_def, Tw.eq_ok_of_forget (t := Tw.step (Wr.emit d.content.header.enc))
    (by rw [Tw.forget_step]; exact Wr.emit_def _ _)] at hx
  simp only at hx
  rw [Tw.bind_def, Tw.eq_ok_of_forget
    (t := Tw.step (Wr.emit (List.replicate (d.content.header.pageSize.toNat - d.content.header.enc.length) 0)))
    (by rw [Tw.forget_step]; exact Wr.emit_def _ _)] at hx
  simp only at hx
  rw [List.length_replicate, show 0 + d.content.header.enc.length +
    (d.content.header.pageSize.toNat - d.content.header.enc.length) = d.content.header.pageSize.toNat by omega] at hx
  rcases List.mem_append.1 hx with hx | hx
  · rw [List.mem_singleton] at hx
    subst hx
    simp only at c2
    exact .inl (by omega)
  · rcases List.mem_append.1 hx with hx | hx
    · rw [List.mem_singleton] at hx
      subst hx
      simp only [List.length_replicate] at c2
      exact .inl (by omega)
    · obtain ⟨k, pg, h1, h2, h3⟩ := pages_inside h40 (fun pg hpg => ⟨h.pages pg hpg, hi pg hpg⟩) x hx
      refine .inr ⟨k + 1, ⟨by omega, pg, h1⟩, ?_, ?_⟩
      · rw [Nat.add_mul]; omega
      · rw [Nat.add_mul (k + 1), Nat.one_mul]; omega

/-- C39, C99: so if a flush is interrupted anywhere, or fails, no byte outside the header page and the loaded pages
has changed. -/
theorem flush_crash_within {d : Database} (h : d.Framed) (h40 : 40 ≤ d.content.header.pageSize.toNat)
    (hi : ∀ pg, LazyPage.loaded pg ∈ d.content.pages → pg.Within d.content.header.pageSize.toNat)
    {done : List Patch} (hd : Interrupted (d.content.writeT 0).1 done ∨ done = (d.content.writeT 0).1) {i : Nat}
    (hil : i < d.io.length) (hn : ¬ d.InDirtyPage i) : (applyPatches d.io done)[i]? = d.io[i]? := by
  have hd : Interrupted (d.content.writeT 0).1 done := by
    rcases hd with hd | hd
    · exact hd
    · exact ⟨(d.content.writeT 0).1.length, 0, .inl (by rw [hd, List.take_length])⟩
  refine (flush_crash_iff d).2 (fun q hq j b hb hn' _ => ?_) done hd i hil hn
  refine absurd (flush_writes_inside h h40 hi q hq _ ⟨by omega, ?_⟩) hn'
  have := (List.getElem?_eq_some_iff.1 hb).1
  omega

/-! ## A concrete case -/

/-- A page of 512 bytes with a tag that cannot be written because its name takes more than 255 bytes. -/
def longTagPage : Page :=
  { Page.fresh 466 ⟨1⟩ ⟨3⟩ (.ext .tag) ⟨1, 0, 0, 0⟩ with
    content := .data ⟨⟨1, 0, 0, 0⟩, [⟨List.replicate 16 0, 1, 0⟩], [(0, .ext (.tag (failingTag 8 farTagName)))]⟩ }

/-- A database of three pages of 512 bytes with this page as its first; the other page is not loaded. -/
def longTagDb : Database where
  io := List.replicate 1536 0x55
  dbType := .ext
  content := { header := { tagHeader with pageSize := 512 }, pages := [.loaded longTagPage, .notLoaded] }

/-- C39, C99: the hypotheses of `flush_crash_within` are met, the flush fails after it has written to the page, and
the page behind it is not loaded. -/
example : longTagDb.Framed ∧
    (∀ pg, LazyPage.loaded pg ∈ longTagDb.content.pages → pg.Within longTagDb.content.header.pageSize.toNat) ∧
    longTagDb.flush = .err .assertFail ∧ 2 < (longTagDb.content.writeT 0).1.length ∧ ¬ longTagDb.InDirtyPage 1024 := by
  have one : ∀ pg, LazyPage.loaded pg ∈ longTagDb.content.pages → pg = longTagPage := by
    intro pg h
    rw [show longTagDb.content.pages = [.loaded longTagPage, .notLoaded] from rfl] at h
    simpa using h
  refine ⟨⟨by decide +kernel, fun pg h => ?_⟩, fun pg h => ?_, by decide +kernel, by decide +kernel, ?_⟩
  · rw [one pg h]
    refine ⟨fun g hg => ?_, show 36 * 1 ≤ 512 by decide⟩
    rw [List.mem_singleton] at hg
    rw [hg]
    rfl
  · rw [one pg h]
    intro x hx
    rw [List.mem_singleton] at hx
    rw [hx]
    exact ⟨296, fun p x hx => Nat.le_trans (calculated_rows_within.2.2.2 (failingTag 8 farTagName) rfl p x hx)
      (Nat.add_le_add_left (by decide +kernel) p), by decide⟩
  · rintro (h | ⟨n, ⟨h1, pg, h2⟩, h3, h4⟩)
    · exact absurd h (by decide)
    · have h3 : n * 512 ≤ 1024 := h3
      have h4 : 1024 < (n + 1) * 512 := h4
      have : n = 2 := by omega
      subst this
      cases h2

end Rekordcrate
