import Verif.Props.FailedFlush

/-! # C99: the page that cannot be written -/

namespace Rekordcrate

open Tw

theorem Tw.bind_of_fail {α β : Type} {m : Tw α} {f : α → Tw β} {p : Nat}
    (h : ∀ a q ps, m.forget p ≠ .ok (a, q, ps)) :
    ((m >>= f) p).1 = (m p).1 ∧ ∀ a q ps, (m >>= f).forget p ≠ .ok (a, q, ps) := by
  have hm : ∀ a q, (m p).2 ≠ .ok (a, q) := by
    intro a q hq
    refine h a q (m p).1 ?_
    unfold forget
    rw [hq]
  unfold forget
  rw [bind_def]
  revert hm
  cases (m p).2 with
  | ok x => intro hm; exact absurd rfl (hm x.1 x.2)
  | err e => intro; exact ⟨rfl, fun a q ps h => by cases h⟩
  | panic => intro; exact ⟨rfl, fun a q ps h => by cases h⟩

theorem Tw.bind_of_forget {α β : Type} {m : Tw α} {f : α → Tw β} {p q : Nat} {a : α} {ps : List Patch}
    (h : m.forget p = .ok (a, q, ps)) : ((m >>= f) p).1 = ps ++ (f a q).1 := by
  rw [bind_def, eq_ok_of_forget h]

open DataPageContent in
theorem rows_fail {base : Nat} {l : RowMap} (h : ∀ q ps, Wr.forEach (writeRowAt base) l base ≠ .ok ((), q, ps)) :
    ∃ j x ps, l[j]? = some x ∧ (∀ q ps, x.2.write (base + x.1.toNat) ≠ .ok ((), q, ps)) ∧
      RowsWritten base (l.take j) ps ∧
      (Tw.forEach (writeRowAtT base) l base).1 = ps ++ (x.2.writeT (base + x.1.toNat)).1 := by
  induction l with
  | nil => exact absurd rfl (h base [])
  | cons x l ih =>
    by_cases hx : ∃ q ps, x.2.write (base + x.1.toNat) = .ok ((), q, ps)
    · obtain ⟨q, ps, hx⟩ := hx
      have hw : writeRowAt base x base = .ok ((), base, ps) := writeRowAt_eq_ok.2 ⟨rfl, q, hx⟩
      obtain ⟨j, y, ps', h1, h2, h3, h4⟩ := ih fun q ps hq => h q _ (Wr.bind_of_ok hw hq)
      refine ⟨j + 1, y, ps ++ ps', by simpa using h1, h2, by simpa using RowsWritten.cons hx h3, ?_⟩
      show ((writeRowAtT base x >>= fun _ => Tw.forEach (writeRowAtT base) l) base).1 = _
      rw [Tw.bind_of_forget (m := writeRowAtT base x) (by rw [forget_writeRowAtT]; exact hw), h4, List.append_assoc]
    · have hx' : ∀ q ps, x.2.write (base + x.1.toNat) ≠ .ok ((), q, ps) := fun q ps e => hx ⟨q, ps, e⟩
      refine ⟨0, x, [], rfl, hx', .nil, ?_⟩
      have hr : ∀ (a : Unit) q ps, x.2.writeT.forget (base + x.1.toNat) ≠ .ok (a, q, ps) := by
        intro a q ps
        rw [Row.forget_writeT]
        exact hx' q ps
      have h1 := Tw.bind_of_fail (f := fun _ => Tw.step (Wr.seekTo base)) hr
      have hs : (Tw.step (Wr.seekBy (x.1.toNat : Nat))).forget base = .ok ((), base + x.1.toNat, []) := by
        rw [forget_step]
        exact Wr.seekBy_nat _ _
      have h2 : (writeRowAtT base x base).1 = (x.2.writeT (base + x.1.toNat)).1 := by
        show ((Tw.step (Wr.seekBy (x.1.toNat : Nat)) >>= fun _ => x.2.writeT >>= fun _ => Tw.step (Wr.seekTo base))
          base).1 = _
        rw [Tw.bind_of_forget hs, h1.1]
        rfl
      have h3 : ∀ (a : Unit) q ps, (writeRowAtT base x).forget base ≠ .ok (a, q, ps) := by
        intro a q ps
        rw [forget_writeRowAtT]
        intro e
        obtain ⟨-, q', e'⟩ := writeRowAt_eq_ok.1 e
        exact hx' _ _ e'
      show ((writeRowAtT base x >>= fun _ => Tw.forEach (writeRowAtT base) l) base).1 = _
      rw [(Tw.bind_of_fail h3).1, h2]
      rfl

theorem data_page_ok {pg : Page} {c : DataPageContent} {size p : Nat} (hc : pg.content = .data c)
    (hl : ∀ g ∈ c.rowGroups, g.rowOffsets.length = 16) (hg : 36 * c.rowGroups.length ≤ size) (h40 : 40 ≤ size)
    {ps : List Patch} (h : DataPageContent.RowsWritten (p + 40) c.rows ps) :
    pg.write size p = .ok ((), p + size, [⟨p, pg.header.enc⟩] ++ ([⟨p + 32, c.header.enc⟩] ++
      (RowGroup.allPatches (p + 32 + (size - 32)) c.rowGroups ++ ps))) := by
  have h1 : c.write size (p + 32) = .ok ((), p + size, [⟨p + 32, c.header.enc⟩] ++
      (RowGroup.allPatches (p + 32 + (size - 32)) c.rowGroups ++ ps)) :=
    (DataPageContent.write_eq_ok hl).2 ⟨h40, by omega, by omega, ps, h, rfl⟩
  exact Page.write_eq_ok.2 ⟨_, by rw [hc]; exact h1, rfl⟩

open DataPageContent in
theorem data_page_fails {pg : Page} {c : DataPageContent} {size p : Nat} (hc : pg.content = .data c)
    (hf : pg.Framed size) (h40 : 40 ≤ size) (h : ∀ q ps, pg.write size p ≠ .ok ((), q, ps)) :
    ∃ j x ps, c.rows[j]? = some x ∧ (∀ q ps, x.2.write (p + 40 + x.1.toNat) ≠ .ok ((), q, ps)) ∧
      (pg.rowsUpTo j).write size p = .ok ((), p + size, ps) ∧
      (pg.writeT size p).1 = ps ++ (x.2.writeT (p + 40 + x.1.toNat)).1 := by
  unfold Page.Framed at hf
  rw [hc] at hf
  obtain ⟨hl, hg⟩ := hf
  obtain ⟨j, x, ps, h1, h2, h3, h4⟩ := rows_fail (base := p + 40) (l := c.rows) fun q ps hq =>
    h _ _ (data_page_ok hc hl hg h40 (forEach_writeRowAt.1 hq).2)
  have hgr : (writeGroupsT (size - 40) c.rowGroups).forget (p + 40) = .ok ((), p + 40,
      RowGroup.allPatches (p + 32 + (size - 32)) c.rowGroups) := by
    rw [forget_writeGroupsT]
    exact (writeGroups_eq_ok hl).2 ⟨rfl, by omega, by rw [show p + 32 + (size - 32) = p + 40 + (size - 40) by omega]⟩
  refine ⟨j, x, [⟨p, pg.header.enc⟩] ++ ([⟨p + 32, c.header.enc⟩] ++
    (RowGroup.allPatches (p + 32 + (size - 32)) c.rowGroups ++ ps)), h1, h2, ?_, ?_⟩
  · exact data_page_ok (pg := pg.rowsUpTo j) (c := { c with rows := c.rows.take j }) (by simp [Page.rowsUpTo, hc]) hl hg
      h40 h3
  · have e1 : (Tw.step (Wr.emit pg.header.enc)).forget p = .ok ((), p + 32, [⟨p, pg.header.enc⟩]) := by
      rw [forget_step, Wr.emit_def, PageHeader.enc_length]
    have e2 : (Tw.step (Wr.emit c.header.enc)).forget (p + 32) = .ok ((), p + 40, [⟨p + 32, c.header.enc⟩]) := by
      rw [forget_step, Wr.emit_def, DataPageHeader.enc_length]
    have e3 : (Tw.step (Wr.lift (pageHeapSize size))).forget (p + 40) = .ok (size - 40, p + 40, []) := by
      rw [forget_step, pageHeapSize_eq, if_pos h40]
      rfl
    have e4 : (Tw.step Wr.pos).forget (p + 40) = .ok (p + 40, p + 40, []) := by
      rw [forget_step]
      rfl
    have e5 : ∀ (a : Unit) q ps, (writeAtOffsetsT c.rows).forget (p + 40) ≠ .ok (a, q, ps) := by
      intro a q ps' hq
      rw [forget_writeAtOffsetsT] at hq
      obtain ⟨-, hr⟩ := writeAtOffsets_eq_ok.1 hq
      exact h _ _ (data_page_ok hc hl hg h40 hr)
    have e6 : (writeAtOffsetsT c.rows (p + 40)).1 = ps ++ (x.2.writeT (p + 40 + x.1.toNat)).1 := by
      show ((Tw.step Wr.pos >>= fun base => Tw.forEach (writeRowAtT base) c.rows) (p + 40)).1 = _
      rw [Tw.bind_of_forget e4, h4]
      rfl
    show ((Tw.step (Wr.emit pg.header.enc) >>= fun _ => pg.content.writeT size) p).1 = _
    rw [Tw.bind_of_forget e1, hc]
    show _ ++ ((Tw.step (Wr.emit c.header.enc) >>= fun _ => Tw.step (Wr.lift (pageHeapSize size)) >>= fun heap =>
      writeGroupsT heap c.rowGroups >>= fun _ => writeAtOffsetsT c.rows >>= fun _ =>
        Tw.step (Wr.seekBy (heap : Nat))) (p + 32)).1 = _
    rw [Tw.bind_of_forget e2, Tw.bind_of_forget e3, Tw.bind_of_forget hgr, (Tw.bind_of_fail e5).1, e6]
    simp

theorem PagesWritten.append {size p : Nat} {l l' : List LazyPage} {ps ps' : List Patch}
    (h : PagesWritten size p l ps) (h' : PagesWritten size (p + l.length * size) l' ps') :
    PagesWritten size p (l ++ l') (ps ++ ps') := by
  induction h with
  | nil => simpa using h'
  | skip t ih =>
    refine PagesWritten.skip (ih ?_)
    rw [List.length_cons, Nat.add_mul] at h'
    rw [show ∀ a b : Nat, a + size + b * size = a + (b * size + 1 * size) by intros; omega]
    exact h'
  | page hw t ih =>
    rw [List.append_assoc]
    refine PagesWritten.page hw (ih ?_)
    rw [List.length_cons, Nat.add_mul] at h'
    rw [show ∀ a b : Nat, a + size + b * size = a + (b * size + 1 * size) by intros; omega]
    exact h'

/-- C99: exactly what a flush that fails leaves.  There is a page in memory with a row that cannot be written: the file
is the one that a flush of the pages in front of it and of the rows in front of that row leaves, with what was written
of the row before it failed.  Or it is an index page with more entries than there is room for: the file is the one that
a flush of the pages in front of it leaves, with the headers of the page and all entries written over it. -/
theorem failed_flush_exact {d : Database} (h : d.Framed) (h40 : 40 ≤ d.content.header.pageSize.toNat)
    (hf : ∀ d', d.flush ≠ .ok d') :
    ∃ k pg dk, d.content.pages[k]? = some (.loaded pg) ∧
      ((∃ c j x, pg.content = .data c ∧ c.rows[j]? = some x ∧
          (∀ q ps, x.2.write ((k + 1) * d.content.header.pageSize.toNat + 40 + x.1.toNat) ≠ .ok ((), q, ps)) ∧
          (d.upToRow k j).flush = .ok dk ∧
          d.fileAfterFlush = applyPatches dk.io
            (x.2.writeT ((k + 1) * d.content.header.pageSize.toNat + 40 + x.1.toNat)).1) ∨
        (∃ c, pg.content = .index c ∧ d.content.header.pageSize.toNat < 80 + 4 * c.entries.length ∧
          (d.upTo k).flush = .ok dk ∧
          d.fileAfterFlush = applyPatches dk.io
            [⟨(k + 1) * d.content.header.pageSize.toNat, pg.header.enc⟩,
              ⟨(k + 1) * d.content.header.pageSize.toNat + 32, c.header.enc⟩,
              ⟨(k + 1) * d.content.header.pageSize.toNat + 60, c.entries.flatMap IndexEntry.enc⟩])) := by
  obtain ⟨k, pg, ps, h1, h2, h3, h4⟩ := failed_flush_pages h hf
  have hfr := h.pages pg (List.mem_of_getElem? h1)
  cases hc : pg.content with
  | data c =>
    obtain ⟨j, x, ps', r1, r2, r3, r4⟩ := data_page_fails hc hfr h40 h2
    have hk : k < d.content.pages.length := (List.getElem?_eq_some_iff.1 h1).1
    have hlen : (d.content.pages.take k).length = k := by rw [List.length_take]; omega
    have hp : (d.upToRow k j).content.pages = d.content.pages.take k ++ [.loaded (pg.rowsUpTo j)] := by
      simp [Database.upToRow, h1]
    have hw : PagesWritten d.content.header.pageSize.toNat d.content.header.pageSize.toNat
        (d.upToRow k j).content.pages (ps ++ (ps' ++ [])) := by
      rw [hp]
      refine h3.append (PagesWritten.page ?_ .nil)
      rw [hlen, show d.content.header.pageSize.toNat + k * d.content.header.pageSize.toNat =
        (k + 1) * d.content.header.pageSize.toNat by rw [Nat.add_mul]; omega]
      exact r3
    refine ⟨k, pg, _, h1, Or.inl ⟨c, j, x, hc, r1, r2,
      Database.flush_eq (Database.flushWrites_of (d := d.upToRow k j) h.headerFits hw), ?_⟩⟩
    rw [h4, r4, List.append_nil, applyPatches_append]
    show _ = applyPatches (applyPatches d.io (d.headerPatches ++ (ps ++ ps'))) _
    rw [← List.append_assoc, applyPatches_append _ (d.headerPatches ++ ps)]
  | index c =>
    unfold Page.Framed at hfr
    rw [hc] at hfr
    obtain ⟨f1, f2⟩ := hfr
    have hno : ∀ q ps, c.write d.content.header.pageSize.toNat
        ((k + 1) * d.content.header.pageSize.toNat + 32) ≠ .ok ((), q, ps) := by
      intro q ps' hq
      exact h2 _ _ (Page.write_eq_ok.2 ⟨_, by rw [hc]; exact hq, rfl⟩)
    refine ⟨k, pg, _, h1, Or.inr ⟨c, hc, ?_,
      Database.flush_eq (Database.flushWrites_of (d := d.upTo k) h.headerFits h3), ?_⟩⟩
    · refine Nat.lt_of_not_le fun hle => ?_
      exact hno _ _ (IndexPageContent.write_eq_ok.2 ⟨by omega, by omega, rfl, rfl⟩)
    · rw [h4]
      congr 1
      have e1 : (Tw.step (Wr.emit pg.header.enc)).forget ((k + 1) * d.content.header.pageSize.toNat) =
          .ok ((), (k + 1) * d.content.header.pageSize.toNat + 32,
            [⟨(k + 1) * d.content.header.pageSize.toNat, pg.header.enc⟩]) := by
        rw [forget_step, Wr.emit_def, PageHeader.enc_length]
      show ((Tw.step (Wr.emit pg.header.enc) >>= fun _ => pg.content.writeT _) _).1 = _
      rw [Tw.bind_of_forget e1, hc]
      show _ ++ (Tw.orBegun (c.write d.content.header.pageSize.toNat) _ _).1 = _
      unfold Tw.orBegun
      cases hw : c.write d.content.header.pageSize.toNat ((k + 1) * d.content.header.pageSize.toNat + 32) with
      | ok y => exact absurd hw (hno _ _)
      | err e => simp [IndexPageHeader.enc_length]
      | panic => simp [IndexPageHeader.enc_length]

/-- C99: the example meets the hypotheses.  The row that cannot be written is the first of the third page. -/
example : ∃ dk, (failingDb.upToRow 2 0).flush = .ok dk ∧
    failingDb.fileAfterFlush = applyPatches dk.io (Row.writeT (.ext (.tag (failingTag 8 farTagName))) (3 * 96 + 40)).1 := by
  obtain ⟨k, pg, dk, h1, h2⟩ := failed_flush_exact failingDb_framed (by decide) (fun d' h => by
    rw [show failingDb.flush = .err .assertFail by decide +kernel] at h
    cases h)
  have hp : failingDb.content.pages = [.loaded (exampleDbPage 1), .loaded (exampleDbPage 2),
    .loaded (tagEdit (exampleDbPage 3) (failingTag 8 farTagName))] := rfl
  have hs : failingDb.content.header.pageSize.toNat = 96 := rfl
  have c1 : (exampleDbPage 1).content = .index
    { header := ⟨0x1fff, 0x1fff, 0, ⟨1⟩, ⟨2⟩, 0, 0x1fff⟩, entries := [] } := by decide +kernel
  have c2 : (exampleDbPage 2).content = .data ⟨⟨1, 0, 0, 0⟩, [⟨List.replicate 16 0, 1, 0⟩], [(0, exampleGenre)]⟩ := by
    decide +kernel
  have c3 : (tagEdit (exampleDbPage 3) (failingTag 8 farTagName)).content =
      .data ⟨⟨1, 0, 0, 0⟩, [⟨List.replicate 16 0, 1, 0⟩], [(0, .ext (.tag (failingTag 8 farTagName)))]⟩ := by
    decide +kernel
  rw [hs] at h2
  rw [hp] at h1
  rcases k with _ | _ | _ | k
  · injection h1 with h1
    injection h1 with h1
    rw [← h1, c1] at h2
    rcases h2 with ⟨c, j, x, e, -⟩ | ⟨c, e, hl, -⟩
    · cases e
    · injection e with e
      rw [← e] at hl
      exact absurd hl (by decide)
  · injection h1 with h1
    injection h1 with h1
    rw [← h1, c2] at h2
    rcases h2 with ⟨c, j, x, e, hj, hx, -⟩ | ⟨c, e, -⟩
    · injection e with e
      rw [← e] at hj
      rcases j with _ | j
      · injection hj with hj
        rw [← hj] at hx
        have : ∃ q ps, exampleGenre.write (2 * 96 + 40 + 0) = .ok ((), q, ps) := by
          refine ⟨_, _, (rfl : exampleGenre.write (2 * 96 + 40 + 0) = .ok ((), _, _))⟩
        obtain ⟨q, ps, hq⟩ := this
        exact absurd hq (hx q ps)
      · cases hj
    · cases e
  · injection h1 with h1
    injection h1 with h1
    rw [← h1, c3] at h2
    rcases h2 with ⟨c, j, x, e, hj, -, hf, he⟩ | ⟨c, e, -⟩
    · injection e with e
      rw [← e] at hj
      rcases j with _ | j
      · injection hj with hj
        rw [← hj] at he
        exact ⟨dk, hf, he⟩
      · cases hj
    · cases e
  · cases h1

end Rekordcrate
