import Verif.Lemmas.WrapHeap
import Verif.Lemmas.WrapAnlzFile
import Verif.Props.RowPanic
import Verif.Props.PageExact

/-! # C86–C88: builds without overflow checks -/

namespace Rekordcrate
open Rd

/-! ## C86: parsing never panics -/

/-- C86: without overflow checks no row of any kind makes the parser panic, whatever the bytes are. -/
theorem row_release_never_panics (t : PageType) (d : Bytes) (p : Nat) : Row.readWrap t d p ≠ .panic :=
  Row.readWrap_np t d p

/-- C86: without overflow checks no page makes the parser panic, whatever the bytes and the page size are. -/
theorem page_release_never_panics (pageSize : Nat) (db : DatabaseType) (d : Bytes) (p : Nat) :
    Page.readWrap pageSize db d p ≠ .panic :=
  Page.readWrap_np pageSize db d p

theorem PageIndex.offset_eq (i : PageIndex) (s : UInt32) : i.offset s = .ok (i.val.toNat * s.toNat) := by
  unfold PageIndex.offset
  have h1 := i.val.toNat_lt
  have h2 := s.toNat_lt
  rw [if_pos]
  calc i.val.toNat * s.toNat ≤ 2 ^ 32 * s.toNat := Nat.mul_le_mul_right _ (Nat.le_of_lt h1)
    _ < 2 ^ 32 * 2 ^ 32 := (Nat.mul_lt_mul_left (by decide)).2 h2
    _ = 2 ^ 64 := by decide

theorem readPageWrap_np (io : Bytes) (i : PageIndex) (s : UInt32) (db : DatabaseType) :
    readPageWrap io i s db ≠ .panic := by
  unfold readPageWrap
  rw [PageIndex.offset_eq, Res.ok_bind]
  have := Page.readWrap_np s.toNat db io (i.val.toNat * s.toNat)
  cases h : Page.readWrap s.toNat db io (i.val.toNat * s.toNat) with
  | ok x => exact fun h => (by cases h)
  | err e => exact fun h => (by cases h)
  | panic => exact absurd h this

/-- C86: without overflow checks `load_page` never panics. -/
theorem load_page_release_never_panics (d : Database) (i : PageIndex) : d.loadPageWrap i ≠ .panic := by
  unfold Database.loadPageWrap
  split
  · exact fun h => (by cases h)
  · exact fun h => (by cases h)
  · intro h
    cases hr : readPageWrap d.io i d.content.header.pageSize d.dbType with
    | ok pg => rw [hr] at h; cases h
    | err e => rw [hr] at h; cases h
    | panic => exact readPageWrap_np _ _ _ _ hr

/-- C86: page 0 (the file header) is reported as not present. -/
theorem load_page_zero_release (d : Database) (h : d.content.pages.length < 2 ^ 64) :
    d.loadPageWrap ⟨0⟩ = .err (.pageNotPresent 0) ∧ d.loadPage ⟨0⟩ = .panic := by
  refine ⟨?_, rfl⟩
  unfold Database.loadPageWrap
  rw [List.getElem?_eq_none]
  · rfl
  · exact Nat.le_of_lt_succ h

/-- C86: without overflow checks the iterator over the pages of a table never panics, if it is about slots that
the list of pages has. -/
theorem next_page_release_never_panics (it : PageIterator) (h : it.start + it.len ≤ it.pages.length) :
    it.nextWrap.1 ≠ .panic := by
  unfold PageIterator.nextWrap
  split
  · exact fun h => (by cases h)
  · split
    · exact fun h => (by cases h)
    · simp only
      split
      · exact fun h => (by cases h)
      · split
        · exact fun h => (by cases h)
        · split
          · rename_i hk hk' hp
            rw [List.getElem?_eq_none_iff] at hp
            omega
          · exact fun h => (by cases h)
          · split
            · exact fun h => (by cases h)
            · exact fun h => (by cases h)
            · rename_i hr
              exact absurd hr (readPageWrap_np _ _ _ _)

/-- C86: without overflow checks no analysis file makes the parser panic. -/
theorem anlz_release_never_panics (d : Bytes) (p : Nat) : Anlz.AnlzFile.readWrap d p ≠ .panic :=
  Anlz.AnlzFile.readWrap_np d p

/-! ## C86: what does not panic is not changed -/

/-- C86: rows are read as in a build with overflow checks, unless that panics. -/
theorem row_release_read_same (t : PageType) (d : Bytes) (p : Nat) (h : Row.read t d p ≠ .panic) :
    Row.readWrap t d p = Row.read t d p :=
  Row.read_agree t d p h

/-- C86: so are pages. -/
theorem page_release_read_same (pageSize : UInt32) (db : DatabaseType) (d : Bytes) (p : Nat)
    (h : Page.read pageSize.toNat db d p ≠ .panic) :
    Page.readWrap pageSize.toNat db d p = Page.read pageSize.toNat db d p :=
  Page.read_agree pageSize.toNat_lt db d p h

/-- C86: rows and pages are written as in a build with overflow checks, unless that panics. -/
theorem page_release_write_same (pg : Page) (pageSize : UInt32) (p : Nat) :
    (∀ r : Row, r.write p ≠ .panic → r.writeWrap p = r.write p) ∧
      (pg.write pageSize.toNat p ≠ .panic → pg.writeWrap pageSize.toNat p = pg.write pageSize.toNat p) :=
  ⟨fun r h => Row.write_agree r p h, fun h => pg.write_agree pageSize.toNat_lt p h⟩

/-- C86: sizes are computed and space is allocated as in a build with overflow checks, unless that panics. -/
theorem allocate_release_same (pg : Page) (r : Row) (bytes : UInt16) :
    (r.heapBytes ≠ .panic → r.heapWrap = r.heapBytes) ∧
      (pg.allocateRow bytes ≠ .panic → pg.allocateRowWrap bytes = pg.allocateRow bytes) :=
  ⟨r.heap_agree, pg.allocate_agree bytes⟩

theorem PageIterator.nextWrap_same (it : PageIterator) : it.next.1 ≠ .panic → it.nextWrap = it.next := by
  intro h
  unfold PageIterator.next at h ⊢
  unfold PageIterator.nextWrap
  cases hi : it.nextPage with
  | none => rfl
  | some i =>
    rw [hi] at h
    simp only at h ⊢
    split
    · rfl
    · rename_i h1
      rw [if_neg h1] at h
      split
      · rfl
      · rename_i h2
        rw [if_neg h2] at h
        split
        · rfl
        · rename_i h3
          rw [if_neg h3] at h
          cases hp : it.pages[it.start + (i.val.toNat - it.offset)]? with
          | none => rfl
          | some l =>
            rw [hp] at h
            cases l with
            | loaded pg => rfl
            | notLoaded =>
              simp only at h ⊢
              have : readPage it.io i it.pageSize it.dbType ≠ .panic := fun hc => by
                rw [hc] at h; exact h rfl
              rw [readPage_agree _ _ _ _ this]
              cases readPage it.io i it.pageSize it.dbType <;> rfl

/-- C86: pages of a database are loaded, visited and flushed as in a build with overflow checks, unless that
panics. -/
theorem database_release_same (d : Database) (it : PageIterator) (i : PageIndex) :
    (d.loadPage i ≠ .panic → d.loadPageWrap i = d.loadPage i) ∧
      (it.next.1 ≠ .panic → it.nextWrap = it.next) ∧
      (d.flush ≠ .panic → d.flushWrap = d.flush) := by
  refine ⟨?_, ?_, ?_⟩
  · refine Res.Agree.bind_value (subU_value64 (Nat.lt_trans i.val.toNat_lt (by decide))) ?_
    unfold Database.loadPageWrap
    cases d.content.pages[subWrap64 i.val.toNat 1]? with
    | none => exact Res.Agree.refl _
    | some l =>
      cases l with
      | loaded pg => exact Res.Agree.refl _
      | notLoaded => exact Res.Agree.bind (readPage_agree _ _ _ _) fun _ _ => Res.Agree.refl _
  · exact it.nextWrap_same
  · exact Res.Agree.bind (Res.Agree.bind (d.content.write_agree 0) fun _ _ => Res.Agree.refl _)
      fun _ _ => Res.Agree.refl _

/-- C86: analysis files are read and written as in a build with overflow checks, unless that panics. -/
theorem anlz_release_same (d : Bytes) (p : Nat) (a : Anlz.AnlzFile) :
    (Anlz.AnlzFile.read d p ≠ .panic → Anlz.AnlzFile.readWrap d p = Anlz.AnlzFile.read d p) ∧
      (a.enc ≠ .panic → a.enc = .ok a.encWrap) :=
  ⟨Anlz.AnlzFile.read_agree d p, fun h => (a.enc_agree h).symm⟩

/-! ## C88: strings of impossible length -/

/-- C88: without overflow checks a string of impossible length in a file of less than 65532 bytes is rejected, unless
it is an ISRC, where the length is not used. -/
theorem bad_string_release_partial {d : Bytes} {p : Nat} (hb : BadString d p) (hd : d.length < 65532) :
    (∃ e, DString.readWrap d p = .err e) ∨ ∃ text q, DString.readWrap d p = .ok (.long (.isrc text), q) := by
  unfold BadString at hb
  unfold DString.readWrap Rd.orElse
  rcases hb with hb | ⟨b, n, hb, he, hu, hn⟩
  · left
    have h1 : Rd.u8 d p = .ok (1, p + 1) := by rw [u8_eq, hb]
    have h2 : ∃ e, DString.readShortWrap d p = .err e := by
      unfold DString.readShortWrap
      rw [bind_of_ok h1, require_true_bind (by decide)]
      have e : subWrap64 ((1 : UInt8).toNat / 2) 1 = 2 ^ 64 - 1 := by decide
      rw [e]
      cases hc : Rd.bytes (2 ^ 64 - 1) d (p + 1) with
      | err e => exact ⟨e, bind_of_err hc⟩
      | panic => exact absurd hc (NP.bytes _ _ _)
      | ok x =>
        obtain ⟨c, q⟩ := x
        obtain ⟨hl, hat, -⟩ := bytes_eq_ok.1 hc
        have := hat.bound (by intro h; rw [h] at hl; cases hl)
        omega
    obtain ⟨e, h2⟩ := h2
    rw [h2]
    refine ⟨.assertFail, ?_⟩
    simp only
    unfold DString.readLongWrap
    rw [bind_of_ok h1, require_false_err (by decide)]
  · have h1 : Rd.u8 d p = .ok (b, p + 1) := by rw [u8_eq, hb]
    have h2 : DString.readShortWrap d p = .err .assertFail := by
      unfold DString.readShortWrap
      rw [bind_of_ok h1, require_false_err (by simp [he])]
    rw [h2]
    simp only
    cases hr : DString.readLongWrap d p with
    | err e => exact .inl ⟨e, rfl⟩
    | panic => exact absurd hr ((NP.bind NP.u8 fun _ => NP.bind (NP.require _ _) fun _ => NP.bind NP.u16 fun _ =>
        NP.bind (NP.magic _) fun _ => NP.bind (LongBody.read_np _ _) fun _ => NP.pure _) d p)
    | ok x =>
      right
      obtain ⟨v, q⟩ := x
      unfold DString.readLongWrap at hr
      rw [bind_of_ok h1, require_true_bind (by simp [he])] at hr
      obtain ⟨l, p2, h3, hr⟩ := bind_eq_ok.1 hr
      obtain ⟨_, p3, h4, hr⟩ := bind_eq_ok.1 hr
      obtain ⟨body, p4, h5, hr⟩ := bind_eq_ok.1 hr
      rw [pure_eq_ok] at hr
      obtain ⟨rfl, rfl⟩ := hr
      have hln : l.toNat = n := by
        obtain ⟨⟨lo, hi, g1, g2, g3⟩, -⟩ := u16_ok_iff.1 h3
        obtain ⟨lo', hi', f1, f2, f3⟩ := hu
        rw [f1] at g1
        rw [f2] at g2
        injection g1 with g1
        injection g2 with g2
        rw [g3, f3, g1, g2]
      obtain ⟨bs, hat, -, -, -, -, hl⟩ := LongBody.read_inv _ _ _ _ _ _ h5
      cases body with
      | isrc c => exact ⟨c, _, rfl⟩
      | ascii c =>
        have hl := hl (fun _ h => by cases h)
        unfold subWrap16 at hl
        have := hat.bound (by intro h; rw [h] at hl; simp only [List.length_nil] at hl; omega)
        omega
      | ucs2le c =>
        have hl := hl (fun _ h => by cases h)
        unfold subWrap16 at hl
        have := hat.bound (by intro h; rw [h] at hl; simp only [List.length_nil] at hl; omega)
        omega

/-- C88: in a longer file such a string can be accepted: a string that declares no bytes at all takes in the following
65532 bytes. -/
theorem bad_string_release_accepted (c : Bytes) (hc : c.length = 65532) :
    DString.read ([0x40, 0, 0, 0] ++ c) 0 = .panic ∧
      DString.readWrap ([0x40, 0, 0, 0] ++ c) 0 = .ok (.long (.ascii c), 65536) := by
  have h1 : Rd.u8 ([0x40, 0, 0, 0] ++ c) 0 = .ok (0x40, 1) := by rw [u8_eq]; rfl
  have hu : U16At ([0x40, 0, 0, 0] ++ c) 1 0 := ⟨0, 0, rfl, rfl, rfl⟩
  refine ⟨(DString.panic_iff _ _).2 (.inr ⟨0x40, 0, rfl, by decide, hu, by decide⟩), ?_⟩
  have h2 : DString.readShortWrap ([0x40, 0, 0, 0] ++ c) 0 = .err .assertFail := by
    unfold DString.readShortWrap
    rw [bind_of_ok h1, require_false_err (by decide)]
  have hm : Rd.magic [0] ([0x40, 0, 0, 0] ++ c) 3 = .ok ((), 4) :=
    RT.magic [0] _ _ (by intro i hi; match i with | 0 => rfl | i + 1 => simp at hi)
  have hat : HasAt ([0x40, 0, 0, 0] ++ c) 4 c := by
    intro i _
    rw [List.getElem?_append_right (by simp)]
    congr 1
    simp only [List.length_cons, List.length_nil]
    omega
  have hb : LongBody.read 0x40 65532 ([0x40, 0, 0, 0] ++ c) 4 = .ok (.ascii c, 65536) := by
    unfold LongBody.read Rd.orElse
    rw [require_false_err (by decide)]
    simp only
    rw [require_true_bind (by decide), bind_of_ok (bytes_eq_ok.2 ⟨hc, hat, rfl⟩)]
    rfl
  unfold DString.readWrap Rd.orElse
  rw [h2]
  simp only
  unfold DString.readLongWrap
  rw [bind_of_ok h1, require_true_bind (by decide), bind_of_ok (u16_ok_iff.2 ⟨hu, rfl⟩ : Rd.u16 _ 1 = .ok ((0 : UInt16), 3)), bind_of_ok hm]
  rw [show subWrap16 (UInt16.toNat 0) 4 = 65532 from rfl, bind_of_ok hb]
  rfl

/-! ## C87: sizes -/

/-- C87 (exact): without overflow checks, the size that `heap_bytes_required` reports for a row to be laid out by the
writer is the number `n` of bytes that the row takes modulo 65536. -/
theorem row_heap_size_release {r : Row} (hu : r ≠ .unknown) (hc : r.Calculated)
    (hs : ∀ v ∈ r.strings, v.Storable ∨ v.Reachable) {p p' : Nat} {ps : List Patch}
    (h : r.write p = .ok ((), p', ps)) :
    r.writeWrap p = .ok ((), p', ps) ∧ ∃ n, r.heapWrap = .ok (n % 65536) ∧
      PatchesWithin ps p (p + n) ∧ ∃ x ∈ ps, x.off + x.bytes.length = p + n := by
  refine ⟨by rw [Row.write_agree r p (by rw [h]; exact fun h => (by cases h)), h], ?_⟩
  obtain ⟨n, h1, -, h2, h3⟩ := Row.heap_wrap_extent hu hc (fun v hv bs hb => by
    have := (hs v hv).elim (fun hv => hv.heap hb) (fun hv => string_heap_bytes_eq_written hv hb)
    rw [v.heap_agree (by rw [this]; exact fun h => (by cases h)), this]) h
  exact ⟨n, h1, h2, h3⟩

/-- C87: so the size is right exactly for rows of less than 65536 bytes. -/
theorem row_heap_size_release_iff {r : Row} (hu : r ≠ .unknown) (hc : r.Calculated)
    (hs : ∀ v ∈ r.strings, v.Storable ∨ v.Reachable) {p p' : Nat} {ps : List Patch}
    (h : r.write p = .ok ((), p', ps)) :
    ∃ m, r.heapWrap = .ok m ∧ (PatchesWithin ps p (p + m) ↔ PatchesWithin ps p (p + 65535)) := by
  obtain ⟨-, n, h1, h2, x, hx, hx'⟩ := row_heap_size_release hu hc hs h
  refine ⟨_, h1, fun h' y hy => ?_, fun h' => ?_⟩
  · have := h' y hy
    have := Nat.mod_lt n (y := 65536) (by decide)
    omega
  · have := (h' x hx).2
    rw [Nat.mod_eq_of_lt (by omega)]
    exact h2

/-- C87: without overflow checks, `allocate_row` on a well-formed page does the same as with overflow checks for every
size up to 65528. -/
theorem allocate_release_partial {cap : Nat} {pg : Page} {c : DataPageContent} (hw : pg.WellFormed cap c)
    (bytes : UInt16) (hb : bytes.toNat ≤ 65528) : pg.allocateRowWrap bytes = pg.allocateRow bytes := by
  by_cases hn : pg.allocateRow bytes = .panic
  · rw [hn]
    rcases (allocate_row_panic_iff hw bytes).1 hn with h | ⟨h1, h2⟩
    · omega
    · have hal : Page.alignUp4Wrap bytes.toNat = roundUp4 bytes.toNat := by
        unfold Page.alignUp4Wrap roundUp4 addWrap16
        split <;> omega
      have hfree := pg.header.freeSize.toNat_lt
      unfold Page.allocateRowWrap
      rw [hw.content]
      simp only
      rw [hal, if_neg (by unfold addWrap16; omega)]
      have : pg.header.packedRowCounts.incrementNumRows = .panic := by
        unfold PackedRowCounts.incrementNumRows PackedRowCounts.setNumRows
        rw [dif_neg (by omega)]
      rw [this]
      rfl
  · exact pg.allocate_agree bytes hn

/-- C87 (exact): without overflow checks, a request for 65533 bytes or more is treated as one for no bytes at all. -/
theorem release_allocation_empty {cap : Nat} {pg : Page} {c : DataPageContent} (hw : pg.WellFormed cap c)
    (bytes : UInt16) (hb : 65533 ≤ bytes.toNat) : pg.allocateRowWrap bytes = pg.allocateRow 0 := by
  rw [← allocate_release_partial hw 0 (by decide)]
  have := bytes.toNat_lt
  have hal : Page.alignUp4Wrap bytes.toNat = Page.alignUp4Wrap (0 : UInt16).toNat := by
    have h0 : Page.alignUp4Wrap (0 : UInt16).toNat = 0 := rfl
    rw [h0]
    unfold Page.alignUp4Wrap addWrap16
    rw [if_neg (by omega)]
    omega
  unfold Page.allocateRowWrap
  rw [hal]

/-- C87: without overflow checks, a request for 65529 to 65532 bytes, if it is granted, moves the counter of used bytes
back by 4, so that the next row is put in front of the end of the rows before. -/
theorem release_allocation_back {pg pg' : Page} {bytes : UInt16} {slot : RowSlot} (hb : 65529 ≤ bytes.toNat)
    (hb' : bytes.toNat ≤ 65532) (h : pg.allocateRowWrap bytes = .ok (pg', some slot)) :
    slot.offset = pg.header.usedSize ∧ pg'.header.usedSize = pg.header.usedSize - 4 := by
  have hal : Page.alignUp4Wrap bytes.toNat = 65532 := by
    unfold Page.alignUp4Wrap addWrap16
    split <;> omega
  unfold Page.allocateRowWrap at h
  rw [hal] at h
  revert h
  match hc : pg.content with
  | .index _ => intro h; cases h
  | .data dpc =>
    simp only
    split
    · intro h; cases h
    · intro h
      obtain ⟨counts, -, h⟩ := Res.bind_eq_ok.1 h
      revert h
      match counts.lastRowIndex with
      | none => intro h; cases h
      | some (g, s) =>
        simp only
        match (if g < dpc.rowGroups.length then dpc.rowGroups else dpc.rowGroups ++ [RowGroup.empty])[g]? with
        | none => intro h; cases h
        | some grp =>
          intro h
          obtain ⟨grp', -, h⟩ := Res.bind_eq_ok.1 h
          cases h
          refine ⟨rfl, ?_⟩
          apply UInt16.toNat_inj.1
          rw [UInt16.toNat_sub, UInt16.toNat_ofNat']
          have := pg.header.usedSize.toNat_lt
          unfold addWrap16
          change _ = (2 ^ 16 - 4 + _) % 2 ^ 16
          omega

/-- C87: and it is granted by every well-formed page that has room for an empty row. -/
theorem release_allocation_granted {cap : Nat} {pg pg' : Page} {c : DataPageContent} (hw : pg.WellFormed cap c)
    {bytes : UInt16} {slot : RowSlot} (hb : 65529 ≤ bytes.toNat)
    (h : pg.allocateRow 0 = .ok (pg', some slot)) : ∃ pg'', pg.allocateRowWrap bytes = .ok (pg'', some slot) := by
  by_cases hb' : 65533 ≤ bytes.toNat
  · exact ⟨pg', by rw [release_allocation_empty hw bytes hb', h]⟩
  have hal : Page.alignUp4Wrap bytes.toNat = 65532 := by
    unfold Page.alignUp4Wrap addWrap16
    split <;> omega
  rw [← allocate_release_partial hw 0 (by decide)] at h
  have h0 : Page.alignUp4Wrap (0 : UInt16).toNat = 0 := rfl
  unfold Page.allocateRowWrap at h ⊢
  rw [hw.content] at h ⊢
  rw [hal]
  rw [h0] at h
  simp only at h ⊢
  split at h
  · cases h
  next hf =>
    rw [if_neg (by unfold addWrap16 at hf ⊢; omega)]
    obtain ⟨counts, h1, h⟩ := Res.bind_eq_ok.1 h
    rw [h1]
    simp only [Res.ok_bind]
    revert h
    match counts.lastRowIndex with
    | none => intro h; cases h
    | some (g, s) =>
      simp only
      match (if g < c.rowGroups.length then c.rowGroups else c.rowGroups ++ [RowGroup.empty])[g]? with
      | none => intro h; cases h
      | some grp =>
        intro h
        obtain ⟨grp', h2, h⟩ := Res.bind_eq_ok.1 h
        simp only [h2, Res.ok_bind]
        cases h
        exact ⟨_, rfl⟩

/-- C87 fails for large requests: a request for 65530 bytes on a page with a row succeeds, and the next request gets a
place in front of the first row's end. -/
theorem release_allocations_overlap :
    ∃ pg1 s1 pg2 s2 pg3 s3, examplePage.allocateRowWrap 8 = .ok (pg1, some s1) ∧
      pg1.allocateRowWrap 65530 = .ok (pg2, some s2) ∧ pg2.allocateRowWrap 8 = .ok (pg3, some s3) ∧
      s1.offset = 0 ∧ s3.offset = 4 ∧ pg3.header.freeSize = pg1.header.freeSize - 8 :=
  ⟨_, _, _, _, _, _, rfl, rfl, rfl, rfl, rfl, rfl⟩

/-- Two requests for 65533 and more bytes get the same place on an empty page. -/
example :
    ∃ pg1 s1 pg2 s2, examplePage.allocateRowWrap 65533 = .ok (pg1, some s1) ∧
      pg1.allocateRowWrap 65535 = .ok (pg2, some s2) ∧ s1.offset = s2.offset ∧ pg2.header.usedSize = 0 :=
  ⟨_, _, _, _, rfl, rfl, rfl, rfl⟩

/-- What is written for a page with a single row contains what is written for the row. -/
theorem single_row_page_write {pg : Page} {d : DataPageContent} {r : Row} (hc : pg.content = .data d)
    (hrows : d.rows = [(0, r)]) (hl : d.rowGroups.length = 1) (hg : ∀ g ∈ d.rowGroups, g.rowOffsets.length = 16)
    {q : Nat} {ps : List Patch} (h : r.writeWrap 4136 = .ok ((), q, ps)) :
    ∃ q' ps', pg.writeWrap 4096 4096 = .ok ((), q', ps') ∧ ∀ x ∈ ps, x ∈ ps' := by
  have hgr : DataPageContent.writeGroups (DataPageContent.pageHeapSizeWrap 4096) d.rowGroups 4136 =
      .ok ((), 4136, RowGroup.allPatches (4136 + DataPageContent.pageHeapSizeWrap 4096) d.rowGroups) :=
    (DataPageContent.writeGroups_eq_ok hg).2 ⟨rfl, by rw [hl]; decide, rfl⟩
  have hat : DataPageContent.writeAtOffsetsWrap d.rows 4136 = .ok ((), 4136, [] ++ (([] ++ (ps ++ [])) ++ [])) := by
    rw [hrows]
    exact Wr.bind_of_ok rfl (Wr.bind_of_ok (Wr.bind_of_ok rfl (Wr.bind_of_ok h rfl)) rfl)
  have hdata : d.writeWrap 4096 4128 = .ok _ :=
    Wr.bind_of_ok (by rw [Wr.emit_def, DataPageHeader.enc_length]) (Wr.bind_of_ok hgr (Wr.bind_of_ok hat rfl))
  have hcont := (congrArg (fun c => PageContent.writeWrap 4096 c 4128) hc).trans hdata
  have hall : pg.writeWrap 4096 4096 = .ok _ :=
    Wr.bind_of_ok (by rw [Wr.emit_def, PageHeader.enc_length]) hcont
  refine ⟨_, _, hall, ?_⟩
  intro x hx
  simp only [List.mem_append]
  exact .inr (.inr (.inr (.inl (.inr (.inl (.inr (.inl hx)))))))

/-- A row of 65557 bytes. -/
def longHistory (c : Bytes) : Row :=
  .plain (.history ⟨0, 0, 0, .long (.ascii c), .short [], .long (.ascii c)⟩)

/-- C87 fails for rows of 65536 bytes and more.  The row can be made with `DeviceSQLString::new`; it is put on a page
of 4096 bytes as if it had 21 bytes; and then storing the page overwrites more than the 15 following pages. -/
theorem release_row_leaves_page : ∃ (r : Row) (pg1 pg2 : Page) (slot : RowSlot) (q : Nat) (ps : List Patch),
    (∀ v ∈ r.strings, v.Reachable ∧ v.Storable) ∧ r.Fits (.plain .history) ∧ r.heapWrap = .ok 21 ∧
      (Page.fresh 4056 ⟨1⟩ ⟨2⟩ (.plain .history) ⟨1, 2, 0, 0⟩).allocateRowWrap 21 = .ok (pg1, some slot) ∧
      pg1.insertRow slot r = .ok pg2 ∧ pg2.writeWrap 4096 4096 = .ok ((), q, ps) ∧
      ∃ x ∈ ps, x.off < 2 * 4096 ∧ 17 * 4096 < x.off + x.bytes.length := by
  obtain ⟨s, hs, hl⟩ : ∃ s : String, AsciiText s ∧ (utf8 s).length = 32767 := by
    refine ⟨String.ofList (List.replicate 32767 'A'), ?_, ?_⟩
    · intro c hc
      rw [String.toList_ofList, List.mem_replicate] at hc
      rw [hc.2]
      decide
    · have h8 : ∀ n, ((List.replicate n 'A').flatMap String.utf8EncodeChar).length = n := by
        intro n
        induction n with
        | zero => rfl
        | succ n ih =>
          rw [List.replicate_succ, List.flatMap_cons, List.length_append, ih,
            show (String.utf8EncodeChar 'A').length = 1 by decide]
          omega
      rw [utf8_eq_flatMap, String.toList_ofList, h8]
  have hnew : DString.new s = .ok (.long (.ascii (utf8 s))) :=
    ((string_new_accepts s).2 (by omega)).2.1 hs (by omega)
  generalize hc : utf8 s = c at hnew hl
  have hst : ∀ v ∈ (longHistory c).strings, v.Reachable ∧ v.Storable := by
    intro v hv
    simp only [longHistory, Row.strings, History.strings, List.mem_cons, List.not_mem_nil, or_false] at hv
    rcases hv with rfl | rfl | rfl
    · exact ⟨.new s _ hnew, by show c.length ≤ _; omega⟩
    · exact ⟨.new "" _ (by decide +kernel), Nat.zero_le _⟩
    · exact ⟨.new s _ hnew, by show c.length ≤ _; omega⟩
  obtain ⟨q, ps, hw⟩ := row_writable (r := longHistory c) ⟨fun v hv => (hst v hv).2, trivial, trivial⟩ trivial 4136
  have hww : (longHistory c).writeWrap 4136 = .ok ((), q, ps) := by
    rw [Row.write_agree _ _ (by rw [hw]; exact fun h => (by cases h)), hw]
  obtain ⟨bs, he, hq, hps⟩ := Wr.emitRes_eq_ok (show Wr.emitRes (History.enc _) 4136 = _ from hw)
  have hh := History.heap_wrap he (fun v hv bs hb => by
    have := (hst v hv).2.heap hb
    rw [v.heap_agree (by rw [this]; exact fun h => (by cases h)), this])
  have hlen : bs.length = 65557 := by
    unfold History.enc at he
    obtain ⟨b1, e1, he⟩ := Res.bind_eq_ok.1 he
    obtain ⟨b2, e2, he⟩ := Res.bind_eq_ok.1 he
    obtain ⟨b3, e3, he⟩ := Res.bind_eq_ok.1 he
    injection he with he
    subst he
    have l1 : b1.length = 4 + c.length := DString.length_of_enc e1
    have l2 : b2.length = 1 := DString.length_of_enc e2
    have l3 : b3.length = 4 + c.length := DString.length_of_enc e3
    simp only [List.length_append, encU16_length, encU32_length]
    omega
  rw [hlen] at hh
  have key : ∀ pg1 slot pg2,
      (Page.fresh 4056 ⟨1⟩ ⟨2⟩ (.plain .history) ⟨1, 2, 0, 0⟩).allocateRowWrap 21 = .ok (pg1, some slot) →
      pg1.insertRow slot (longHistory c) = .ok pg2 → ∃ d, pg2.content = .data d ∧ d.rows = [(0, longHistory c)] ∧
        d.rowGroups.length = 1 ∧ ∀ g ∈ d.rowGroups, g.rowOffsets.length = 16 := by
    intro pg1 slot pg2 h1 h2
    injection h1 with h1
    injection h1 with h1 h3
    injection h3 with h3
    subst h1; subst h3
    injection h2 with h2
    subst h2
    refine ⟨_, rfl, rfl, rfl, fun g hg => ?_⟩
    obtain rfl := List.mem_singleton.1 hg
    rfl
  obtain ⟨d, h1, h2, h3, h4⟩ := key _ _ _ rfl rfl
  obtain ⟨q', ps', h5, h6⟩ := single_row_page_write h1 h2 h3 h4 hww
  exact ⟨longHistory c, _, _, _, q', ps', hst, rfl, hh, rfl, rfl, h5, ⟨4136, bs⟩, h6 _ (by rw [hps]; simp),
    by show 4136 < 8192; decide, by show 17 * 4096 < 4136 + bs.length; omega⟩

/-! ## Concrete cases -/

/-- A genre whose name has the length byte 1. -/
example : Row.read (.plain .genres) [7, 0, 0, 0, 1, 65, 66] 0 = .panic ∧
    Row.readWrap (.plain .genres) [7, 0, 0, 0, 1, 65, 66] 0 = .err .assertFail := by decide +kernel

/-- A genre that is fine. -/
example : Row.read (.plain .genres) [7, 0, 0, 0, 7, 65, 66] 0 ≠ .panic ∧
    Row.readWrap (.plain .genres) [7, 0, 0, 0, 7, 65, 66] 0 =
      .ok (.plain (.genre ⟨7, .short [65, 66]⟩), 7) := by decide +kernel

/-- A page in a database with pages of 20 bytes. -/
example : Page.read 20 .plain (List.replicate 64 0) 0 = .panic ∧
    Page.readWrap 20 .plain (List.replicate 64 0) 0 ≠ .panic := by decide +kernel

/-- An ISRC with a declared length of 0. -/
example : BadString [0x90, 0, 0, 0, 3, 65, 0] 0 ∧ DString.read [0x90, 0, 0, 0, 3, 65, 0] 0 = .panic ∧
    DString.readWrap [0x90, 0, 0, 0, 3, 65, 0] 0 = .ok (.long (.isrc [65]), 7) :=
  ⟨.inr ⟨0x90, 0, rfl, by decide, ⟨0, 0, rfl, rfl, rfl⟩, by decide⟩, by decide +kernel, by decide +kernel⟩

/-- An analysis file whose header claims to be 8 bytes long. -/
example : Anlz.AnlzFile.read [80, 77, 65, 73, 0, 0, 0, 8, 0, 0, 0, 8] 0 = .panic ∧
    Anlz.AnlzFile.readWrap [80, 77, 65, 73, 0, 0, 0, 8, 0, 0, 0, 8] 0 = .err .eof := by decide +kernel

/-- An analysis file without sections. -/
example : Anlz.AnlzFile.read [80, 77, 65, 73, 0, 0, 0, 12, 0, 0, 0, 12] 0 ≠ .panic ∧
    Anlz.AnlzFile.readWrap [80, 77, 65, 73, 0, 0, 0, 12, 0, 0, 0, 12] 0 = .ok (⟨⟨.file, 12, 12⟩, [], []⟩, 12) ∧
    Anlz.AnlzFile.encWrap ⟨⟨.file, 12, 12⟩, [], []⟩ = [80, 77, 65, 73, 0, 0, 0, 12, 0, 0, 0, 12] := by
  decide +kernel

example : (Row.plain (.track exampleTrack)).heapWrap = .ok 198 ∧
    ∃ pg1 slot, examplePage.allocateRowWrap 198 = .ok (pg1, some slot) :=
  ⟨((allocate_release_same examplePage _ 198).1 (by decide +kernel)).trans (by decide +kernel), _, _, rfl⟩

end Rekordcrate
