import Verif.Spec.FailedFlush
import Verif.Lemmas.Begun
import Verif.Props.Flush

/-! # C99: flushes that fail -/

namespace Rekordcrate

/-- C99: if the flush succeeds, the writes recorded by the serialiser that keeps the writes of failures are the writes
of the flush. -/
theorem flush_file {d d' : Database} (h : d.flush = .ok d') : d.fileAfterFlush = d'.io := by
  unfold Database.flush Database.flushWrites at h
  cases hw : d.content.write 0 with
  | ok x =>
    obtain ⟨⟨⟩, q, ps⟩ := x
    rw [hw] at h
    injection h with h
    subst h
    unfold Database.fileAfterFlush
    rw [Tw.eq_ok_of_forget (t := d.content.writeT) (by rw [LazyDatabase.forget_writeT]; exact hw)]
  | err e => rw [hw] at h; cases h
  | panic => rw [hw] at h; cases h

/-- C99: the parts of a row, written one after the other, are the row. -/
theorem row_parts {r : PlainRow} (hr : r.parts ≠ []) {p q : Nat} {ps : List Patch} (h : r.write p = .ok ((), q, ps)) :
    ps = [⟨p, (begunParts r.parts p).flatMap Patch.bytes⟩] := by
  have one : ∀ (hd : Bytes) (v : DString) (enc : Res Bytes),
      enc = (do let b ← v.enc; pure (hd ++ b)) → Wr.emitRes enc p = .ok ((), q, ps) →
      ps = [⟨p, (begunParts [(hd, v)] p).flatMap Patch.bytes⟩] := by
    intro hd v enc he h
    obtain ⟨bs, hb, -, e⟩ := Wr.emitRes_eq_ok h
    rw [he] at hb
    cases hv : v.enc with
    | ok b =>
      rw [hv] at hb
      injection hb with hb
      rw [e, ← hb]
      simp [begunParts, hv]
    | err e => rw [hv] at hb; cases hb
    | panic => rw [hv] at hb; cases hb
  cases r with
  | artwork r => exact one _ _ r.enc rfl h
  | color r => exact one _ _ r.enc (by simp only [Color.enc, List.append_assoc]) h
  | genre r => exact one _ _ r.enc rfl h
  | historyPlaylist r => exact one _ _ r.enc rfl h
  | key r => exact one _ _ r.enc (by simp only [Key.enc, List.append_assoc]) h
  | label r => exact one _ _ r.enc rfl h
  | playlistTreeNode r => exact one _ _ r.enc (by simp only [PlaylistTreeNode.enc, List.append_assoc]) h
  | columnEntry r => exact one _ _ r.enc (by simp only [ColumnEntry.enc, List.append_assoc]) h
  | history r =>
    obtain ⟨bs, hb, -, e⟩ := Wr.emitRes_eq_ok h
    unfold History.enc at hb
    cases hd : r.date.enc with
    | ok b1 =>
      cases hv : r.version.enc with
      | ok b2 =>
        cases hl : r.label.enc with
        | ok b3 =>
          rw [hd, hv, hl] at hb
          injection hb with hb
          rw [e, ← hb]
          simp [PlainRow.parts, begunParts, hd, hv, hl]
        | err e => rw [hd, hv, hl] at hb; cases hb
        | panic => rw [hd, hv, hl] at hb; cases hb
      | err e => rw [hd, hv] at hb; cases hb
      | panic => rw [hd, hv] at hb; cases hb
    | err e => rw [hd] at hb; cases hb
    | panic => rw [hd] at hb; cases hb
  | _ => exact absurd rfl hr

/-- C99: a row with a string that cannot be written: the fields in front of it and the flags of the string are
written.  The history entry here has a date of 65532 bytes or more. -/
example (b : LongBody) (hb : (DString.long b).enc = .panic) (p : Nat) :
    (Row.plain (.history ⟨0x0280, 7, 2, .long b, .short [0x41], .short []⟩)).writeT p =
      ([⟨p, [0x80, 2, 7, 0, 2, 0, 0, 0, 0, 0, 0, 0]⟩, ⟨p + 12, [b.flags]⟩], .panic) := by
  have he : History.enc ⟨0x0280, 7, 2, .long b, .short [0x41], .short []⟩ = .panic := by
    unfold History.enc
    rw [hb]
    rfl
  have hw : (PlainRow.history ⟨0x0280, 7, 2, .long b, .short [0x41], .short []⟩).write p = .panic := by
    show Wr.emitRes (History.enc _) p = _
    rw [he]
    rfl
  show Tw.orBegun _ _ p = _
  unfold Tw.orBegun
  rw [hw]
  simp only [PlainRow.parts, begunParts, hb, DString.begun]
  rfl

/-- C99: an index page of 96 bytes, which has four places, with five entries: the header and the entries are written
before the subtraction panics. -/
example (e : IndexEntry) : (PageContent.index ⟨⟨0x1fff, 0x1fff, 0, ⟨1⟩, ⟨2⟩, 5, 0x1fff⟩,
      [e, e, e, e, e]⟩).writeT 96 32 =
    ([⟨32, IndexPageHeader.enc ⟨0x1fff, 0x1fff, 0, ⟨1⟩, ⟨2⟩, 5, 0x1fff⟩⟩, ⟨60, e.enc ++ (e.enc ++ (e.enc ++ (e.enc ++
      (e.enc ++ []))))⟩], .panic) := rfl

/-- A page in the shape of a page ends where the next page begins. -/
theorem Page.Framed.end_eq {pg : Page} {size p q : Nat} {ps : List Patch} (hf : pg.Framed size)
    (h : pg.write size p = .ok ((), q, ps)) : q = p + size := by
  unfold Page.write at h
  obtain ⟨_, p1, ps1, ps2, h1, h2, -⟩ := Wr.bind_eq_ok.1 h
  rw [Wr.emit_def, PageHeader.enc_length] at h1
  simp only [Res.ok.injEq, Prod.mk.injEq] at h1
  obtain ⟨-, rfl, -⟩ := h1
  unfold Page.Framed at hf
  revert h2 hf
  cases pg.content with
  | data c =>
    intro hf h2
    have := (DataPageContent.write_eq_ok hf.1).1 h2
    omega
  | index c =>
    intro hf h2
    obtain ⟨a1, a2, a3, -⟩ := IndexPageContent.write_eq_ok.1 h2
    obtain ⟨b1, b2⟩ := hf
    omega

/-! ## An example -/

/-- A tag with a short name. -/
def failingTag (id : UInt32) (name : DString) : TagOrCategory where
  subtype := 0x0680
  indexShift := 0
  unknown1 := 0
  unknown2 := 0
  parentId := 0
  position := 0
  id := id
  rawIsCategory := 0
  offsets := { offsets := none, inner := { name := name, unknown := .short [] } }

/-- A data page of 96 bytes with one tag. -/
def tagPage (index next : UInt32) (id : UInt32) : Bytes :=
  (Page.fresh 46 ⟨index⟩ ⟨next⟩ (.ext .tag) ⟨1, 0, 0, 0⟩).header.enc.take 24 ++ PackedRowCounts.enc ⟨1, 1⟩ ++
    [0x24, 0, 0, 8, 0] ++ [1, 0, 0, 0, 0, 0, 0, 0] ++
    (match (failingTag id (.short [0x41])).write 0 with
      | .ok (_, _, ps) => applyPatches [] ps
      | _ => []) ++ List.replicate 16 0 ++ [0, 0, 1, 0, 0, 0]

/-- The header of a file with three pages of tags. -/
def tagHeader : Header where
  pageSize := 96
  numTables := 1
  nextUnusedPage := ⟨4⟩
  unknown := 5
  sequence := 1
  tables := [{ pageType := .ext .tag, emptyCandidate := 0, firstPage := ⟨1⟩, lastPage := ⟨3⟩ }]

/-- The file. -/
def tagFile : Bytes :=
  tagHeader.enc ++ List.replicate 52 0 ++ tagPage 1 2 7 ++ tagPage 2 3 8 ++ tagPage 3 4 6

/-- The database opened from it. -/
def tagDb : Database where
  io := tagFile
  dbType := .ext
  content := { header := tagHeader, pages := List.replicate 3 .notLoaded }

/-- The page with its rows replaced by a tag. -/
def tagEdit (pg : Page) (r : TagOrCategory) : Page :=
  { pg with content := match pg.content with
    | .data c => .data { c with rows := c.rows.map fun x => (x.1, .ext (.tag r)) }
    | c => c }

/-- The name that does not fit: a long string of 250 bytes. -/
def farTagName : DString := .long (.ascii (List.replicate 250 0x42))

/-! ## The file after a flush that fails -/

theorem failed_flush_pages {d : Database} (h : d.Framed) (hf : ∀ d', d.flush ≠ .ok d') :
    ∃ k pg ps, d.content.pages[k]? = some (.loaded pg) ∧
      (∀ q ps, pg.write d.content.header.pageSize.toNat ((k + 1) * d.content.header.pageSize.toNat) ≠ .ok ((), q, ps)) ∧
      PagesWritten d.content.header.pageSize.toNat d.content.header.pageSize.toNat (d.content.pages.take k) ps ∧
      d.fileAfterFlush = applyPatches (applyPatches d.io (d.headerPatches ++ ps))
        (pg.writeT d.content.header.pageSize.toNat ((k + 1) * d.content.header.pageSize.toNat)).1 := by
  have hlen := d.content.header.enc_length
  have hfit := h.headerFits
  have hn : ∀ q ps, Wr.forEach (LazyPage.write d.content.header.pageSize) d.content.pages
      d.content.header.pageSize.toNat ≠ .ok ((), q, ps) := by
    intro q ps hq
    refine hf { d with io := applyPatches d.io (d.headerPatches ++ ps) } ?_
    unfold Database.flush Database.flushWrites LazyDatabase.write
    have hw : (do
        Wr.emit d.content.header.enc
        Wr.emit (List.replicate (d.content.header.pageSize.toNat - d.content.header.enc.length) 0)
        Wr.forEach (LazyPage.write d.content.header.pageSize) d.content.pages : Wr Unit) 0 =
        .ok ((), q, d.headerPatches ++ ps) := by
      refine Wr.bind_of_ok (ps1 := [⟨0, d.content.header.enc⟩]) (Wr.emit_def _ _) ?_
      rw [Nat.zero_add]
      refine Wr.bind_of_ok (ps2 := ps) (Wr.emit_def _ _) ?_
      rw [List.length_replicate, show d.content.header.enc.length +
        (d.content.header.pageSize.toNat - d.content.header.enc.length) = d.content.header.pageSize.toNat by omega]
      exact hq
    rw [hw]
    rfl
  obtain ⟨k, pg, ps, h1, h2, h3, h4⟩ := pages_fail
    (fun pg hpg p q ps hw => (h.pages pg hpg).end_eq hw) hn
  have e1 : d.content.header.pageSize.toNat + k * d.content.header.pageSize.toNat =
      (k + 1) * d.content.header.pageSize.toNat := by rw [Nat.add_mul]; omega
  rw [e1] at h2 h4
  refine ⟨k, pg, ps, h1, h2, h3, ?_⟩
  have hT : (d.content.writeT 0).1 = (d.headerPatches ++ ps) ++
      (pg.writeT d.content.header.pageSize.toNat ((k + 1) * d.content.header.pageSize.toNat)).1 := by
    rw [List.append_assoc, ← h4]
    show ((Tw.step (Wr.emit d.content.header.enc) >>= fun _ =>
      Tw.step (Wr.emit (List.replicate (d.content.header.pageSize.toNat - d.content.header.enc.length) 0)) >>= fun _ =>
      Tw.forEach (LazyPage.writeT d.content.header.pageSize) d.content.pages) 0).1 = _
    rw [Tw.bind_def, Tw.eq_ok_of_forget (t := Tw.step (Wr.emit d.content.header.enc))
      (by rw [Tw.forget_step]; exact Wr.emit_def _ _)]
    simp only
    rw [Tw.bind_def, Tw.eq_ok_of_forget
      (t := Tw.step (Wr.emit (List.replicate (d.content.header.pageSize.toNat - d.content.header.enc.length) 0)))
      (by rw [Tw.forget_step]; exact Wr.emit_def _ _)]
    simp only
    rw [List.length_replicate, show 0 + d.content.header.enc.length +
      (d.content.header.pageSize.toNat - d.content.header.enc.length) = d.content.header.pageSize.toNat by omega]
    simp [Database.headerPatches]
  unfold Database.fileAfterFlush
  rw [hT, applyPatches_append]

/-- The writes of a flush that fails: those of the pages in front of the first page that cannot be written, and those
of this page. -/
theorem failed_flush_trace {d : Database} (h : d.Framed) (hf : ∀ d', d.flush ≠ .ok d') :
    ∃ k pg dk, d.content.pages[k]? = some (.loaded pg) ∧
      (∀ q ps, pg.write d.content.header.pageSize.toNat ((k + 1) * d.content.header.pageSize.toNat) ≠ .ok ((), q, ps)) ∧
      (d.upTo k).flush = .ok dk ∧
      d.fileAfterFlush = applyPatches dk.io
        (pg.writeT d.content.header.pageSize.toNat ((k + 1) * d.content.header.pageSize.toNat)).1 := by
  obtain ⟨k, pg, ps, h1, h2, h3, h4⟩ := failed_flush_pages h hf
  exact ⟨k, pg, _, h1, h2, Database.flush_eq (Database.flushWrites_of (d := d.upTo k) h.headerFits h3), h4⟩

/-- C99 (the full property, that the file stays as it was, fails, see `failed_flush_changes_file`): if a flush fails,
some page in memory cannot be written.  The database with the pages in front of that page only can be flushed, and in
front of that page the file is the one this flush leaves.  What is behind the beginning of the page is not described
here. -/
theorem failed_flush_partial {d : Database} (h : d.Framed) (hf : ∀ d', d.flush ≠ .ok d') :
    ∃ k pg dk, d.content.pages[k]? = some (.loaded pg) ∧
      (∀ q ps, pg.write d.content.header.pageSize.toNat ((k + 1) * d.content.header.pageSize.toNat) ≠ .ok ((), q, ps)) ∧
      (d.upTo k).flush = .ok dk ∧
      ∀ i, i < (k + 1) * d.content.header.pageSize.toNat → i < dk.io.length → d.fileAfterFlush[i]? = dk.io[i]? := by
  obtain ⟨k, pg, dk, h1, h2, h3, h4⟩ := failed_flush_trace h hf
  refine ⟨k, pg, dk, h1, h2, h3, fun i hi hil => ?_⟩
  rw [h4]
  refine applyPatches_of_not_covers hil fun x hx hc => ?_
  have hup := Page.upAt (pg := pg) (size := d.content.header.pageSize.toNat)
    (p := (k + 1) * d.content.header.pageSize.toNat) (fun c hc => by
      have := h.pages pg (List.mem_of_getElem? h1)
      unfold Page.Framed at this
      rw [hc] at this
      exact this) x hx
  obtain ⟨c1, -⟩ := hc
  omega

/-- C99: if the page that cannot be written has its rows inside the page, nothing behind it changes either: outside
this page the file is the one that the flush of the pages in front of it leaves. -/
theorem failed_flush_outside {d : Database} (h : d.Framed) (h40 : 40 ≤ d.content.header.pageSize.toNat)
    (hf : ∀ d', d.flush ≠ .ok d') :
    ∃ k pg dk, d.content.pages[k]? = some (.loaded pg) ∧
      (∀ q ps, pg.write d.content.header.pageSize.toNat ((k + 1) * d.content.header.pageSize.toNat) ≠ .ok ((), q, ps)) ∧
      (d.upTo k).flush = .ok dk ∧
      (pg.Within d.content.header.pageSize.toNat → ∀ i, i < dk.io.length →
        i < (k + 1) * d.content.header.pageSize.toNat ∨ (k + 2) * d.content.header.pageSize.toNat ≤ i →
        d.fileAfterFlush[i]? = dk.io[i]?) := by
  obtain ⟨k, pg, dk, h1, h2, h3, h4⟩ := failed_flush_trace h hf
  refine ⟨k, pg, dk, h1, h2, h3, fun hw i hil hi => ?_⟩
  rw [h4]
  refine applyPatches_of_not_covers hil fun x hx hc => ?_
  have hfr := h.pages pg (List.mem_of_getElem? h1)
  have hup := Page.upAt (pg := pg) (size := d.content.header.pageSize.toNat)
    (p := (k + 1) * d.content.header.pageSize.toNat) (fun c hc => by
      unfold Page.Framed at hfr
      rw [hc] at hfr
      exact hfr) x hx
  have hdown := Page.downAt (p := (k + 1) * d.content.header.pageSize.toNat) h40 hw hfr x hx
  obtain ⟨c1, c2⟩ := hc
  have e1 : (k + 2) * d.content.header.pageSize.toNat =
      (k + 1) * d.content.header.pageSize.toNat + d.content.header.pageSize.toNat := by
    rw [show k + 2 = k + 1 + 1 from rfl, Nat.add_mul (k + 1)]; omega
  omega

/-- C99: the condition for rows with an offset array that is calculated: the room that their strings take. -/
theorem calculated_rows_within :
    (∀ r : Album, r.offsets.offsets = none → (Row.plain (.album r)).Within (20 + 2 * (offsetSizeOf r.subtype).bytes +
      ((Row.plain (.album r)).strings.map DString.room).sum)) ∧
    (∀ r : Artist, r.offsets.offsets = none → (Row.plain (.artist r)).Within (8 + 2 * (offsetSizeOf r.subtype).bytes +
      ((Row.plain (.artist r)).strings.map DString.room).sum)) ∧
    (∀ r : Track, r.offsets.offsets = none → (Row.plain (.track r)).Within (92 + 22 * (offsetSizeOf r.subtype).bytes +
      ((Row.plain (.track r)).strings.map DString.room).sum)) ∧
    ∀ r : TagOrCategory, r.offsets.offsets = none → (Row.ext (.tag r)).Within (28 + 3 * (offsetSizeOf r.subtype).bytes +
      ((Row.ext (.tag r)).strings.map DString.room).sum) :=
  ⟨fun r h p => headed_within (by simp [Album.head]) h _ p, fun r h p => headed_within (by simp [Artist.head]) h _ p,
    fun r h p => headed_within (by simp [Track.head]) h _ p,
    fun r h p => headed_within (by simp [TagOrCategory.head]) h _ p⟩

/-- C99: the tag of the examples below, which cannot be written, stays within 296 bytes. -/
example : (Row.ext (.tag (failingTag 8 farTagName))).Within 296 :=
  fun p x hx => Nat.le_trans (calculated_rows_within.2.2.2 (failingTag 8 farTagName) rfl p x hx)
    (Nat.add_le_add_left (by decide +kernel) p)

/-- C99: if moreover the pages in front of the page that cannot be written can be stored, then nothing but these
pages and the header page changes in front of that page, the file can be opened, and these pages are read back from
it. -/
theorem failed_flush_in_front {d : Database} (h : d.Framed) (hf : ∀ d', d.flush ≠ .ok d') :
    ∃ k pg, d.content.pages[k]? = some (.loaded pg) ∧
      (∀ q ps, pg.write d.content.header.pageSize.toNat ((k + 1) * d.content.header.pageSize.toNat) ≠ .ok ((), q, ps)) ∧
      ((d.upTo k).Storable →
        (∀ i, i < (k + 1) * d.content.header.pageSize.toNat → i < d.io.length → ¬ (d.upTo k).InDirtyPage i →
          d.fileAfterFlush[i]? = d.io[i]?) ∧
        ∃ d2, Database.openAt d.fileAfterFlush 0 d.dbType = .ok d2 ∧ d2.content.header = d.content.header ∧
          ∀ (j : Nat) (pg : Page), j < k → d.content.pages[j]? = some (.loaded pg) →
            ∃ pg' q, Page.read d.content.header.pageSize.toNat d.dbType d.fileAfterFlush
              ((j + 1) * d.content.header.pageSize.toNat) = .ok (pg', q) ∧ pg.ReadBack pg') := by
  obtain ⟨k, pg, dk, h1, h2, h3, h4⟩ := failed_flush_partial h hf
  refine ⟨k, pg, h1, h2, fun hs => ?_⟩
  obtain ⟨ps, w1, w2, -, w4, w5⟩ := hs.writes
  have hcont := w2.contains_applyPatches d.io
  have hdk : dk.io = applyPatches d.io ps := by
    have := Database.flush_eq w1
    rw [h3] at this
    injection this with this
    rw [this]
    rfl
  have hat : ∀ p bs, HasAt dk.io p bs → p + bs.length ≤ (k + 1) * d.content.header.pageSize.toNat →
      HasAt d.fileAfterFlush p bs := by
    intro p bs hb hle i hi
    rw [← hb i hi]
    refine h4 _ (by omega) ?_
    have := hb.bound (fun h => by rw [h] at hi; cases hi)
    omega
  rw [← hdk] at hcont
  have hfit := h.headerFits
  have hlen := d.content.header.enc_length
  have hsize : d.content.header.pageSize.toNat ≤ (k + 1) * d.content.header.pageSize.toNat := by
    rw [Nat.add_mul]; omega
  refine ⟨?_, { io := d.fileAfterFlush, dbType := d.dbType, content := {
      header := d.content.header
      pages := List.replicate (d.content.header.nextUnusedPage.val.toNat - 1) .notLoaded } }, ?_, rfl, ?_⟩
  · intro i hi hil hn
    obtain ⟨d', hd, -, hk⟩ := flush_keeps_other_pages hs
    rw [h3] at hd
    injection hd with hd
    subst hd
    have hk := hk i hil hn
    refine (h4 i hi ?_).trans hk
    rcases Nat.lt_or_ge i dk.io.length with hlt | hge
    · exact hlt
    · rw [List.getElem?_eq_none hge] at hk
      have := List.getElem?_eq_none_iff.1 hk.symm
      exact absurd hil (Nat.not_lt.2 this)
  · unfold Database.openAt LazyDatabase.read
    have hh : HasAt d.fileAfterFlush 0 d.content.header.enc :=
      hat _ _ (hcont ⟨0, d.content.header.enc⟩ (w4 _ (List.mem_cons_self ..))) (by omega)
    rw [Rd.bind_of_ok (header_roundtrip d.dbType _ hs.header _ _ hh)]
    rfl
  · intro j pgj hj hp
    have hpj : (d.upTo k).content.pages[j]? = some (.loaded pgj) := by
      show (d.content.pages.take k)[j]? = _
      rw [List.getElem?_take, if_pos hj]
      exact hp
    obtain ⟨a, ha1, ha2⟩ := w5 j pgj hpj
    obtain ⟨a', hw, hin, -, hr⟩ := page_roundtrip (hs.pages j pgj hpj) ((j + 1) * d.content.header.pageSize.toNat)
    have e : a = a' := by
      have := ha1.symm.trans hw
      simp only [Res.ok.injEq, Prod.mk.injEq] at this
      exact this.2.2
    subst e
    refine hr _ fun x hx => hat _ _ (hcont x (ha2 x hx)) ?_
    have h5 := (hin x hx).2
    have h5 : x.off + x.bytes.length ≤ (j + 1) * d.content.header.pageSize.toNat + d.content.header.pageSize.toNat := h5
    have h6 : (j + 1 + 1) * d.content.header.pageSize.toNat ≤ (k + 1) * d.content.header.pageSize.toNat :=
      Nat.mul_le_mul_right _ (by omega)
    rw [Nat.add_mul (j + 1)] at h6
    omega

/-! ## Examples -/

/-- The database after loading two of the pages, changing the id of the first tag to 9, and giving the second tag a
long name. -/
def tagSession : Res Database := do
  let (d1, pg1) ← tagDb.loadPage ⟨1⟩
  let (d2, pg2) ← d1.loadPage ⟨2⟩
  .ok ((d2.setPage 0 (tagEdit pg1 (failingTag 9 (.short [0x41])))).setPage 1 (tagEdit pg2 (failingTag 8 farTagName)))

/-- C99: the full property fails.  In this file, loading two pages, changing the id of the tag on the first and giving
the tag on the second a name of 250 bytes, whose second offset does not fit in a byte, makes the flush fail.  The
changed id is stored all the same, and the name lies over the third page, which is not loaded. -/
theorem failed_flush_changes_file :
    Database.openAt tagFile 0 .ext = .ok tagDb ∧
    ∃ d, tagSession = .ok d ∧ d.io = tagFile ∧ d.flush = .err .assertFail ∧
      tagFile[156]? = some 7 ∧ d.fileAfterFlush[156]? = some 9 ∧
      ¬ d.IsLoaded 3 ∧ tagFile[296]? = some 3 ∧ d.fileAfterFlush[296]? = some 0x42 := by
  refine ⟨by decide +kernel, ?_⟩
  have h : (match tagSession with
      | .ok d => d.io == tagFile && d.flush == .err .assertFail && d.fileAfterFlush[156]? == some 9 &&
          d.content.pages[2]? == some .notLoaded && d.fileAfterFlush[296]? == some 0x42
      | _ => false) = true := by decide +kernel
  cases h1 : tagSession with
  | ok d =>
    rw [h1] at h
    simp only [Bool.and_eq_true, beq_iff_eq] at h
    obtain ⟨⟨⟨⟨a1, a2⟩, a3⟩, a4⟩, a5⟩ := h
    refine ⟨d, rfl, a1, a2, by decide +kernel, a3, ?_, by decide +kernel, a5⟩
    rintro ⟨-, pg', hp⟩
    rw [a4] at hp
    cases hp
  | err e => rw [h1] at h; cases h
  | panic => rw [h1] at h; cases h

/-! ### A database whose pages in front can be stored -/

/-- C99: the example database with its three pages in memory, and a tag with a long name on the last. -/
def failingDb : Database := exampleLoaded.setPage 2 (tagEdit (exampleDbPage 3) (failingTag 8 farTagName))

/-- C99: the hypotheses are met by the example. -/
theorem failingDb_framed : failingDb.Framed := by
  refine ⟨by decide +kernel, fun pg hpg => ?_⟩
  have hp : failingDb.content.pages = [.loaded (exampleDbPage 1), .loaded (exampleDbPage 2),
    .loaded (tagEdit (exampleDbPage 3) (failingTag 8 farTagName))] := rfl
  rw [hp] at hpg
  simp only [List.mem_cons, LazyPage.loaded.injEq, List.not_mem_nil, or_false] at hpg
  have data : ∀ (pg : Page) (hd : DataPageHeader) (rows : RowMap),
      pg.content = .data ⟨hd, [⟨List.replicate 16 0, 1, 0⟩], rows⟩ → pg.Framed 96 := by
    intro pg hd rows hc
    unfold Page.Framed
    rw [hc]
    refine ⟨fun g hg => ?_, show 36 * 1 ≤ 96 by decide⟩
    rw [List.mem_singleton] at hg
    rw [hg]
    rfl
  have hs : failingDb.content.header.pageSize.toNat = 96 := rfl
  rw [hs]
  rcases hpg with e | e | e
  · unfold Page.Framed
    rw [e, show (exampleDbPage 1).content = .index
      { header := ⟨0x1fff, 0x1fff, 0, ⟨1⟩, ⟨2⟩, 0, 0x1fff⟩, entries := [] } by decide +kernel]
    exact ⟨rfl, by decide⟩
  · exact data pg ⟨1, 0, 0, 0⟩ [(0, exampleGenre)] (by rw [e]; decide +kernel)
  · have hc : (tagEdit (exampleDbPage 3) (failingTag 8 farTagName)).content =
        .data ⟨⟨1, 0, 0, 0⟩, [⟨List.replicate 16 0, 1, 0⟩], [(0, .ext (.tag (failingTag 8 farTagName)))]⟩ := by
      decide +kernel
    rw [← e] at hc
    exact data pg _ _ hc

/-- C99: the flush of the example fails, and the first two pages can be stored. -/
example : failingDb.flush = .err .assertFail ∧ (failingDb.upTo 2).Storable := by
  refine ⟨by decide +kernel, exampleLoaded_storable.header, exampleLoaded_storable.headerFits, ?_⟩
  intro n pg hn
  refine exampleLoaded_storable.pages n pg ?_
  match n, hn with
  | 0, hn => exact hn
  | 1, hn => exact hn
  | n + 2, hn =>
    have : (failingDb.upTo 2).content.pages.length = 2 := rfl
    rw [List.getElem?_eq_none (by omega)] at hn
    cases hn

end Rekordcrate
