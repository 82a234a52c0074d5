import Verif.Props.Page

/-! # C65: exactly which pages are written back as they were -/

namespace Rekordcrate
open Rd

/-! ## Strings and rows -/

theorem DString.exact_of_enc {v : DString} {bs img : Bytes} {p : Nat} (h : v.enc = .ok bs) (hb : HasAt img p bs) :
    v.ExactAt img p := by
  rcases DString.enc_eq_ok h with ⟨c, rfl, -⟩ | ⟨b, rfl, hl, rfl⟩
  · trivial
  · cases b with
    | isrc c =>
      unfold longBytes at hb
      rw [HasAt.append_iff, HasAt.append_iff] at hb
      have hu := U16At.of_hasAt hb.2.1
      simp only [UInt16.toNat_ofNat', List.length_singleton] at hu
      rw [Nat.mod_eq_of_lt hl] at hu
      have e : (LongBody.isrc c).enc.length + 4 = c.length + 6 := by simp [LongBody.enc, encNullString]
      rw [e] at hu
      exact hu
    | ascii c => trivial
    | ucs2le us => trivial

theorem OffsetContainer.exact_of_writeProvided {base q : Nat} {l : List (DString × Nat)} {ps : List Patch} {img : Bytes}
    (h : writeProvided base l base = .ok ((), q, ps)) (hc : Contains img ps) :
    ∀ x ∈ l, x.1.ExactAt img (base + x.2) := by
  induction l generalizing ps with
  | nil => intro x hx; cases hx
  | cons y l ih =>
    obtain ⟨v, o⟩ := y
    unfold writeProvided at h
    obtain ⟨_, p1, ps1, ps2, h1, g1, e1⟩ := Wr.bind_eq_ok.1 h
    obtain ⟨_, p2, ps3, ps4, h2, g2, e2⟩ := Wr.bind_eq_ok.1 g1
    obtain ⟨_, p3, ps5, ps6, h3, g3, e3⟩ := Wr.bind_eq_ok.1 g2
    subst e1 e2 e3
    rw [Wr.seekBy_nat] at h1
    simp only [Res.ok.injEq, Prod.mk.injEq] at h1
    obtain ⟨-, rfl, rfl⟩ := h1
    obtain ⟨bs, he, rfl, rfl⟩ := Wr.emitRes_eq_ok h2
    simp only [Wr.seekTo, Res.ok.injEq, Prod.mk.injEq] at h3
    obtain ⟨-, rfl, rfl⟩ := h3
    rw [Contains.append_iff, Contains.append_iff, Contains.append_iff, Contains.cons_iff] at hc
    intro x hx
    rcases List.mem_cons.1 hx with rfl | hx
    · exact DString.exact_of_enc he hc.2.1.1
    · exact ih g3 hc.2.2.2 x hx

theorem crow_exact {T : Type} [OffsetItems T] [LawfulItems T] {c : OffsetContainer T} {hd : Bytes} {N : Nat} {size : OffsetSize}
    (hlen : hd.length = N) {p p' : Nat} {ps : List Patch} {img : Bytes}
    (h : (do Wr.emit hd; c.write N size : Wr Unit) p = .ok ((), p', ps)) (hc : Contains img ps) :
    ∀ x ∈ c.stringsAt p, x.2.ExactAt img x.1 := by
  obtain ⟨ps', h', rfl⟩ := crow_write_eq_ok hlen h
  rw [Contains.cons_iff] at hc
  unfold OffsetContainer.stringsAt
  cases ho : c.offsets with
  | none => intro x hx; cases hx
  | some a =>
    unfold OffsetContainer.write at h'
    obtain ⟨s, p1, ps1, ps2, h1, g1, e1⟩ := Wr.bind_eq_ok.1 h'
    rw [Wr.pos_def] at h1
    simp only [Res.ok.injEq, Prod.mk.injEq] at h1
    obtain ⟨rfl, rfl, rfl⟩ := h1
    obtain ⟨b, p2, ps3, ps4, h2, g2, e2⟩ := Wr.bind_eq_ok.1 g1
    rw [OffsetContainer.calculateBase_ok (by omega), Nat.add_sub_cancel] at h2
    obtain ⟨rfl, rfl, rfl⟩ := (by simpa [Wr.lift] using h2 : p = b ∧ p + N = p2 ∧ [] = ps3)
    simp only [ho] at g2
    obtain ⟨_, p3, ps5, ps6, h3, g3, e3⟩ := Wr.bind_eq_ok.1 g2
    obtain ⟨_, p4, ps7, ps8, h4, g4, e4⟩ := Wr.bind_eq_ok.1 g3
    obtain ⟨_, p5, ps9, ps10, h5, g5, e5⟩ := Wr.bind_eq_ok.1 g4
    simp only [Wr.seekTo, Res.ok.injEq, Prod.mk.injEq] at h5
    obtain ⟨-, rfl, rfl⟩ := h5
    have hc' : Contains img ps10 := fun q hq => hc.2 q (by simp [e1, e2, e3, e4, e5, hq])
    intro x hx
    obtain ⟨i, hi⟩ := List.mem_iff_getElem?.1 hx
    rw [List.getElem?_zip_eq_some] at hi
    obtain ⟨h6, h7⟩ := hi
    rw [List.getElem?_map, Option.map_eq_some_iff] at h6
    obtain ⟨o, h6, h8⟩ := h6
    have := OffsetContainer.exact_of_writeProvided g5 hc' (x.2, o) (List.mem_iff_getElem?.2 ⟨i, by
      rw [List.getElem?_zip_eq_some]; exact ⟨h7, h6⟩⟩)
    rw [← h8]
    exact this

/-- A row whose writes are held by the file has ISRCs with exact length fields. -/
theorem Row.exact_of_write {r : Row} {p p' : Nat} {ps : List Patch} {img : Bytes} (h : r.write p = .ok ((), p', ps))
    (hc : Contains img ps) : ∀ x ∈ r.stringsAt p, x.2.ExactAt img x.1 := by
  have one : ∀ {e : Res Bytes} {hd : Bytes} {v : DString} {n : Nat}, (e = do let b ← v.enc; pure (hd ++ b)) →
      hd.length = n → Wr.emitRes e p = .ok ((), p', ps) → v.ExactAt img (p + n) := by
    intro e hd v n he hn hw
    obtain ⟨bs, hb, -, rfl⟩ := Wr.emitRes_eq_ok hw
    rw [hb] at he
    obtain ⟨b, h1, h2⟩ := Res.bind_eq_ok.1 he.symm
    injection h2 with h2
    subst h2
    have := (Contains.cons_iff.1 hc).1
    rw [HasAt.append_iff, hn] at this
    exact DString.exact_of_enc h1 this.2
  cases r with
  | unknown => intro x hx; cases hx
  | plain r =>
    cases r with
    | album r => exact crow_exact r.head_length h hc
    | artist r => exact crow_exact r.head_length h hc
    | track r => exact crow_exact r.head_length h hc
    | historyEntry r => intro x hx; cases hx
    | playlistEntry r => intro x hx; cases hx
    | menu r => intro x hx; cases hx
    | artwork r =>
      intro x hx
      obtain rfl := List.mem_singleton.1 hx
      exact one (hd := encU32 r.id) rfl rfl h
    | genre r =>
      intro x hx
      obtain rfl := List.mem_singleton.1 hx
      exact one (hd := encU32 r.id) rfl rfl h
    | historyPlaylist r =>
      intro x hx
      obtain rfl := List.mem_singleton.1 hx
      exact one (hd := encU32 r.id) rfl rfl h
    | label r =>
      intro x hx
      obtain rfl := List.mem_singleton.1 hx
      exact one (hd := encU32 r.id) rfl rfl h
    | color r =>
      intro x hx
      obtain rfl := List.mem_singleton.1 hx
      exact one (e := r.enc) (hd := encU32 r.unknown1 ++ (encU8 r.unknown2 ++ (r.color.enc ++ encU16 r.unknown3)))
        (by simp only [Color.enc, List.append_assoc]) (by simp [ColorIndex.enc_length]) h
    | key r =>
      intro x hx
      obtain rfl := List.mem_singleton.1 hx
      exact one (e := r.enc) (hd := encU32 r.id ++ encU32 r.id2) (by simp only [Key.enc, List.append_assoc]) rfl h
    | playlistTreeNode r =>
      intro x hx
      obtain rfl := List.mem_singleton.1 hx
      exact one (e := r.enc) (hd := encU32 r.parentId ++ (encU32 r.unknown ++ (encU32 r.sortOrder ++ (encU32 r.id ++
        encU32 r.nodeIsFolder)))) (by simp only [PlaylistTreeNode.enc, List.append_assoc]) rfl h
    | columnEntry r =>
      intro x hx
      obtain rfl := List.mem_singleton.1 hx
      exact one (e := r.enc) (hd := encU16 r.id ++ encU16 r.unknown0)
        (by simp only [ColumnEntry.enc, List.append_assoc]) rfl h
    | history r =>
      obtain ⟨bs, hb, -, rfl⟩ := Wr.emitRes_eq_ok h
      unfold History.enc at hb
      obtain ⟨b1, e1, hb⟩ := Res.bind_eq_ok.1 hb
      obtain ⟨b2, e2, hb⟩ := Res.bind_eq_ok.1 hb
      obtain ⟨b3, e3, hb⟩ := Res.bind_eq_ok.1 hb
      injection hb with hb
      subst hb
      have l1 := DString.length_of_enc e1
      have l2 := DString.length_of_enc e2
      have hh := (Contains.cons_iff.1 hc).1
      simp only [HasAt.append_iff, encU16_length, encU32_length, l1, l2] at hh
      obtain ⟨-, -, -, -, h1, -, h2, h3⟩ := hh
      intro x hx
      simp only [Row.stringsAt, History.stringsAt, List.mem_cons, List.not_mem_nil, or_false] at hx
      rcases hx with rfl | rfl | rfl
      · exact DString.exact_of_enc e1 h1
      · refine DString.exact_of_enc e2 ?_
        rw [show p + 14 + r.date.size = p + 2 + 2 + 4 + 4 + r.date.size + 2 by omega]
        exact h2
      · refine DString.exact_of_enc e3 ?_
        rw [show p + 14 + r.date.size + r.version.size = p + 2 + 2 + 4 + 4 + r.date.size + 2 + r.version.size by omega]
        exact h3
  | ext r =>
    cases r with
    | tag r => exact crow_exact r.head_length h hc
    | trackTag r => intro x hx; cases hx

/-- C65 (exact): a row that was read is written back, asking only for bytes that the file holds, exactly if its ISRCs
have the length fields that belong to them. -/
theorem row_rewrite_iff {t : PageType} {img : Bytes} {p q : Nat} {r : Row} (h : Row.read t img p = .ok (r, q)) :
    (∃ p' ps, r.write p = .ok ((), p', ps) ∧ Contains img ps) ↔ ∀ x ∈ r.stringsAt p, x.2.ExactAt img x.1 :=
  ⟨fun ⟨_, _, h1, h2⟩ => Row.exact_of_write h1 h2, fun he => (Row.read_then_write h he).2⟩

/-! ## Pages -/

theorem DataPageContent.RowsWritten.exact {base : Nat} {rows : RowMap} {ps : List Patch} {img : Bytes}
    (h : RowsWritten base rows ps) (hc : Contains img ps) :
    ∀ x ∈ rows, ∀ y ∈ x.2.stringsAt (base + x.1.toNat), y.2.ExactAt img y.1 := by
  induction h with
  | nil => intro x hx; cases hx
  | cons h _ ih =>
    rw [Contains.append_iff] at hc
    intro x hx
    rcases List.mem_cons.1 hx with rfl | hx
    · exact Row.exact_of_write h hc.1
    · exact ih hc.2 x hx

theorem entries_of_hasAt_replicate {img : Bytes} {e : IndexEntry} {n b : Nat}
    (h : HasAt img b ((List.replicate n e).flatMap IndexEntry.enc)) :
    ∀ i, i < n → U32At img (b + 4 * i) e.raw.toNat := by
  induction n generalizing b with
  | zero => intro i hi; omega
  | succ n ih =>
    rw [List.replicate_succ, List.flatMap_cons, HasAt.append_iff, show e.enc.length = 4 by simp [IndexEntry.enc]] at h
    intro i hi
    cases i with
    | zero => exact U32At.of_hasAt h.1
    | succ i =>
      have := ih h.2 i (by omega)
      rwa [show b + 4 * (i + 1) = b + 4 + 4 * i by omega]

/-- C65 (exact): a page that was read is written back to one page size, asking only for bytes that the file holds,
exactly if the ISRCs of its rows have the length fields that belong to them and an index page is padded as usual. -/
theorem page_rewrite_iff {pageSize : Nat} {db : DatabaseType} {img : Bytes} {p q : Nat} {pg : Page}
    (h : Page.read pageSize db img p = .ok (pg, q)) :
    (∃ ps, pg.write pageSize p = .ok ((), p + pageSize, ps) ∧ Contains img ps) ↔ pg.Canonical pageSize img p := by
  refine ⟨?_, page_rewrite_contained h⟩
  rintro ⟨ps, hw, hc⟩
  obtain ⟨ps', hw', rfl⟩ := Page.write_eq_ok.1 hw
  rw [Contains.append_iff] at hc
  obtain ⟨-, hh, hcont⟩ := Page.read_eq_ok h
  rcases Page.content_read_inv hcont with ⟨-, c, hd, hr⟩ | ⟨-, c, hd, hr⟩
  · obtain ⟨-, -, -, -, -, -, h16, -, -, -, -⟩ := DataPageContent.read_inv hr
    rw [hd] at hw'
    obtain ⟨-, -, -, rps, hrw, rfl⟩ := (DataPageContent.write_eq_ok h16).1 hw'
    rw [Contains.append_iff, Contains.append_iff] at hc
    refine ⟨fun y hy => ?_, by unfold Page.Padded; rw [hd]; trivial⟩
    unfold Page.stringsAt at hy
    rw [hd] at hy
    obtain ⟨x, hx, hy⟩ := List.mem_flatMap.1 hy
    exact hrw.exact hc.2.2.2 x hx y hy
  · obtain ⟨hn, -, -, -⟩ := IndexPageContent.read_inv hr
    rw [hd] at hw'
    obtain ⟨h80, hle, he, rfl⟩ := IndexPageContent.write_eq_ok.1 hw'
    simp only [Contains.cons_iff] at hc
    obtain ⟨-, -, -, hempty, hzero, -⟩ := hc
    refine ⟨fun y hy => ?_, ?_⟩
    · unfold Page.stringsAt at hy
      rw [hd] at hy
      cases hy
    · unfold Page.Padded
      rw [hd]
      have hdiv : pageSize = 80 + 4 * ((pageSize - 80) / 4) := by omega
      refine ⟨by omega, by omega, fun i h1 h2 => ?_, fun i hi => ?_⟩
      · have := entries_of_hasAt_replicate hempty (i - c.entries.length) (by omega)
        rwa [show p + 32 + 28 + 4 * c.entries.length + 4 * (i - c.entries.length) = p + 60 + 4 * i by omega] at this
      · have := hzero i (by simpa using hi)
        simp only [List.getElem?_replicate, if_pos hi] at this
        rw [← this]
        congr 1
        omega

/-! ## Concrete cases -/

/-- A genre whose name is an ISRC with a length field of 32 that should be 7: read, but written back with 7. -/
example : ∃ r q, Row.read (.plain .genres) [1, 0, 0, 0, 0x90, 32, 0, 0, 3, 65, 0] 0 = .ok (r, q) ∧
    ¬ ∃ p' ps, r.write 0 = .ok ((), p', ps) ∧ Contains [1, 0, 0, 0, 0x90, 32, 0, 0, 3, 65, 0] ps := by
  have h : Row.read (.plain .genres) [1, 0, 0, 0, 0x90, 32, 0, 0, 3, 65, 0] 0 =
      .ok (.plain (.genre ⟨1, .long (.isrc [65])⟩), 11) := by decide +kernel
  refine ⟨_, _, h, fun hw => ?_⟩
  obtain ⟨a, b, h1, h2, h3⟩ := (row_rewrite_iff h).1 hw _ (List.mem_singleton.2 rfl)
  obtain rfl : (32 : UInt8) = a := by injection h1
  obtain rfl : (0 : UInt8) = b := by injection h2
  revert h3
  decide

/-- The same with the right length field. -/
example : ∃ r q, Row.read (.plain .genres) [1, 0, 0, 0, 0x90, 7, 0, 0, 3, 65, 0] 0 = .ok (r, q) ∧
    ∃ p' ps, r.write 0 = .ok ((), p', ps) ∧ Contains [1, 0, 0, 0, 0x90, 7, 0, 0, 3, 65, 0] ps := by
  have h : Row.read (.plain .genres) [1, 0, 0, 0, 0x90, 7, 0, 0, 3, 65, 0] 0 =
      .ok (.plain (.genre ⟨1, .long (.isrc [65])⟩), 11) := by decide +kernel
  refine ⟨_, _, h, (row_rewrite_iff h).2 fun x hx => ?_⟩
  obtain rfl := List.mem_singleton.1 hx
  exact ⟨7, 0, rfl, rfl, rfl⟩

end Rekordcrate
