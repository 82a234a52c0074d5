import Verif.Lemmas.RowBase

/-! # Lemmas on the individual rows -/

set_option linter.unusedSimpArgs false
set_option linter.unusedVariables false

namespace Rekordcrate
open Rd

/-! ## `Album` -/

theorem Album.head_length (r : Album) : r.head.length = 20 := by
  simp only [Album.head, encU8_length, encU16_length, encU32_length, ColorIndex.enc_length, FileType.enc_length,
      MenuVisibility.enc_length, List.length_append]

theorem Album.pre (r : Album) : Pre Album.read r.head
    (do let c ← OffsetContainer.read 20 (offsetSizeOf r.subtype); pure { r with offsets := c }) := by
  unfold Album.read Album.head
  exact Pre.bind (RT.u16 _) (Pre.bind (RT.u16 _) (Pre.bind (RT.u32 _) (Pre.bind (RT.u32 _) (Pre.bind (RT.u32 _) (Pre.last (RT.u32 _))))))

theorem Album.head_inv {img : Bytes} {p q : Nat} {r : Album} (h : Album.read img p = .ok (r, q)) :
    HasAt img p r.head ∧ (OffsetContainer.read 20 (offsetSizeOf r.subtype) : Rd (OffsetContainer TrailingName)) img (p + 20) =
      .ok (r.offsets, q) := by
  unfold Album.read at h
  obtain ⟨subtype, q0, h0, h⟩ := bind_eq_ok.1 h
  obtain ⟨indexShift, q1, h1, h⟩ := bind_eq_ok.1 h
  obtain ⟨unknown2, q2, h2, h⟩ := bind_eq_ok.1 h
  obtain ⟨artistId, q3, h3, h⟩ := bind_eq_ok.1 h
  obtain ⟨id, q4, h4, h⟩ := bind_eq_ok.1 h
  obtain ⟨unknown3, q5, h5, h⟩ := bind_eq_ok.1 h
  obtain ⟨c, qc, hcont, h⟩ := bind_eq_ok.1 h
  rw [pure_eq_ok] at h
  obtain ⟨rfl, rfl⟩ := h
  obtain ⟨_, t0, rfl, rfl⟩ := Inv.u16 _ _ _ _ h0
  obtain ⟨_, t1, rfl, rfl⟩ := Inv.u16 _ _ _ _ h1
  obtain ⟨_, t2, rfl, rfl⟩ := Inv.u32 _ _ _ _ h2
  obtain ⟨_, t3, rfl, rfl⟩ := Inv.u32 _ _ _ _ h3
  obtain ⟨_, t4, rfl, rfl⟩ := Inv.u32 _ _ _ _ h4
  obtain ⟨_, t5, rfl, rfl⟩ := Inv.u32 _ _ _ _ h5
  refine ⟨?_, hcont⟩
  simp only [Album.head, HasAt.append_iff]
  exact ⟨t0, t1, t2, t3, t4, t5⟩

theorem Album.heap {r : Album} (hc : r.offsets.offsets = none)
    (hh : ∀ v ∈ r.strings, ∀ bs, v.enc = .ok bs → v.heapBytes = .ok bs.length) {p p' : Nat} {ps : List Patch}
    (h : r.write p = .ok ((), p', ps)) :
    ∃ n, r.heapBytes = (if n < 65536 then .ok n else .panic) ∧ PatchesDisjoint ps ∧
      PatchesWithin ps p (p + n) ∧ ∃ x ∈ ps, x.off + x.bytes.length = p + n := by
  obtain ⟨n, h1, h2⟩ := crow_heap r.head_length (by decide) (by decide) hc hh h
  refine ⟨20 + n, ?_, h2⟩
  unfold Album.heapBytes
  rw [h1]
  exact sumHeap_snoc [2, 2, 4, 4, 4, 4] n

/-! ## `Artist` -/

theorem Artist.head_length (r : Artist) : r.head.length = 8 := by
  simp only [Artist.head, encU8_length, encU16_length, encU32_length, ColorIndex.enc_length, FileType.enc_length,
      MenuVisibility.enc_length, List.length_append]

theorem Artist.pre (r : Artist) : Pre Artist.read r.head
    (do let c ← OffsetContainer.read 8 (offsetSizeOf r.subtype); pure { r with offsets := c }) := by
  unfold Artist.read Artist.head
  exact Pre.bind (RT.u16 _) (Pre.bind (RT.u16 _) (Pre.last (RT.u32 _)))

theorem Artist.head_inv {img : Bytes} {p q : Nat} {r : Artist} (h : Artist.read img p = .ok (r, q)) :
    HasAt img p r.head ∧ (OffsetContainer.read 8 (offsetSizeOf r.subtype) : Rd (OffsetContainer TrailingName)) img (p + 8) =
      .ok (r.offsets, q) := by
  unfold Artist.read at h
  obtain ⟨subtype, q0, h0, h⟩ := bind_eq_ok.1 h
  obtain ⟨indexShift, q1, h1, h⟩ := bind_eq_ok.1 h
  obtain ⟨id, q2, h2, h⟩ := bind_eq_ok.1 h
  obtain ⟨c, qc, hcont, h⟩ := bind_eq_ok.1 h
  rw [pure_eq_ok] at h
  obtain ⟨rfl, rfl⟩ := h
  obtain ⟨_, t0, rfl, rfl⟩ := Inv.u16 _ _ _ _ h0
  obtain ⟨_, t1, rfl, rfl⟩ := Inv.u16 _ _ _ _ h1
  obtain ⟨_, t2, rfl, rfl⟩ := Inv.u32 _ _ _ _ h2
  refine ⟨?_, hcont⟩
  simp only [Artist.head, HasAt.append_iff]
  exact ⟨t0, t1, t2⟩

theorem Artist.heap {r : Artist} (hc : r.offsets.offsets = none)
    (hh : ∀ v ∈ r.strings, ∀ bs, v.enc = .ok bs → v.heapBytes = .ok bs.length) {p p' : Nat} {ps : List Patch}
    (h : r.write p = .ok ((), p', ps)) :
    ∃ n, r.heapBytes = (if n < 65536 then .ok n else .panic) ∧ PatchesDisjoint ps ∧
      PatchesWithin ps p (p + n) ∧ ∃ x ∈ ps, x.off + x.bytes.length = p + n := by
  obtain ⟨n, h1, h2⟩ := crow_heap r.head_length (by decide) (by decide) hc hh h
  refine ⟨8 + n, ?_, h2⟩
  unfold Artist.heapBytes
  rw [h1]
  exact sumHeap_snoc [2, 2, 4] n

/-! ## `Artwork` -/

theorem Artwork.rt {r : Artwork} (h : ∀ v ∈ r.strings, v.Storable) :
    ∃ bs, r.enc = .ok bs ∧ RT Artwork.read bs r := by
  obtain ⟨b_path, e_path, w_path⟩ := DString.storable_rt (h r.path (by simp [Artwork.strings]))
  refine ⟨_, by simp only [Artwork.enc, e_path, Res.ok_bind]; rfl, ?_⟩
  unfold Artwork.read
  exact RT.bind (RT.u32 _) (RT.bind_pure (w_path))

theorem Artwork.inv {img : Bytes} {p q : Nat} {r : Artwork} (h : Artwork.read img p = .ok (r, q))
    (he : ∀ x ∈ r.stringsAt p, x.2.ExactAt img x.1) : ∃ bs, r.enc = .ok bs ∧ HasAt img p bs := by
  unfold Artwork.read at h
  obtain ⟨id, q0, h0, h⟩ := bind_eq_ok.1 h
  obtain ⟨path, q1, h1, h⟩ := bind_eq_ok.1 h
  rw [pure_eq_ok] at h
  obtain ⟨rfl, rfl⟩ := h
  obtain ⟨_, t0, rfl, rfl⟩ := Inv.u32 _ _ _ _ h0
  have x1 := he (p + 4, path) (by simp [Artwork.stringsAt])
  rw [show p + 4 = _ from (by simp only [encU8_length, encU16_length, encU32_length, ColorIndex.enc_length, FileType.enc_length,
      MenuVisibility.enc_length, List.length_append] <;> omega : _ = p + (encU32 id).length)] at x1
  obtain ⟨b_path, e_path, t1, rfl, z_path⟩ := DString.read_exact h1 x1
  refine ⟨_, by simp only [Artwork.enc, e_path, Res.ok_bind]; rfl, ?_⟩
  simp only [HasAt.append_iff]
  exact ⟨t0, t1⟩

theorem Artwork.heap {r : Artwork} {bs : Bytes} (h : r.enc = .ok bs)
    (hh : ∀ v ∈ r.strings, ∀ bs, v.enc = .ok bs → v.heapBytes = .ok bs.length) :
    r.heapBytes = if bs.length < 65536 then .ok bs.length else .panic := by
  unfold Artwork.enc at h
  obtain ⟨b_path, e_path, h⟩ := Res.bind_eq_ok.1 h
  have z_path := hh r.path (by simp [Artwork.strings]) _ e_path
  injection h with h
  subst h
  unfold Artwork.heapBytes
  rw [z_path]
  refine (sumHeap_ok [4, b_path.length]).trans ?_
  generalize hs : ([4, b_path.length] : List Nat).sum = s
  generalize hl : List.length _ = l
  have : s = l := by
    subst hs hl
    simp only [encU8_length, encU16_length, encU32_length, ColorIndex.enc_length, FileType.enc_length,
      MenuVisibility.enc_length, List.length_append, List.sum_cons, List.sum_nil]
    try omega
  rw [this]

/-! ## `Color` -/

theorem Color.rt {r : Color} (h : ∀ v ∈ r.strings, v.Storable) :
    ∃ bs, r.enc = .ok bs ∧ RT Color.read bs r := by
  obtain ⟨b_name, e_name, w_name⟩ := DString.storable_rt (h r.name (by simp [Color.strings]))
  refine ⟨_, by simp only [Color.enc, e_name, Res.ok_bind]; rfl, ?_⟩
  unfold Color.read
  exact RT.bind (RT.u32 _) (RT.bind (RT.u8 _) (RT.bind (ColorIndex.rt _) (RT.bind (RT.u16 _) (RT.bind_pure (w_name)))))

theorem Color.inv {img : Bytes} {p q : Nat} {r : Color} (h : Color.read img p = .ok (r, q))
    (he : ∀ x ∈ r.stringsAt p, x.2.ExactAt img x.1) : ∃ bs, r.enc = .ok bs ∧ HasAt img p bs := by
  unfold Color.read at h
  obtain ⟨unknown1, q0, h0, h⟩ := bind_eq_ok.1 h
  obtain ⟨unknown2, q1, h1, h⟩ := bind_eq_ok.1 h
  obtain ⟨color, q2, h2, h⟩ := bind_eq_ok.1 h
  obtain ⟨unknown3, q3, h3, h⟩ := bind_eq_ok.1 h
  obtain ⟨name, q4, h4, h⟩ := bind_eq_ok.1 h
  rw [pure_eq_ok] at h
  obtain ⟨rfl, rfl⟩ := h
  obtain ⟨_, t0, rfl, rfl⟩ := Inv.u32 _ _ _ _ h0
  obtain ⟨_, t1, rfl, rfl⟩ := Inv.u8 _ _ _ _ h1
  obtain ⟨_, t2, rfl, rfl⟩ := ColorIndex.inv _ _ _ _ h2
  obtain ⟨_, t3, rfl, rfl⟩ := Inv.u16 _ _ _ _ h3
  have x4 := he (p + 8, name) (by simp [Color.stringsAt])
  rw [show p + 8 = _ from (by simp only [encU8_length, encU16_length, encU32_length, ColorIndex.enc_length, FileType.enc_length,
      MenuVisibility.enc_length, List.length_append] <;> omega : _ = p + (encU32 unknown1).length + (encU8 unknown2).length + (color.enc).length + (encU16 unknown3).length)] at x4
  obtain ⟨b_name, e_name, t4, rfl, z_name⟩ := DString.read_exact h4 x4
  refine ⟨_, by simp only [Color.enc, e_name, Res.ok_bind]; rfl, ?_⟩
  simp only [HasAt.append_iff]
  exact ⟨t0, t1, t2, t3, t4⟩

theorem Color.heap {r : Color} {bs : Bytes} (h : r.enc = .ok bs)
    (hh : ∀ v ∈ r.strings, ∀ bs, v.enc = .ok bs → v.heapBytes = .ok bs.length) :
    r.heapBytes = if bs.length < 65536 then .ok bs.length else .panic := by
  unfold Color.enc at h
  obtain ⟨b_name, e_name, h⟩ := Res.bind_eq_ok.1 h
  have z_name := hh r.name (by simp [Color.strings]) _ e_name
  injection h with h
  subst h
  unfold Color.heapBytes
  rw [z_name]
  refine (sumHeap_ok [4, 1, 1, 2, b_name.length]).trans ?_
  generalize hs : ([4, 1, 1, 2, b_name.length] : List Nat).sum = s
  generalize hl : List.length _ = l
  have : s = l := by
    subst hs hl
    simp only [encU8_length, encU16_length, encU32_length, ColorIndex.enc_length, FileType.enc_length,
      MenuVisibility.enc_length, List.length_append, List.sum_cons, List.sum_nil]
    try omega
  rw [this]

/-! ## `Genre` -/

theorem Genre.rt {r : Genre} (h : ∀ v ∈ r.strings, v.Storable) :
    ∃ bs, r.enc = .ok bs ∧ RT Genre.read bs r := by
  obtain ⟨b_name, e_name, w_name⟩ := DString.storable_rt (h r.name (by simp [Genre.strings]))
  refine ⟨_, by simp only [Genre.enc, e_name, Res.ok_bind]; rfl, ?_⟩
  unfold Genre.read
  exact RT.bind (RT.u32 _) (RT.bind_pure (w_name))

theorem Genre.inv {img : Bytes} {p q : Nat} {r : Genre} (h : Genre.read img p = .ok (r, q))
    (he : ∀ x ∈ r.stringsAt p, x.2.ExactAt img x.1) : ∃ bs, r.enc = .ok bs ∧ HasAt img p bs := by
  unfold Genre.read at h
  obtain ⟨id, q0, h0, h⟩ := bind_eq_ok.1 h
  obtain ⟨name, q1, h1, h⟩ := bind_eq_ok.1 h
  rw [pure_eq_ok] at h
  obtain ⟨rfl, rfl⟩ := h
  obtain ⟨_, t0, rfl, rfl⟩ := Inv.u32 _ _ _ _ h0
  have x1 := he (p + 4, name) (by simp [Genre.stringsAt])
  rw [show p + 4 = _ from (by simp only [encU8_length, encU16_length, encU32_length, ColorIndex.enc_length, FileType.enc_length,
      MenuVisibility.enc_length, List.length_append] <;> omega : _ = p + (encU32 id).length)] at x1
  obtain ⟨b_name, e_name, t1, rfl, z_name⟩ := DString.read_exact h1 x1
  refine ⟨_, by simp only [Genre.enc, e_name, Res.ok_bind]; rfl, ?_⟩
  simp only [HasAt.append_iff]
  exact ⟨t0, t1⟩

theorem Genre.heap {r : Genre} {bs : Bytes} (h : r.enc = .ok bs)
    (hh : ∀ v ∈ r.strings, ∀ bs, v.enc = .ok bs → v.heapBytes = .ok bs.length) :
    r.heapBytes = if bs.length < 65536 then .ok bs.length else .panic := by
  unfold Genre.enc at h
  obtain ⟨b_name, e_name, h⟩ := Res.bind_eq_ok.1 h
  have z_name := hh r.name (by simp [Genre.strings]) _ e_name
  injection h with h
  subst h
  unfold Genre.heapBytes
  rw [z_name]
  refine (sumHeap_ok [4, b_name.length]).trans ?_
  generalize hs : ([4, b_name.length] : List Nat).sum = s
  generalize hl : List.length _ = l
  have : s = l := by
    subst hs hl
    simp only [encU8_length, encU16_length, encU32_length, ColorIndex.enc_length, FileType.enc_length,
      MenuVisibility.enc_length, List.length_append, List.sum_cons, List.sum_nil]
    try omega
  rw [this]

/-! ## `HistoryPlaylist` -/

theorem HistoryPlaylist.rt {r : HistoryPlaylist} (h : ∀ v ∈ r.strings, v.Storable) :
    ∃ bs, r.enc = .ok bs ∧ RT HistoryPlaylist.read bs r := by
  obtain ⟨b_name, e_name, w_name⟩ := DString.storable_rt (h r.name (by simp [HistoryPlaylist.strings]))
  refine ⟨_, by simp only [HistoryPlaylist.enc, e_name, Res.ok_bind]; rfl, ?_⟩
  unfold HistoryPlaylist.read
  exact RT.bind (RT.u32 _) (RT.bind_pure (w_name))

theorem HistoryPlaylist.inv {img : Bytes} {p q : Nat} {r : HistoryPlaylist} (h : HistoryPlaylist.read img p = .ok (r, q))
    (he : ∀ x ∈ r.stringsAt p, x.2.ExactAt img x.1) : ∃ bs, r.enc = .ok bs ∧ HasAt img p bs := by
  unfold HistoryPlaylist.read at h
  obtain ⟨id, q0, h0, h⟩ := bind_eq_ok.1 h
  obtain ⟨name, q1, h1, h⟩ := bind_eq_ok.1 h
  rw [pure_eq_ok] at h
  obtain ⟨rfl, rfl⟩ := h
  obtain ⟨_, t0, rfl, rfl⟩ := Inv.u32 _ _ _ _ h0
  have x1 := he (p + 4, name) (by simp [HistoryPlaylist.stringsAt])
  rw [show p + 4 = _ from (by simp only [encU8_length, encU16_length, encU32_length, ColorIndex.enc_length, FileType.enc_length,
      MenuVisibility.enc_length, List.length_append] <;> omega : _ = p + (encU32 id).length)] at x1
  obtain ⟨b_name, e_name, t1, rfl, z_name⟩ := DString.read_exact h1 x1
  refine ⟨_, by simp only [HistoryPlaylist.enc, e_name, Res.ok_bind]; rfl, ?_⟩
  simp only [HasAt.append_iff]
  exact ⟨t0, t1⟩

theorem HistoryPlaylist.heap {r : HistoryPlaylist} {bs : Bytes} (h : r.enc = .ok bs)
    (hh : ∀ v ∈ r.strings, ∀ bs, v.enc = .ok bs → v.heapBytes = .ok bs.length) :
    r.heapBytes = if bs.length < 65536 then .ok bs.length else .panic := by
  unfold HistoryPlaylist.enc at h
  obtain ⟨b_name, e_name, h⟩ := Res.bind_eq_ok.1 h
  have z_name := hh r.name (by simp [HistoryPlaylist.strings]) _ e_name
  injection h with h
  subst h
  unfold HistoryPlaylist.heapBytes
  rw [z_name]
  refine (sumHeap_ok [4, b_name.length]).trans ?_
  generalize hs : ([4, b_name.length] : List Nat).sum = s
  generalize hl : List.length _ = l
  have : s = l := by
    subst hs hl
    simp only [encU8_length, encU16_length, encU32_length, ColorIndex.enc_length, FileType.enc_length,
      MenuVisibility.enc_length, List.length_append, List.sum_cons, List.sum_nil]
    try omega
  rw [this]

/-! ## `HistoryEntry` -/

theorem HistoryEntry.rt {r : HistoryEntry} (h : ∀ v ∈ r.strings, v.Storable) :
    ∃ bs, r.enc = .ok bs ∧ RT HistoryEntry.read bs r := by
  refine ⟨_, by simp only [HistoryEntry.enc]; rfl, ?_⟩
  unfold HistoryEntry.read
  exact RT.bind (RT.u32 _) (RT.bind (RT.u32 _) (RT.bind_pure (RT.u32 _)))

theorem HistoryEntry.inv {img : Bytes} {p q : Nat} {r : HistoryEntry} (h : HistoryEntry.read img p = .ok (r, q))
    (he : ∀ x ∈ r.stringsAt p, x.2.ExactAt img x.1) : ∃ bs, r.enc = .ok bs ∧ HasAt img p bs := by
  unfold HistoryEntry.read at h
  obtain ⟨trackId, q0, h0, h⟩ := bind_eq_ok.1 h
  obtain ⟨playlistId, q1, h1, h⟩ := bind_eq_ok.1 h
  obtain ⟨entryIndex, q2, h2, h⟩ := bind_eq_ok.1 h
  rw [pure_eq_ok] at h
  obtain ⟨rfl, rfl⟩ := h
  obtain ⟨_, t0, rfl, rfl⟩ := Inv.u32 _ _ _ _ h0
  obtain ⟨_, t1, rfl, rfl⟩ := Inv.u32 _ _ _ _ h1
  obtain ⟨_, t2, rfl, rfl⟩ := Inv.u32 _ _ _ _ h2
  refine ⟨_, by simp only [HistoryEntry.enc]; rfl, ?_⟩
  simp only [HasAt.append_iff]
  exact ⟨t0, t1, t2⟩

theorem HistoryEntry.heap {r : HistoryEntry} {bs : Bytes} (h : r.enc = .ok bs)
    (hh : ∀ v ∈ r.strings, ∀ bs, v.enc = .ok bs → v.heapBytes = .ok bs.length) :
    r.heapBytes = if bs.length < 65536 then .ok bs.length else .panic := by
  unfold HistoryEntry.enc at h
  injection h with h
  subst h
  unfold HistoryEntry.heapBytes
  refine (sumHeap_ok [4, 4, 4]).trans ?_
  generalize hs : ([4, 4, 4] : List Nat).sum = s
  generalize hl : List.length _ = l
  have : s = l := by
    subst hs hl
    simp only [encU8_length, encU16_length, encU32_length, ColorIndex.enc_length, FileType.enc_length,
      MenuVisibility.enc_length, List.length_append, List.sum_cons, List.sum_nil]
    try omega
  rw [this]

/-! ## `History` -/

theorem History.rt {r : History} (h : ∀ v ∈ r.strings, v.Storable) :
    ∃ bs, r.enc = .ok bs ∧ RT History.read bs r := by
  obtain ⟨b_date, e_date, w_date⟩ := DString.storable_rt (h r.date (by simp [History.strings]))
  obtain ⟨b_version, e_version, w_version⟩ := DString.storable_rt (h r.version (by simp [History.strings]))
  obtain ⟨b_label, e_label, w_label⟩ := DString.storable_rt (h r.label (by simp [History.strings]))
  refine ⟨_, by simp only [History.enc, e_date, e_version, e_label, Res.ok_bind]; rfl, ?_⟩
  unfold History.read
  exact RT.bind (RT.u16 _) (RT.bind (RT.u16 _) (RT.bind (RT.u32 _) (RT.bind (RT.magic _) (RT.bind (w_date) (RT.bind (RT.magic _) (RT.bind (w_version) (RT.bind_pure (w_label))))))))

theorem History.inv {img : Bytes} {p q : Nat} {r : History} (h : History.read img p = .ok (r, q))
    (he : ∀ x ∈ r.stringsAt p, x.2.ExactAt img x.1) : ∃ bs, r.enc = .ok bs ∧ HasAt img p bs := by
  unfold History.read at h
  obtain ⟨subtype, q0, h0, h⟩ := bind_eq_ok.1 h
  obtain ⟨indexShift, q1, h1, h⟩ := bind_eq_ok.1 h
  obtain ⟨numTracks, q2, h2, h⟩ := bind_eq_ok.1 h
  obtain ⟨_, q3, h3, h⟩ := bind_eq_ok.1 h
  obtain ⟨date, q4, h4, h⟩ := bind_eq_ok.1 h
  obtain ⟨_, q5, h5, h⟩ := bind_eq_ok.1 h
  obtain ⟨version, q6, h6, h⟩ := bind_eq_ok.1 h
  obtain ⟨label, q7, h7, h⟩ := bind_eq_ok.1 h
  rw [pure_eq_ok] at h
  obtain ⟨rfl, rfl⟩ := h
  obtain ⟨_, t0, rfl, rfl⟩ := Inv.u16 _ _ _ _ h0
  obtain ⟨_, t1, rfl, rfl⟩ := Inv.u16 _ _ _ _ h1
  obtain ⟨_, t2, rfl, rfl⟩ := Inv.u32 _ _ _ _ h2
  obtain ⟨_, t3, rfl, rfl⟩ := (Inv.magic _) _ _ _ _ h3
  have x4 := he (p + 12, date) (by simp [History.stringsAt])
  rw [show p + 12 = _ from (by simp only [encU8_length, encU16_length, encU32_length, ColorIndex.enc_length, FileType.enc_length,
      MenuVisibility.enc_length, List.length_append] <;> omega : _ = p + (encU16 subtype).length + (encU16 indexShift).length + (encU32 numTracks).length + (encU32 0).length)] at x4
  obtain ⟨b_date, e_date, t4, rfl, z_date⟩ := DString.read_exact h4 x4
  obtain ⟨_, t5, rfl, rfl⟩ := (Inv.magic _) _ _ _ _ h5
  have x6 := he (p + 14 + date.size, version) (by simp [History.stringsAt])
  rw [show p + 14 + date.size = _ from (by simp only [encU8_length, encU16_length, encU32_length, ColorIndex.enc_length, FileType.enc_length,
      MenuVisibility.enc_length, List.length_append, z_date] <;> omega : _ = p + (encU16 subtype).length + (encU16 indexShift).length + (encU32 numTracks).length + (encU32 0).length + b_date.length + (encU16 0x1E19).length)] at x6
  obtain ⟨b_version, e_version, t6, rfl, z_version⟩ := DString.read_exact h6 x6
  have x7 := he (p + 14 + date.size + version.size, label) (by simp [History.stringsAt])
  rw [show p + 14 + date.size + version.size = _ from (by simp only [encU8_length, encU16_length, encU32_length, ColorIndex.enc_length, FileType.enc_length,
      MenuVisibility.enc_length, List.length_append, z_date, z_version] <;> omega : _ = p + (encU16 subtype).length + (encU16 indexShift).length + (encU32 numTracks).length + (encU32 0).length + b_date.length + (encU16 0x1E19).length + b_version.length)] at x7
  obtain ⟨b_label, e_label, t7, rfl, z_label⟩ := DString.read_exact h7 x7
  refine ⟨_, by simp only [History.enc, e_date, e_version, e_label, Res.ok_bind]; rfl, ?_⟩
  simp only [HasAt.append_iff]
  exact ⟨t0, t1, t2, t3, t4, t5, t6, t7⟩

theorem History.heap {r : History} {bs : Bytes} (h : r.enc = .ok bs)
    (hh : ∀ v ∈ r.strings, ∀ bs, v.enc = .ok bs → v.heapBytes = .ok bs.length) :
    r.heapBytes = if bs.length < 65536 then .ok bs.length else .panic := by
  unfold History.enc at h
  obtain ⟨b_date, e_date, h⟩ := Res.bind_eq_ok.1 h
  have z_date := hh r.date (by simp [History.strings]) _ e_date
  obtain ⟨b_version, e_version, h⟩ := Res.bind_eq_ok.1 h
  have z_version := hh r.version (by simp [History.strings]) _ e_version
  obtain ⟨b_label, e_label, h⟩ := Res.bind_eq_ok.1 h
  have z_label := hh r.label (by simp [History.strings]) _ e_label
  injection h with h
  subst h
  unfold History.heapBytes
  rw [z_date, z_version, z_label]
  refine (sumHeap_ok [2, 2, 4, 4, b_date.length, 2, b_version.length, b_label.length]).trans ?_
  generalize hs : ([2, 2, 4, 4, b_date.length, 2, b_version.length, b_label.length] : List Nat).sum = s
  generalize hl : List.length _ = l
  have : s = l := by
    subst hs hl
    simp only [encU8_length, encU16_length, encU32_length, ColorIndex.enc_length, FileType.enc_length,
      MenuVisibility.enc_length, List.length_append, List.sum_cons, List.sum_nil]
    try omega
  rw [this]

/-! ## `Key` -/

theorem Key.rt {r : Key} (h : ∀ v ∈ r.strings, v.Storable) :
    ∃ bs, r.enc = .ok bs ∧ RT Key.read bs r := by
  obtain ⟨b_name, e_name, w_name⟩ := DString.storable_rt (h r.name (by simp [Key.strings]))
  refine ⟨_, by simp only [Key.enc, e_name, Res.ok_bind]; rfl, ?_⟩
  unfold Key.read
  exact RT.bind (RT.u32 _) (RT.bind (RT.u32 _) (RT.bind_pure (w_name)))

theorem Key.inv {img : Bytes} {p q : Nat} {r : Key} (h : Key.read img p = .ok (r, q))
    (he : ∀ x ∈ r.stringsAt p, x.2.ExactAt img x.1) : ∃ bs, r.enc = .ok bs ∧ HasAt img p bs := by
  unfold Key.read at h
  obtain ⟨id, q0, h0, h⟩ := bind_eq_ok.1 h
  obtain ⟨id2, q1, h1, h⟩ := bind_eq_ok.1 h
  obtain ⟨name, q2, h2, h⟩ := bind_eq_ok.1 h
  rw [pure_eq_ok] at h
  obtain ⟨rfl, rfl⟩ := h
  obtain ⟨_, t0, rfl, rfl⟩ := Inv.u32 _ _ _ _ h0
  obtain ⟨_, t1, rfl, rfl⟩ := Inv.u32 _ _ _ _ h1
  have x2 := he (p + 8, name) (by simp [Key.stringsAt])
  rw [show p + 8 = _ from (by simp only [encU8_length, encU16_length, encU32_length, ColorIndex.enc_length, FileType.enc_length,
      MenuVisibility.enc_length, List.length_append] <;> omega : _ = p + (encU32 id).length + (encU32 id2).length)] at x2
  obtain ⟨b_name, e_name, t2, rfl, z_name⟩ := DString.read_exact h2 x2
  refine ⟨_, by simp only [Key.enc, e_name, Res.ok_bind]; rfl, ?_⟩
  simp only [HasAt.append_iff]
  exact ⟨t0, t1, t2⟩

theorem Key.heap {r : Key} {bs : Bytes} (h : r.enc = .ok bs)
    (hh : ∀ v ∈ r.strings, ∀ bs, v.enc = .ok bs → v.heapBytes = .ok bs.length) :
    r.heapBytes = if bs.length < 65536 then .ok bs.length else .panic := by
  unfold Key.enc at h
  obtain ⟨b_name, e_name, h⟩ := Res.bind_eq_ok.1 h
  have z_name := hh r.name (by simp [Key.strings]) _ e_name
  injection h with h
  subst h
  unfold Key.heapBytes
  rw [z_name]
  refine (sumHeap_ok [4, 4, b_name.length]).trans ?_
  generalize hs : ([4, 4, b_name.length] : List Nat).sum = s
  generalize hl : List.length _ = l
  have : s = l := by
    subst hs hl
    simp only [encU8_length, encU16_length, encU32_length, ColorIndex.enc_length, FileType.enc_length,
      MenuVisibility.enc_length, List.length_append, List.sum_cons, List.sum_nil]
    try omega
  rw [this]

/-! ## `Label` -/

theorem Label.rt {r : Label} (h : ∀ v ∈ r.strings, v.Storable) :
    ∃ bs, r.enc = .ok bs ∧ RT Label.read bs r := by
  obtain ⟨b_name, e_name, w_name⟩ := DString.storable_rt (h r.name (by simp [Label.strings]))
  refine ⟨_, by simp only [Label.enc, e_name, Res.ok_bind]; rfl, ?_⟩
  unfold Label.read
  exact RT.bind (RT.u32 _) (RT.bind_pure (w_name))

theorem Label.inv {img : Bytes} {p q : Nat} {r : Label} (h : Label.read img p = .ok (r, q))
    (he : ∀ x ∈ r.stringsAt p, x.2.ExactAt img x.1) : ∃ bs, r.enc = .ok bs ∧ HasAt img p bs := by
  unfold Label.read at h
  obtain ⟨id, q0, h0, h⟩ := bind_eq_ok.1 h
  obtain ⟨name, q1, h1, h⟩ := bind_eq_ok.1 h
  rw [pure_eq_ok] at h
  obtain ⟨rfl, rfl⟩ := h
  obtain ⟨_, t0, rfl, rfl⟩ := Inv.u32 _ _ _ _ h0
  have x1 := he (p + 4, name) (by simp [Label.stringsAt])
  rw [show p + 4 = _ from (by simp only [encU8_length, encU16_length, encU32_length, ColorIndex.enc_length, FileType.enc_length,
      MenuVisibility.enc_length, List.length_append] <;> omega : _ = p + (encU32 id).length)] at x1
  obtain ⟨b_name, e_name, t1, rfl, z_name⟩ := DString.read_exact h1 x1
  refine ⟨_, by simp only [Label.enc, e_name, Res.ok_bind]; rfl, ?_⟩
  simp only [HasAt.append_iff]
  exact ⟨t0, t1⟩

theorem Label.heap {r : Label} {bs : Bytes} (h : r.enc = .ok bs)
    (hh : ∀ v ∈ r.strings, ∀ bs, v.enc = .ok bs → v.heapBytes = .ok bs.length) :
    r.heapBytes = if bs.length < 65536 then .ok bs.length else .panic := by
  unfold Label.enc at h
  obtain ⟨b_name, e_name, h⟩ := Res.bind_eq_ok.1 h
  have z_name := hh r.name (by simp [Label.strings]) _ e_name
  injection h with h
  subst h
  unfold Label.heapBytes
  rw [z_name]
  refine (sumHeap_ok [4, b_name.length]).trans ?_
  generalize hs : ([4, b_name.length] : List Nat).sum = s
  generalize hl : List.length _ = l
  have : s = l := by
    subst hs hl
    simp only [encU8_length, encU16_length, encU32_length, ColorIndex.enc_length, FileType.enc_length,
      MenuVisibility.enc_length, List.length_append, List.sum_cons, List.sum_nil]
    try omega
  rw [this]

/-! ## `PlaylistTreeNode` -/

theorem PlaylistTreeNode.rt {r : PlaylistTreeNode} (h : ∀ v ∈ r.strings, v.Storable) :
    ∃ bs, r.enc = .ok bs ∧ RT PlaylistTreeNode.read bs r := by
  obtain ⟨b_name, e_name, w_name⟩ := DString.storable_rt (h r.name (by simp [PlaylistTreeNode.strings]))
  refine ⟨_, by simp only [PlaylistTreeNode.enc, e_name, Res.ok_bind]; rfl, ?_⟩
  unfold PlaylistTreeNode.read
  exact RT.bind (RT.u32 _) (RT.bind (RT.u32 _) (RT.bind (RT.u32 _) (RT.bind (RT.u32 _) (RT.bind (RT.u32 _) (RT.bind_pure (w_name))))))

theorem PlaylistTreeNode.inv {img : Bytes} {p q : Nat} {r : PlaylistTreeNode} (h : PlaylistTreeNode.read img p = .ok (r, q))
    (he : ∀ x ∈ r.stringsAt p, x.2.ExactAt img x.1) : ∃ bs, r.enc = .ok bs ∧ HasAt img p bs := by
  unfold PlaylistTreeNode.read at h
  obtain ⟨parentId, q0, h0, h⟩ := bind_eq_ok.1 h
  obtain ⟨unknown, q1, h1, h⟩ := bind_eq_ok.1 h
  obtain ⟨sortOrder, q2, h2, h⟩ := bind_eq_ok.1 h
  obtain ⟨id, q3, h3, h⟩ := bind_eq_ok.1 h
  obtain ⟨nodeIsFolder, q4, h4, h⟩ := bind_eq_ok.1 h
  obtain ⟨name, q5, h5, h⟩ := bind_eq_ok.1 h
  rw [pure_eq_ok] at h
  obtain ⟨rfl, rfl⟩ := h
  obtain ⟨_, t0, rfl, rfl⟩ := Inv.u32 _ _ _ _ h0
  obtain ⟨_, t1, rfl, rfl⟩ := Inv.u32 _ _ _ _ h1
  obtain ⟨_, t2, rfl, rfl⟩ := Inv.u32 _ _ _ _ h2
  obtain ⟨_, t3, rfl, rfl⟩ := Inv.u32 _ _ _ _ h3
  obtain ⟨_, t4, rfl, rfl⟩ := Inv.u32 _ _ _ _ h4
  have x5 := he (p + 20, name) (by simp [PlaylistTreeNode.stringsAt])
  rw [show p + 20 = _ from (by simp only [encU8_length, encU16_length, encU32_length, ColorIndex.enc_length, FileType.enc_length,
      MenuVisibility.enc_length, List.length_append] <;> omega : _ = p + (encU32 parentId).length + (encU32 unknown).length + (encU32 sortOrder).length + (encU32 id).length + (encU32 nodeIsFolder).length)] at x5
  obtain ⟨b_name, e_name, t5, rfl, z_name⟩ := DString.read_exact h5 x5
  refine ⟨_, by simp only [PlaylistTreeNode.enc, e_name, Res.ok_bind]; rfl, ?_⟩
  simp only [HasAt.append_iff]
  exact ⟨t0, t1, t2, t3, t4, t5⟩

theorem PlaylistTreeNode.heap {r : PlaylistTreeNode} {bs : Bytes} (h : r.enc = .ok bs)
    (hh : ∀ v ∈ r.strings, ∀ bs, v.enc = .ok bs → v.heapBytes = .ok bs.length) :
    r.heapBytes = if bs.length < 65536 then .ok bs.length else .panic := by
  unfold PlaylistTreeNode.enc at h
  obtain ⟨b_name, e_name, h⟩ := Res.bind_eq_ok.1 h
  have z_name := hh r.name (by simp [PlaylistTreeNode.strings]) _ e_name
  injection h with h
  subst h
  unfold PlaylistTreeNode.heapBytes
  rw [z_name]
  refine (sumHeap_ok [4, 4, 4, 4, 4, b_name.length]).trans ?_
  generalize hs : ([4, 4, 4, 4, 4, b_name.length] : List Nat).sum = s
  generalize hl : List.length _ = l
  have : s = l := by
    subst hs hl
    simp only [encU8_length, encU16_length, encU32_length, ColorIndex.enc_length, FileType.enc_length,
      MenuVisibility.enc_length, List.length_append, List.sum_cons, List.sum_nil]
    try omega
  rw [this]

/-! ## `PlaylistEntry` -/

theorem PlaylistEntry.rt {r : PlaylistEntry} (h : ∀ v ∈ r.strings, v.Storable) :
    ∃ bs, r.enc = .ok bs ∧ RT PlaylistEntry.read bs r := by
  refine ⟨_, by simp only [PlaylistEntry.enc]; rfl, ?_⟩
  unfold PlaylistEntry.read
  exact RT.bind (RT.u32 _) (RT.bind (RT.u32 _) (RT.bind_pure (RT.u32 _)))

theorem PlaylistEntry.inv {img : Bytes} {p q : Nat} {r : PlaylistEntry} (h : PlaylistEntry.read img p = .ok (r, q))
    (he : ∀ x ∈ r.stringsAt p, x.2.ExactAt img x.1) : ∃ bs, r.enc = .ok bs ∧ HasAt img p bs := by
  unfold PlaylistEntry.read at h
  obtain ⟨entryIndex, q0, h0, h⟩ := bind_eq_ok.1 h
  obtain ⟨trackId, q1, h1, h⟩ := bind_eq_ok.1 h
  obtain ⟨playlistId, q2, h2, h⟩ := bind_eq_ok.1 h
  rw [pure_eq_ok] at h
  obtain ⟨rfl, rfl⟩ := h
  obtain ⟨_, t0, rfl, rfl⟩ := Inv.u32 _ _ _ _ h0
  obtain ⟨_, t1, rfl, rfl⟩ := Inv.u32 _ _ _ _ h1
  obtain ⟨_, t2, rfl, rfl⟩ := Inv.u32 _ _ _ _ h2
  refine ⟨_, by simp only [PlaylistEntry.enc]; rfl, ?_⟩
  simp only [HasAt.append_iff]
  exact ⟨t0, t1, t2⟩

theorem PlaylistEntry.heap {r : PlaylistEntry} {bs : Bytes} (h : r.enc = .ok bs)
    (hh : ∀ v ∈ r.strings, ∀ bs, v.enc = .ok bs → v.heapBytes = .ok bs.length) :
    r.heapBytes = if bs.length < 65536 then .ok bs.length else .panic := by
  unfold PlaylistEntry.enc at h
  injection h with h
  subst h
  unfold PlaylistEntry.heapBytes
  refine (sumHeap_ok [4, 4, 4]).trans ?_
  generalize hs : ([4, 4, 4] : List Nat).sum = s
  generalize hl : List.length _ = l
  have : s = l := by
    subst hs hl
    simp only [encU8_length, encU16_length, encU32_length, ColorIndex.enc_length, FileType.enc_length,
      MenuVisibility.enc_length, List.length_append, List.sum_cons, List.sum_nil]
    try omega
  rw [this]

/-! ## `ColumnEntry` -/

theorem ColumnEntry.rt {r : ColumnEntry} (h : ∀ v ∈ r.strings, v.Storable) :
    ∃ bs, r.enc = .ok bs ∧ RT ColumnEntry.read bs r := by
  obtain ⟨b_columnName, e_columnName, w_columnName⟩ := DString.storable_rt (h r.columnName (by simp [ColumnEntry.strings]))
  refine ⟨_, by simp only [ColumnEntry.enc, e_columnName, Res.ok_bind]; rfl, ?_⟩
  unfold ColumnEntry.read
  exact RT.bind (RT.u16 _) (RT.bind (RT.u16 _) (RT.bind_pure (w_columnName)))

theorem ColumnEntry.inv {img : Bytes} {p q : Nat} {r : ColumnEntry} (h : ColumnEntry.read img p = .ok (r, q))
    (he : ∀ x ∈ r.stringsAt p, x.2.ExactAt img x.1) : ∃ bs, r.enc = .ok bs ∧ HasAt img p bs := by
  unfold ColumnEntry.read at h
  obtain ⟨id, q0, h0, h⟩ := bind_eq_ok.1 h
  obtain ⟨unknown0, q1, h1, h⟩ := bind_eq_ok.1 h
  obtain ⟨columnName, q2, h2, h⟩ := bind_eq_ok.1 h
  rw [pure_eq_ok] at h
  obtain ⟨rfl, rfl⟩ := h
  obtain ⟨_, t0, rfl, rfl⟩ := Inv.u16 _ _ _ _ h0
  obtain ⟨_, t1, rfl, rfl⟩ := Inv.u16 _ _ _ _ h1
  have x2 := he (p + 4, columnName) (by simp [ColumnEntry.stringsAt])
  rw [show p + 4 = _ from (by simp only [encU8_length, encU16_length, encU32_length, ColorIndex.enc_length, FileType.enc_length,
      MenuVisibility.enc_length, List.length_append] <;> omega : _ = p + (encU16 id).length + (encU16 unknown0).length)] at x2
  obtain ⟨b_columnName, e_columnName, t2, rfl, z_columnName⟩ := DString.read_exact h2 x2
  refine ⟨_, by simp only [ColumnEntry.enc, e_columnName, Res.ok_bind]; rfl, ?_⟩
  simp only [HasAt.append_iff]
  exact ⟨t0, t1, t2⟩

theorem ColumnEntry.heap {r : ColumnEntry} {bs : Bytes} (h : r.enc = .ok bs)
    (hh : ∀ v ∈ r.strings, ∀ bs, v.enc = .ok bs → v.heapBytes = .ok bs.length) :
    r.heapBytes = if bs.length < 65536 then .ok bs.length else .panic := by
  unfold ColumnEntry.enc at h
  obtain ⟨b_columnName, e_columnName, h⟩ := Res.bind_eq_ok.1 h
  have z_columnName := hh r.columnName (by simp [ColumnEntry.strings]) _ e_columnName
  injection h with h
  subst h
  unfold ColumnEntry.heapBytes
  rw [z_columnName]
  refine (sumHeap_ok [2, 2, b_columnName.length]).trans ?_
  generalize hs : ([2, 2, b_columnName.length] : List Nat).sum = s
  generalize hl : List.length _ = l
  have : s = l := by
    subst hs hl
    simp only [encU8_length, encU16_length, encU32_length, ColorIndex.enc_length, FileType.enc_length,
      MenuVisibility.enc_length, List.length_append, List.sum_cons, List.sum_nil]
    try omega
  rw [this]

/-! ## `Menu` -/

theorem Menu.rt {r : Menu} (h : ∀ v ∈ r.strings, v.Storable) (hc : r.visibility.Canonical) :
    ∃ bs, r.enc = .ok bs ∧ RT Menu.read bs r := by
  refine ⟨_, by simp only [Menu.enc]; rfl, ?_⟩
  unfold Menu.read
  exact RT.bind (RT.u16 _) (RT.bind (RT.u16 _) (RT.bind (RT.u8 _) (RT.bind (MenuVisibility.rt hc) (RT.bind_pure (RT.u16 _)))))

theorem Menu.inv {img : Bytes} {p q : Nat} {r : Menu} (h : Menu.read img p = .ok (r, q))
    (he : ∀ x ∈ r.stringsAt p, x.2.ExactAt img x.1) : ∃ bs, r.enc = .ok bs ∧ HasAt img p bs := by
  unfold Menu.read at h
  obtain ⟨categoryId, q0, h0, h⟩ := bind_eq_ok.1 h
  obtain ⟨contentPointer, q1, h1, h⟩ := bind_eq_ok.1 h
  obtain ⟨unknown, q2, h2, h⟩ := bind_eq_ok.1 h
  obtain ⟨visibility, q3, h3, h⟩ := bind_eq_ok.1 h
  obtain ⟨sortOrder, q4, h4, h⟩ := bind_eq_ok.1 h
  rw [pure_eq_ok] at h
  obtain ⟨rfl, rfl⟩ := h
  obtain ⟨_, t0, rfl, rfl⟩ := Inv.u16 _ _ _ _ h0
  obtain ⟨_, t1, rfl, rfl⟩ := Inv.u16 _ _ _ _ h1
  obtain ⟨_, t2, rfl, rfl⟩ := Inv.u8 _ _ _ _ h2
  obtain ⟨_, t3, rfl, rfl⟩ := MenuVisibility.inv _ _ _ _ h3
  obtain ⟨_, t4, rfl, rfl⟩ := Inv.u16 _ _ _ _ h4
  refine ⟨_, by simp only [Menu.enc]; rfl, ?_⟩
  simp only [HasAt.append_iff]
  exact ⟨t0, t1, t2, t3, t4⟩

theorem Menu.heap {r : Menu} {bs : Bytes} (h : r.enc = .ok bs)
    (hh : ∀ v ∈ r.strings, ∀ bs, v.enc = .ok bs → v.heapBytes = .ok bs.length) :
    r.heapBytes = if bs.length < 65536 then .ok bs.length else .panic := by
  unfold Menu.enc at h
  injection h with h
  subst h
  unfold Menu.heapBytes
  refine (sumHeap_ok [2, 2, 1, 1, 2]).trans ?_
  generalize hs : ([2, 2, 1, 1, 2] : List Nat).sum = s
  generalize hl : List.length _ = l
  have : s = l := by
    subst hs hl
    simp only [encU8_length, encU16_length, encU32_length, ColorIndex.enc_length, FileType.enc_length,
      MenuVisibility.enc_length, List.length_append, List.sum_cons, List.sum_nil]
    try omega
  rw [this]

/-! ## `Track` -/

theorem Track.head_length (r : Track) : r.head.length = 92 := by
  simp only [Track.head, encU8_length, encU16_length, encU32_length, ColorIndex.enc_length, FileType.enc_length,
      MenuVisibility.enc_length, List.length_append]

theorem Track.pre (r : Track) (hc : r.fileType.Canonical) : Pre Track.read r.head
    (do let c ← OffsetContainer.read 92 (offsetSizeOf r.subtype); pure { r with offsets := c }) := by
  unfold Track.read Track.head
  exact Pre.bind (RT.u16 _) (Pre.bind (RT.u16 _) (Pre.bind (RT.u32 _) (Pre.bind (RT.u32 _) (Pre.bind (RT.u32 _) (Pre.bind (RT.u32 _) (Pre.bind (RT.u32 _) (Pre.bind (RT.u16 _) (Pre.bind (RT.u16 _) (Pre.bind (RT.u32 _) (Pre.bind (RT.u32 _) (Pre.bind (RT.u32 _) (Pre.bind (RT.u32 _) (Pre.bind (RT.u32 _) (Pre.bind (RT.u32 _) (Pre.bind (RT.u32 _) (Pre.bind (RT.u32 _) (Pre.bind (RT.u32 _) (Pre.bind (RT.u32 _) (Pre.bind (RT.u32 _) (Pre.bind (RT.u32 _) (Pre.bind (RT.u16 _) (Pre.bind (RT.u16 _) (Pre.bind (RT.u16 _) (Pre.bind (RT.u16 _) (Pre.bind (RT.u16 _) (Pre.bind (RT.u16 _) (Pre.bind (ColorIndex.rt _) (Pre.bind (RT.u8 _) (Pre.last (FileType.rt' hc))))))))))))))))))))))))))))))

theorem Track.head_inv {img : Bytes} {p q : Nat} {r : Track} (h : Track.read img p = .ok (r, q)) :
    HasAt img p r.head ∧ (OffsetContainer.read 92 (offsetSizeOf r.subtype) : Rd (OffsetContainer TrackStrings)) img (p + 92) =
      .ok (r.offsets, q) := by
  unfold Track.read at h
  obtain ⟨subtype, q0, h0, h⟩ := bind_eq_ok.1 h
  obtain ⟨indexShift, q1, h1, h⟩ := bind_eq_ok.1 h
  obtain ⟨bitmask, q2, h2, h⟩ := bind_eq_ok.1 h
  obtain ⟨sampleRate, q3, h3, h⟩ := bind_eq_ok.1 h
  obtain ⟨composerId, q4, h4, h⟩ := bind_eq_ok.1 h
  obtain ⟨fileSize, q5, h5, h⟩ := bind_eq_ok.1 h
  obtain ⟨unknown2, q6, h6, h⟩ := bind_eq_ok.1 h
  obtain ⟨unknown3, q7, h7, h⟩ := bind_eq_ok.1 h
  obtain ⟨unknown4, q8, h8, h⟩ := bind_eq_ok.1 h
  obtain ⟨artworkId, q9, h9, h⟩ := bind_eq_ok.1 h
  obtain ⟨keyId, q10, h10, h⟩ := bind_eq_ok.1 h
  obtain ⟨origArtistId, q11, h11, h⟩ := bind_eq_ok.1 h
  obtain ⟨labelId, q12, h12, h⟩ := bind_eq_ok.1 h
  obtain ⟨remixerId, q13, h13, h⟩ := bind_eq_ok.1 h
  obtain ⟨bitrate, q14, h14, h⟩ := bind_eq_ok.1 h
  obtain ⟨trackNumber, q15, h15, h⟩ := bind_eq_ok.1 h
  obtain ⟨tempo, q16, h16, h⟩ := bind_eq_ok.1 h
  obtain ⟨genreId, q17, h17, h⟩ := bind_eq_ok.1 h
  obtain ⟨albumId, q18, h18, h⟩ := bind_eq_ok.1 h
  obtain ⟨artistId, q19, h19, h⟩ := bind_eq_ok.1 h
  obtain ⟨id, q20, h20, h⟩ := bind_eq_ok.1 h
  obtain ⟨discNumber, q21, h21, h⟩ := bind_eq_ok.1 h
  obtain ⟨playCount, q22, h22, h⟩ := bind_eq_ok.1 h
  obtain ⟨year, q23, h23, h⟩ := bind_eq_ok.1 h
  obtain ⟨sampleDepth, q24, h24, h⟩ := bind_eq_ok.1 h
  obtain ⟨duration, q25, h25, h⟩ := bind_eq_ok.1 h
  obtain ⟨unknown5, q26, h26, h⟩ := bind_eq_ok.1 h
  obtain ⟨color, q27, h27, h⟩ := bind_eq_ok.1 h
  obtain ⟨rating, q28, h28, h⟩ := bind_eq_ok.1 h
  obtain ⟨fileType, q29, h29, h⟩ := bind_eq_ok.1 h
  obtain ⟨c, qc, hcont, h⟩ := bind_eq_ok.1 h
  rw [pure_eq_ok] at h
  obtain ⟨rfl, rfl⟩ := h
  obtain ⟨_, t0, rfl, rfl⟩ := Inv.u16 _ _ _ _ h0
  obtain ⟨_, t1, rfl, rfl⟩ := Inv.u16 _ _ _ _ h1
  obtain ⟨_, t2, rfl, rfl⟩ := Inv.u32 _ _ _ _ h2
  obtain ⟨_, t3, rfl, rfl⟩ := Inv.u32 _ _ _ _ h3
  obtain ⟨_, t4, rfl, rfl⟩ := Inv.u32 _ _ _ _ h4
  obtain ⟨_, t5, rfl, rfl⟩ := Inv.u32 _ _ _ _ h5
  obtain ⟨_, t6, rfl, rfl⟩ := Inv.u32 _ _ _ _ h6
  obtain ⟨_, t7, rfl, rfl⟩ := Inv.u16 _ _ _ _ h7
  obtain ⟨_, t8, rfl, rfl⟩ := Inv.u16 _ _ _ _ h8
  obtain ⟨_, t9, rfl, rfl⟩ := Inv.u32 _ _ _ _ h9
  obtain ⟨_, t10, rfl, rfl⟩ := Inv.u32 _ _ _ _ h10
  obtain ⟨_, t11, rfl, rfl⟩ := Inv.u32 _ _ _ _ h11
  obtain ⟨_, t12, rfl, rfl⟩ := Inv.u32 _ _ _ _ h12
  obtain ⟨_, t13, rfl, rfl⟩ := Inv.u32 _ _ _ _ h13
  obtain ⟨_, t14, rfl, rfl⟩ := Inv.u32 _ _ _ _ h14
  obtain ⟨_, t15, rfl, rfl⟩ := Inv.u32 _ _ _ _ h15
  obtain ⟨_, t16, rfl, rfl⟩ := Inv.u32 _ _ _ _ h16
  obtain ⟨_, t17, rfl, rfl⟩ := Inv.u32 _ _ _ _ h17
  obtain ⟨_, t18, rfl, rfl⟩ := Inv.u32 _ _ _ _ h18
  obtain ⟨_, t19, rfl, rfl⟩ := Inv.u32 _ _ _ _ h19
  obtain ⟨_, t20, rfl, rfl⟩ := Inv.u32 _ _ _ _ h20
  obtain ⟨_, t21, rfl, rfl⟩ := Inv.u16 _ _ _ _ h21
  obtain ⟨_, t22, rfl, rfl⟩ := Inv.u16 _ _ _ _ h22
  obtain ⟨_, t23, rfl, rfl⟩ := Inv.u16 _ _ _ _ h23
  obtain ⟨_, t24, rfl, rfl⟩ := Inv.u16 _ _ _ _ h24
  obtain ⟨_, t25, rfl, rfl⟩ := Inv.u16 _ _ _ _ h25
  obtain ⟨_, t26, rfl, rfl⟩ := Inv.u16 _ _ _ _ h26
  obtain ⟨_, t27, rfl, rfl⟩ := ColorIndex.inv _ _ _ _ h27
  obtain ⟨_, t28, rfl, rfl⟩ := Inv.u8 _ _ _ _ h28
  obtain ⟨_, t29, rfl, rfl⟩ := FileType.inv _ _ _ _ h29
  refine ⟨?_, hcont⟩
  simp only [Track.head, HasAt.append_iff]
  exact ⟨t0, t1, t2, t3, t4, t5, t6, t7, t8, t9, t10, t11, t12, t13, t14, t15, t16, t17, t18, t19, t20, t21, t22, t23, t24, t25, t26, t27, t28, t29⟩

theorem Track.heap {r : Track} (hc : r.offsets.offsets = none)
    (hh : ∀ v ∈ r.strings, ∀ bs, v.enc = .ok bs → v.heapBytes = .ok bs.length) {p p' : Nat} {ps : List Patch}
    (h : r.write p = .ok ((), p', ps)) :
    ∃ n, r.heapBytes = (if n < 65536 then .ok n else .panic) ∧ PatchesDisjoint ps ∧
      PatchesWithin ps p (p + n) ∧ ∃ x ∈ ps, x.off + x.bytes.length = p + n := by
  obtain ⟨n, h1, h2⟩ := crow_heap r.head_length (by decide) (by decide) hc hh h
  refine ⟨92 + n, ?_, h2⟩
  unfold Track.heapBytes
  rw [h1]
  exact sumHeap_snoc [2, 2, 4, 4, 4, 4, 4, 2, 2, 4, 4, 4, 4, 4, 4, 4, 4, 4, 4, 4, 4, 2, 2, 2, 2, 2, 2, 1, 1, 2] n

/-! ## `TagOrCategory` -/

theorem TagOrCategory.head_length (r : TagOrCategory) : r.head.length = 28 := by
  simp only [TagOrCategory.head, encU8_length, encU16_length, encU32_length, ColorIndex.enc_length, FileType.enc_length,
      MenuVisibility.enc_length, List.length_append]

theorem TagOrCategory.pre (r : TagOrCategory) : Pre TagOrCategory.read r.head
    (do let c ← OffsetContainer.read 28 (offsetSizeOf r.subtype); pure { r with offsets := c }) := by
  unfold TagOrCategory.read TagOrCategory.head
  exact Pre.bind (RT.u16 _) (Pre.bind (RT.u16 _) (Pre.bind (RT.u32 _) (Pre.bind (RT.u32 _) (Pre.bind (RT.u32 _) (Pre.bind (RT.u32 _) (Pre.bind (RT.u32 _) (Pre.last (RT.u32 _))))))))

theorem TagOrCategory.head_inv {img : Bytes} {p q : Nat} {r : TagOrCategory} (h : TagOrCategory.read img p = .ok (r, q)) :
    HasAt img p r.head ∧ (OffsetContainer.read 28 (offsetSizeOf r.subtype) : Rd (OffsetContainer TagOrCategoryStrings)) img (p + 28) =
      .ok (r.offsets, q) := by
  unfold TagOrCategory.read at h
  obtain ⟨subtype, q0, h0, h⟩ := bind_eq_ok.1 h
  obtain ⟨indexShift, q1, h1, h⟩ := bind_eq_ok.1 h
  obtain ⟨unknown1, q2, h2, h⟩ := bind_eq_ok.1 h
  obtain ⟨unknown2, q3, h3, h⟩ := bind_eq_ok.1 h
  obtain ⟨parentId, q4, h4, h⟩ := bind_eq_ok.1 h
  obtain ⟨position, q5, h5, h⟩ := bind_eq_ok.1 h
  obtain ⟨id, q6, h6, h⟩ := bind_eq_ok.1 h
  obtain ⟨rawIsCategory, q7, h7, h⟩ := bind_eq_ok.1 h
  obtain ⟨c, qc, hcont, h⟩ := bind_eq_ok.1 h
  rw [pure_eq_ok] at h
  obtain ⟨rfl, rfl⟩ := h
  obtain ⟨_, t0, rfl, rfl⟩ := Inv.u16 _ _ _ _ h0
  obtain ⟨_, t1, rfl, rfl⟩ := Inv.u16 _ _ _ _ h1
  obtain ⟨_, t2, rfl, rfl⟩ := Inv.u32 _ _ _ _ h2
  obtain ⟨_, t3, rfl, rfl⟩ := Inv.u32 _ _ _ _ h3
  obtain ⟨_, t4, rfl, rfl⟩ := Inv.u32 _ _ _ _ h4
  obtain ⟨_, t5, rfl, rfl⟩ := Inv.u32 _ _ _ _ h5
  obtain ⟨_, t6, rfl, rfl⟩ := Inv.u32 _ _ _ _ h6
  obtain ⟨_, t7, rfl, rfl⟩ := Inv.u32 _ _ _ _ h7
  refine ⟨?_, hcont⟩
  simp only [TagOrCategory.head, HasAt.append_iff]
  exact ⟨t0, t1, t2, t3, t4, t5, t6, t7⟩

theorem TagOrCategory.heap {r : TagOrCategory} (hc : r.offsets.offsets = none)
    (hh : ∀ v ∈ r.strings, ∀ bs, v.enc = .ok bs → v.heapBytes = .ok bs.length) {p p' : Nat} {ps : List Patch}
    (h : r.write p = .ok ((), p', ps)) :
    ∃ n, r.heapBytes = (if n < 65536 then .ok n else .panic) ∧ PatchesDisjoint ps ∧
      PatchesWithin ps p (p + n) ∧ ∃ x ∈ ps, x.off + x.bytes.length = p + n := by
  obtain ⟨n, h1, h2⟩ := crow_heap r.head_length (by decide) (by decide) hc hh h
  refine ⟨28 + n, ?_, h2⟩
  unfold TagOrCategory.heapBytes
  rw [h1]
  exact sumHeap_snoc [2, 2, 4, 4, 4, 4, 4, 4] n

/-! ## `TrackTag` -/

theorem TrackTag.rt {r : TrackTag} (h : ∀ v ∈ r.strings, v.Storable) :
    ∃ bs, r.enc = .ok bs ∧ RT TrackTag.read bs r := by
  refine ⟨_, by simp only [TrackTag.enc]; rfl, ?_⟩
  unfold TrackTag.read
  exact RT.bind (RT.magic _) (RT.bind (RT.u32 _) (RT.bind (RT.u32 _) (RT.bind_pure (RT.u32 _))))

theorem TrackTag.inv {img : Bytes} {p q : Nat} {r : TrackTag} (h : TrackTag.read img p = .ok (r, q))
    (he : ∀ x ∈ r.stringsAt p, x.2.ExactAt img x.1) : ∃ bs, r.enc = .ok bs ∧ HasAt img p bs := by
  unfold TrackTag.read at h
  obtain ⟨_, q0, h0, h⟩ := bind_eq_ok.1 h
  obtain ⟨trackId, q1, h1, h⟩ := bind_eq_ok.1 h
  obtain ⟨tagId, q2, h2, h⟩ := bind_eq_ok.1 h
  obtain ⟨unknownConst, q3, h3, h⟩ := bind_eq_ok.1 h
  rw [pure_eq_ok] at h
  obtain ⟨rfl, rfl⟩ := h
  obtain ⟨_, t0, rfl, rfl⟩ := (Inv.magic _) _ _ _ _ h0
  obtain ⟨_, t1, rfl, rfl⟩ := Inv.u32 _ _ _ _ h1
  obtain ⟨_, t2, rfl, rfl⟩ := Inv.u32 _ _ _ _ h2
  obtain ⟨_, t3, rfl, rfl⟩ := Inv.u32 _ _ _ _ h3
  refine ⟨_, by simp only [TrackTag.enc]; rfl, ?_⟩
  simp only [HasAt.append_iff]
  exact ⟨t0, t1, t2, t3⟩

theorem TrackTag.heap {r : TrackTag} {bs : Bytes} (h : r.enc = .ok bs)
    (hh : ∀ v ∈ r.strings, ∀ bs, v.enc = .ok bs → v.heapBytes = .ok bs.length) :
    r.heapBytes = if bs.length < 65536 then .ok bs.length else .panic := by
  unfold TrackTag.enc at h
  injection h with h
  subst h
  unfold TrackTag.heapBytes
  refine (sumHeap_ok [4, 4, 4, 4]).trans ?_
  generalize hs : ([4, 4, 4, 4] : List Nat).sum = s
  generalize hl : List.length _ = l
  have : s = l := by
    subst hs hl
    simp only [encU8_length, encU16_length, encU32_length, ColorIndex.enc_length, FileType.enc_length,
      MenuVisibility.enc_length, List.length_append, List.sum_cons, List.sum_nil]
    try omega
  rw [this]

/-! ## All rows -/

/-- Reading back a written row. -/
theorem Row.write_then_read {r : Row} {t : PageType} (hs : r.Storable) (hf : r.Fits t) {p p' : Nat}
    {ps : List Patch} (h : r.write p = .ok ((), p', ps)) :
    ∃ r', r.Resolved r' ∧ ∀ img, Contains img ps → ∃ q, Row.read t img p = .ok (r', q) := by
  obtain ⟨hst, hcan, hwt⟩ := hs
  cases r with
  | unknown =>
    obtain ⟨c, rfl⟩ := hf
    exact ⟨_, rfl, fun img _ => ⟨p, rfl⟩⟩
  | plain r =>
    simp only [Row.Fits] at hf
    subst hf
    cases r with
    | album r =>
      obtain ⟨c', hr, hread⟩ := crow_rt (r.pre) r.head_length hwt hst h
      rw [offsetSizeOf_eq] at hr
      refine ⟨_, ⟨_, ⟨c', hr, rfl⟩, rfl⟩, fun img hi => ⟨p, ?_⟩⟩
      exact bind_of_ok (bind_of_ok (hread img hi))
    | artist r =>
      obtain ⟨c', hr, hread⟩ := crow_rt (r.pre) r.head_length hwt hst h
      rw [offsetSizeOf_eq] at hr
      refine ⟨_, ⟨_, ⟨c', hr, rfl⟩, rfl⟩, fun img hi => ⟨p, ?_⟩⟩
      exact bind_of_ok (bind_of_ok (hread img hi))
    | artwork r =>
      obtain ⟨bs, he, hrt⟩ := Artwork.rt hst
      have h : Wr.emitRes r.enc p = _ := h
      obtain ⟨bs', he', rfl, rfl⟩ := Wr.emitRes_eq_ok h
      rw [he] at he'
      injection he' with he'
      subst he'
      refine ⟨_, rfl, fun img hi => ⟨p + bs.length, ?_⟩⟩
      exact bind_of_ok (bind_of_ok (hrt img p (Contains.cons_iff.1 hi).1))
    | color r =>
      obtain ⟨bs, he, hrt⟩ := Color.rt hst
      have h : Wr.emitRes r.enc p = _ := h
      obtain ⟨bs', he', rfl, rfl⟩ := Wr.emitRes_eq_ok h
      rw [he] at he'
      injection he' with he'
      subst he'
      refine ⟨_, rfl, fun img hi => ⟨p + bs.length, ?_⟩⟩
      exact bind_of_ok (bind_of_ok (hrt img p (Contains.cons_iff.1 hi).1))
    | genre r =>
      obtain ⟨bs, he, hrt⟩ := Genre.rt hst
      have h : Wr.emitRes r.enc p = _ := h
      obtain ⟨bs', he', rfl, rfl⟩ := Wr.emitRes_eq_ok h
      rw [he] at he'
      injection he' with he'
      subst he'
      refine ⟨_, rfl, fun img hi => ⟨p + bs.length, ?_⟩⟩
      exact bind_of_ok (bind_of_ok (hrt img p (Contains.cons_iff.1 hi).1))
    | historyPlaylist r =>
      obtain ⟨bs, he, hrt⟩ := HistoryPlaylist.rt hst
      have h : Wr.emitRes r.enc p = _ := h
      obtain ⟨bs', he', rfl, rfl⟩ := Wr.emitRes_eq_ok h
      rw [he] at he'
      injection he' with he'
      subst he'
      refine ⟨_, rfl, fun img hi => ⟨p + bs.length, ?_⟩⟩
      exact bind_of_ok (bind_of_ok (hrt img p (Contains.cons_iff.1 hi).1))
    | historyEntry r =>
      obtain ⟨bs, he, hrt⟩ := HistoryEntry.rt hst
      have h : Wr.emitRes r.enc p = _ := h
      obtain ⟨bs', he', rfl, rfl⟩ := Wr.emitRes_eq_ok h
      rw [he] at he'
      injection he' with he'
      subst he'
      refine ⟨_, rfl, fun img hi => ⟨p + bs.length, ?_⟩⟩
      exact bind_of_ok (bind_of_ok (hrt img p (Contains.cons_iff.1 hi).1))
    | history r =>
      obtain ⟨bs, he, hrt⟩ := History.rt hst
      have h : Wr.emitRes r.enc p = _ := h
      obtain ⟨bs', he', rfl, rfl⟩ := Wr.emitRes_eq_ok h
      rw [he] at he'
      injection he' with he'
      subst he'
      refine ⟨_, rfl, fun img hi => ⟨p + bs.length, ?_⟩⟩
      exact bind_of_ok (bind_of_ok (hrt img p (Contains.cons_iff.1 hi).1))
    | key r =>
      obtain ⟨bs, he, hrt⟩ := Key.rt hst
      have h : Wr.emitRes r.enc p = _ := h
      obtain ⟨bs', he', rfl, rfl⟩ := Wr.emitRes_eq_ok h
      rw [he] at he'
      injection he' with he'
      subst he'
      refine ⟨_, rfl, fun img hi => ⟨p + bs.length, ?_⟩⟩
      exact bind_of_ok (bind_of_ok (hrt img p (Contains.cons_iff.1 hi).1))
    | label r =>
      obtain ⟨bs, he, hrt⟩ := Label.rt hst
      have h : Wr.emitRes r.enc p = _ := h
      obtain ⟨bs', he', rfl, rfl⟩ := Wr.emitRes_eq_ok h
      rw [he] at he'
      injection he' with he'
      subst he'
      refine ⟨_, rfl, fun img hi => ⟨p + bs.length, ?_⟩⟩
      exact bind_of_ok (bind_of_ok (hrt img p (Contains.cons_iff.1 hi).1))
    | playlistTreeNode r =>
      obtain ⟨bs, he, hrt⟩ := PlaylistTreeNode.rt hst
      have h : Wr.emitRes r.enc p = _ := h
      obtain ⟨bs', he', rfl, rfl⟩ := Wr.emitRes_eq_ok h
      rw [he] at he'
      injection he' with he'
      subst he'
      refine ⟨_, rfl, fun img hi => ⟨p + bs.length, ?_⟩⟩
      exact bind_of_ok (bind_of_ok (hrt img p (Contains.cons_iff.1 hi).1))
    | playlistEntry r =>
      obtain ⟨bs, he, hrt⟩ := PlaylistEntry.rt hst
      have h : Wr.emitRes r.enc p = _ := h
      obtain ⟨bs', he', rfl, rfl⟩ := Wr.emitRes_eq_ok h
      rw [he] at he'
      injection he' with he'
      subst he'
      refine ⟨_, rfl, fun img hi => ⟨p + bs.length, ?_⟩⟩
      exact bind_of_ok (bind_of_ok (hrt img p (Contains.cons_iff.1 hi).1))
    | columnEntry r =>
      obtain ⟨bs, he, hrt⟩ := ColumnEntry.rt hst
      have h : Wr.emitRes r.enc p = _ := h
      obtain ⟨bs', he', rfl, rfl⟩ := Wr.emitRes_eq_ok h
      rw [he] at he'
      injection he' with he'
      subst he'
      refine ⟨_, rfl, fun img hi => ⟨p + bs.length, ?_⟩⟩
      exact bind_of_ok (bind_of_ok (hrt img p (Contains.cons_iff.1 hi).1))
    | menu r =>
      obtain ⟨bs, he, hrt⟩ := Menu.rt hst hcan
      have h : Wr.emitRes r.enc p = _ := h
      obtain ⟨bs', he', rfl, rfl⟩ := Wr.emitRes_eq_ok h
      rw [he] at he'
      injection he' with he'
      subst he'
      refine ⟨_, rfl, fun img hi => ⟨p + bs.length, ?_⟩⟩
      exact bind_of_ok (bind_of_ok (hrt img p (Contains.cons_iff.1 hi).1))
    | track r =>
      obtain ⟨c', hr, hread⟩ := crow_rt (r.pre hcan) r.head_length hwt hst h
      rw [offsetSizeOf_eq] at hr
      refine ⟨_, ⟨_, ⟨c', hr, rfl⟩, rfl⟩, fun img hi => ⟨p, ?_⟩⟩
      exact bind_of_ok (bind_of_ok (hread img hi))
  | ext r =>
    cases r with
    | tag r =>
      simp only [Row.Fits] at hf
      subst hf
      obtain ⟨c', hr, hread⟩ := crow_rt (r.pre) r.head_length hwt hst h
      rw [offsetSizeOf_eq] at hr
      refine ⟨_, ⟨_, ⟨c', hr, rfl⟩, rfl⟩, fun img hi => ⟨p, ?_⟩⟩
      exact bind_of_ok (bind_of_ok (hread img hi))
    | trackTag r =>
      simp only [Row.Fits] at hf
      subst hf
      obtain ⟨bs, he, hrt⟩ := TrackTag.rt hst
      have h : Wr.emitRes r.enc p = _ := h
      obtain ⟨bs', he', rfl, rfl⟩ := Wr.emitRes_eq_ok h
      rw [he] at he'
      injection he' with he'
      subst he'
      refine ⟨_, rfl, fun img hi => ⟨p + bs.length, ?_⟩⟩
      exact bind_of_ok (bind_of_ok (hrt img p (Contains.cons_iff.1 hi).1))

/-- Writing back a row that was read. -/
theorem Row.read_then_write {r : Row} {t : PageType} {img : Bytes} {p q : Nat}
    (h : Row.read t img p = .ok (r, q)) (he : ∀ x ∈ r.stringsAt p, x.2.ExactAt img x.1) :
    r.Fits t ∧ ∃ p' ps, r.write p = .ok ((), p', ps) ∧ Contains img ps := by
  cases t with
  | unknown c =>
    have h : (Pure.pure Row.unknown : Rd Row) img p = _ := h
    rw [pure_eq_ok] at h
    obtain ⟨rfl, rfl⟩ := h
    exact ⟨⟨c, rfl⟩, p, [], rfl, fun x hx => by simp at hx⟩
  | plain t =>
    obtain ⟨_, q1, h1, h⟩ := bind_eq_ok.1 (show (PlainRow.read t >>= _ : Rd _) img p = _ from h)
    rw [pure_eq_ok] at h
    obtain ⟨rfl, rfl⟩ := h
    cases t with
    | albums =>
      obtain ⟨r, q2, h2, h⟩ := bind_eq_ok.1 (show (Album.read >>= _ : Rd _) img p = _ from h1)
      rw [pure_eq_ok] at h
      obtain ⟨rfl, rfl⟩ := h
      refine ⟨rfl, ?_⟩
      obtain ⟨h3, h4⟩ := Album.head_inv h2
      exact crow_inv r.head_length h3 h4 he
    | artists =>
      obtain ⟨r, q2, h2, h⟩ := bind_eq_ok.1 (show (Artist.read >>= _ : Rd _) img p = _ from h1)
      rw [pure_eq_ok] at h
      obtain ⟨rfl, rfl⟩ := h
      refine ⟨rfl, ?_⟩
      obtain ⟨h3, h4⟩ := Artist.head_inv h2
      exact crow_inv r.head_length h3 h4 he
    | artwork =>
      obtain ⟨r, q2, h2, h⟩ := bind_eq_ok.1 (show (Artwork.read >>= _ : Rd _) img p = _ from h1)
      rw [pure_eq_ok] at h
      obtain ⟨rfl, rfl⟩ := h
      refine ⟨rfl, ?_⟩
      obtain ⟨bs, h3, h4⟩ := Artwork.inv h2 he
      exact ⟨_, _, Wr.emitRes_ok h3 p, Contains.cons_iff.2 ⟨h4, fun x hx => by simp at hx⟩⟩
    | colors =>
      obtain ⟨r, q2, h2, h⟩ := bind_eq_ok.1 (show (Color.read >>= _ : Rd _) img p = _ from h1)
      rw [pure_eq_ok] at h
      obtain ⟨rfl, rfl⟩ := h
      refine ⟨rfl, ?_⟩
      obtain ⟨bs, h3, h4⟩ := Color.inv h2 he
      exact ⟨_, _, Wr.emitRes_ok h3 p, Contains.cons_iff.2 ⟨h4, fun x hx => by simp at hx⟩⟩
    | genres =>
      obtain ⟨r, q2, h2, h⟩ := bind_eq_ok.1 (show (Genre.read >>= _ : Rd _) img p = _ from h1)
      rw [pure_eq_ok] at h
      obtain ⟨rfl, rfl⟩ := h
      refine ⟨rfl, ?_⟩
      obtain ⟨bs, h3, h4⟩ := Genre.inv h2 he
      exact ⟨_, _, Wr.emitRes_ok h3 p, Contains.cons_iff.2 ⟨h4, fun x hx => by simp at hx⟩⟩
    | historyPlaylists =>
      obtain ⟨r, q2, h2, h⟩ := bind_eq_ok.1 (show (HistoryPlaylist.read >>= _ : Rd _) img p = _ from h1)
      rw [pure_eq_ok] at h
      obtain ⟨rfl, rfl⟩ := h
      refine ⟨rfl, ?_⟩
      obtain ⟨bs, h3, h4⟩ := HistoryPlaylist.inv h2 he
      exact ⟨_, _, Wr.emitRes_ok h3 p, Contains.cons_iff.2 ⟨h4, fun x hx => by simp at hx⟩⟩
    | historyEntries =>
      obtain ⟨r, q2, h2, h⟩ := bind_eq_ok.1 (show (HistoryEntry.read >>= _ : Rd _) img p = _ from h1)
      rw [pure_eq_ok] at h
      obtain ⟨rfl, rfl⟩ := h
      refine ⟨rfl, ?_⟩
      obtain ⟨bs, h3, h4⟩ := HistoryEntry.inv h2 he
      exact ⟨_, _, Wr.emitRes_ok h3 p, Contains.cons_iff.2 ⟨h4, fun x hx => by simp at hx⟩⟩
    | history =>
      obtain ⟨r, q2, h2, h⟩ := bind_eq_ok.1 (show (History.read >>= _ : Rd _) img p = _ from h1)
      rw [pure_eq_ok] at h
      obtain ⟨rfl, rfl⟩ := h
      refine ⟨rfl, ?_⟩
      obtain ⟨bs, h3, h4⟩ := History.inv h2 he
      exact ⟨_, _, Wr.emitRes_ok h3 p, Contains.cons_iff.2 ⟨h4, fun x hx => by simp at hx⟩⟩
    | keys =>
      obtain ⟨r, q2, h2, h⟩ := bind_eq_ok.1 (show (Key.read >>= _ : Rd _) img p = _ from h1)
      rw [pure_eq_ok] at h
      obtain ⟨rfl, rfl⟩ := h
      refine ⟨rfl, ?_⟩
      obtain ⟨bs, h3, h4⟩ := Key.inv h2 he
      exact ⟨_, _, Wr.emitRes_ok h3 p, Contains.cons_iff.2 ⟨h4, fun x hx => by simp at hx⟩⟩
    | labels =>
      obtain ⟨r, q2, h2, h⟩ := bind_eq_ok.1 (show (Label.read >>= _ : Rd _) img p = _ from h1)
      rw [pure_eq_ok] at h
      obtain ⟨rfl, rfl⟩ := h
      refine ⟨rfl, ?_⟩
      obtain ⟨bs, h3, h4⟩ := Label.inv h2 he
      exact ⟨_, _, Wr.emitRes_ok h3 p, Contains.cons_iff.2 ⟨h4, fun x hx => by simp at hx⟩⟩
    | playlistTree =>
      obtain ⟨r, q2, h2, h⟩ := bind_eq_ok.1 (show (PlaylistTreeNode.read >>= _ : Rd _) img p = _ from h1)
      rw [pure_eq_ok] at h
      obtain ⟨rfl, rfl⟩ := h
      refine ⟨rfl, ?_⟩
      obtain ⟨bs, h3, h4⟩ := PlaylistTreeNode.inv h2 he
      exact ⟨_, _, Wr.emitRes_ok h3 p, Contains.cons_iff.2 ⟨h4, fun x hx => by simp at hx⟩⟩
    | playlistEntries =>
      obtain ⟨r, q2, h2, h⟩ := bind_eq_ok.1 (show (PlaylistEntry.read >>= _ : Rd _) img p = _ from h1)
      rw [pure_eq_ok] at h
      obtain ⟨rfl, rfl⟩ := h
      refine ⟨rfl, ?_⟩
      obtain ⟨bs, h3, h4⟩ := PlaylistEntry.inv h2 he
      exact ⟨_, _, Wr.emitRes_ok h3 p, Contains.cons_iff.2 ⟨h4, fun x hx => by simp at hx⟩⟩
    | columns =>
      obtain ⟨r, q2, h2, h⟩ := bind_eq_ok.1 (show (ColumnEntry.read >>= _ : Rd _) img p = _ from h1)
      rw [pure_eq_ok] at h
      obtain ⟨rfl, rfl⟩ := h
      refine ⟨rfl, ?_⟩
      obtain ⟨bs, h3, h4⟩ := ColumnEntry.inv h2 he
      exact ⟨_, _, Wr.emitRes_ok h3 p, Contains.cons_iff.2 ⟨h4, fun x hx => by simp at hx⟩⟩
    | menu =>
      obtain ⟨r, q2, h2, h⟩ := bind_eq_ok.1 (show (Menu.read >>= _ : Rd _) img p = _ from h1)
      rw [pure_eq_ok] at h
      obtain ⟨rfl, rfl⟩ := h
      refine ⟨rfl, ?_⟩
      obtain ⟨bs, h3, h4⟩ := Menu.inv h2 he
      exact ⟨_, _, Wr.emitRes_ok h3 p, Contains.cons_iff.2 ⟨h4, fun x hx => by simp at hx⟩⟩
    | tracks =>
      obtain ⟨r, q2, h2, h⟩ := bind_eq_ok.1 (show (Track.read >>= _ : Rd _) img p = _ from h1)
      rw [pure_eq_ok] at h
      obtain ⟨rfl, rfl⟩ := h
      refine ⟨rfl, ?_⟩
      obtain ⟨h3, h4⟩ := Track.head_inv h2
      exact crow_inv r.head_length h3 h4 he
  | ext t =>
    obtain ⟨_, q1, h1, h⟩ := bind_eq_ok.1 (show (ExtRow.read t >>= _ : Rd _) img p = _ from h)
    rw [pure_eq_ok] at h
    obtain ⟨rfl, rfl⟩ := h
    cases t with
    | tag =>
      obtain ⟨r, q2, h2, h⟩ := bind_eq_ok.1 (show (TagOrCategory.read >>= _ : Rd _) img p = _ from h1)
      rw [pure_eq_ok] at h
      obtain ⟨rfl, rfl⟩ := h
      refine ⟨rfl, ?_⟩
      obtain ⟨h3, h4⟩ := TagOrCategory.head_inv h2
      exact crow_inv r.head_length h3 h4 he
    | trackTag =>
      obtain ⟨r, q2, h2, h⟩ := bind_eq_ok.1 (show (TrackTag.read >>= _ : Rd _) img p = _ from h1)
      rw [pure_eq_ok] at h
      obtain ⟨rfl, rfl⟩ := h
      refine ⟨rfl, ?_⟩
      obtain ⟨bs, h3, h4⟩ := TrackTag.inv h2 he
      exact ⟨_, _, Wr.emitRes_ok h3 p, Contains.cons_iff.2 ⟨h4, fun x hx => by simp at hx⟩⟩

theorem emitRes_extent {e : Res Bytes} {p p' : Nat} {ps : List Patch} {hb : Res Nat}
    (h : Wr.emitRes e p = .ok ((), p', ps))
    (hh : ∀ bs, e = .ok bs → hb = if bs.length < 65536 then .ok bs.length else .panic) :
    ∃ n, hb = (if n < 65536 then .ok n else .panic) ∧ PatchesDisjoint ps ∧
      PatchesWithin ps p (p + n) ∧ ∃ x ∈ ps, x.off + x.bytes.length = p + n := by
  obtain ⟨bs, rfl, rfl, rfl⟩ := Wr.emitRes_eq_ok h
  refine ⟨bs.length, hh bs rfl, by simp [PatchesDisjoint], ?_, ⟨p, bs⟩, by simp, rfl⟩
  intro x hx
  simp only [List.mem_singleton] at hx
  subst hx
  exact ⟨Nat.le_refl _, Nat.le_refl _⟩

/-- The heap size of a row to be laid out is exactly the extent of what is written. -/
theorem Row.heap_extent {r : Row} (hu : r ≠ .unknown) (hc : r.Calculated)
    (hh : ∀ v ∈ r.strings, ∀ bs, v.enc = .ok bs → v.heapBytes = .ok bs.length) {p p' : Nat}
    {ps : List Patch} (h : r.write p = .ok ((), p', ps)) :
    ∃ n, r.heapBytes = (if n < 65536 then .ok n else .panic) ∧ PatchesDisjoint ps ∧
      PatchesWithin ps p (p + n) ∧ ∃ x ∈ ps, x.off + x.bytes.length = p + n := by
  cases r with
  | unknown => exact absurd rfl hu
  | plain r =>
    cases r with
    | album r => exact Album.heap hc hh h
    | artist r => exact Artist.heap hc hh h
    | artwork r => exact emitRes_extent h fun bs hb => Artwork.heap hb hh
    | color r => exact emitRes_extent h fun bs hb => Color.heap hb hh
    | genre r => exact emitRes_extent h fun bs hb => Genre.heap hb hh
    | historyPlaylist r => exact emitRes_extent h fun bs hb => HistoryPlaylist.heap hb hh
    | historyEntry r => exact emitRes_extent h fun bs hb => HistoryEntry.heap hb hh
    | history r => exact emitRes_extent h fun bs hb => History.heap hb hh
    | key r => exact emitRes_extent h fun bs hb => Key.heap hb hh
    | label r => exact emitRes_extent h fun bs hb => Label.heap hb hh
    | playlistTreeNode r => exact emitRes_extent h fun bs hb => PlaylistTreeNode.heap hb hh
    | playlistEntry r => exact emitRes_extent h fun bs hb => PlaylistEntry.heap hb hh
    | columnEntry r => exact emitRes_extent h fun bs hb => ColumnEntry.heap hb hh
    | menu r => exact emitRes_extent h fun bs hb => Menu.heap hb hh
    | track r => exact Track.heap hc hh h
  | ext r =>
    cases r with
    | tag r => exact TagOrCategory.heap hc hh h
    | trackTag r => exact emitRes_extent h fun bs hb => TrackTag.heap hb hh

end Rekordcrate
