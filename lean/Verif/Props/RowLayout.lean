import Verif.Lemmas.Rows
import Verif.Props.OffsetArray

/-! # Byte positions of the fields of rows (C64)

The positions are the ones of the format documentation linked from `src/pdb/mod.rs`. -/

namespace Rekordcrate
open Rd

private theorem ColorIndex.docCode_eq (c : ColorIndex) : c.enc = encU8 c.docCode := by cases c <;> rfl

private theorem MenuVisibility.docCode_eq (c : MenuVisibility) : c.enc = encU8 c.docCode := by
  cases c <;> rfl

private theorem FileType.docCode_eq (c : FileType) : ∃ v : UInt16, c.enc = encU16 v ∧ v.toNat = c.docCode := by
  cases c <;> exact ⟨_, rfl, rfl⟩

private theorem StringAt.of_hasAt {img : Bytes} {p : Nat} {v : DString} {bs : Bytes} (h : HasAt img p bs)
    (hb : v.enc = .ok bs) : StringAt img p v := ⟨bs, hb, h⟩

/-- The strings of an offset array, found through their offsets. -/
private theorem crow_layout {T : Type} [OffsetItems T] [LawfulItems T] {hd : Bytes} {N : Nat}
    {s : UInt16} {c : OffsetContainer T} (hlen : hd.length = N) (hw : c.WellTyped) {p p' : Nat}
    {ps : List Patch} (h : (do Wr.emit hd; c.write N (offsetSizeOf s) : Wr Unit) p = .ok ((), p', ps))
    {img : Bytes} (hi : Contains img ps) :
    HasAt img p hd ∧ ∀ (i : Nat) v, (OffsetItems.asItems c.inner)[i]? = some v →
      StringVia img p (p + N) (docWidth s) i v := by
  obtain ⟨ps', h', rfl⟩ := crow_write_eq_ok hlen h
  rw [Contains.cons_iff] at hi
  rw [offsetSizeOf_eq] at h'
  obtain ⟨_, henc, a, _, hm, hn, hcon⟩ := OffsetContainer.write_spec hw h'
  obtain ⟨h1, h2⟩ := hcon img hi.2
  obtain ⟨_, h4⟩ := offsets_stored hm h1
  refine ⟨hi.1, fun i v hv => ?_⟩
  have hlt : i < a.seeks.length := by
    rw [OffsetArray.seeks_length, hn, ← LawfulItems.length_asItems c.inner]
    exact (List.getElem?_eq_some_iff.1 hv).1
  have hs : a.seeks[i]? = some a.seeks[i] := List.getElem?_eq_getElem hlt
  obtain ⟨bs, hb⟩ := henc v (List.mem_of_getElem? hv)
  have h5 := h2 i v _ hv hs
  rw [DString.encBytes_of_ok hb, Nat.add_sub_cancel] at h5
  exact ⟨_, h4 i _ hs, bs, hb, h5⟩

/-- C64: where a written `Album` row stores its fields. -/
theorem album_row_layout {r : Album} (hw : r.offsets.WellTyped) {p p' : Nat} {ps : List Patch}
    (h : r.write p = .ok ((), p', ps)) {img : Bytes} (hi : Contains img ps) :
    U16At img (p + 0) r.subtype.toNat ∧
    U16At img (p + 2) r.indexShift.toNat ∧
    U32At img (p + 4) r.unknown2.toNat ∧
    U32At img (p + 8) r.artistId.toNat ∧
    U32At img (p + 0xc) r.id.toNat ∧
    U32At img (p + 0x10) r.unknown3.toNat ∧
    StringVia img p (p + 0x14) (docWidth r.subtype) 0 r.offsets.inner.name := by
  obtain ⟨hd, hv⟩ := crow_layout r.head_length hw h hi
  simp only [Album.head, HasAt.append_iff, encU8_length, encU16_length, encU32_length, ColorIndex.enc_length, FileType.enc_length,
    MenuVisibility.enc_length, Nat.reduceAdd, Nat.add_assoc] at hd
  obtain ⟨t0, t1, t2, t3, t4, t5⟩ := hd
  exact ⟨.of_hasAt t0, .of_hasAt t1, .of_hasAt t2, .of_hasAt t3, .of_hasAt t4, .of_hasAt t5, hv 0 _ rfl⟩

/-- C64: where a written `Artist` row stores its fields. -/
theorem artist_row_layout {r : Artist} (hw : r.offsets.WellTyped) {p p' : Nat} {ps : List Patch}
    (h : r.write p = .ok ((), p', ps)) {img : Bytes} (hi : Contains img ps) :
    U16At img (p + 0) r.subtype.toNat ∧
    U16At img (p + 2) r.indexShift.toNat ∧
    U32At img (p + 4) r.id.toNat ∧
    StringVia img p (p + 0x8) (docWidth r.subtype) 0 r.offsets.inner.name := by
  obtain ⟨hd, hv⟩ := crow_layout r.head_length hw h hi
  simp only [Artist.head, HasAt.append_iff, encU8_length, encU16_length, encU32_length, ColorIndex.enc_length, FileType.enc_length,
    MenuVisibility.enc_length, Nat.reduceAdd, Nat.add_assoc] at hd
  obtain ⟨t0, t1, t2⟩ := hd
  exact ⟨.of_hasAt t0, .of_hasAt t1, .of_hasAt t2, hv 0 _ rfl⟩

/-- C64: where a written `Artwork` row stores its fields. -/
theorem artwork_row_layout {r : Artwork} {p p' : Nat} {ps : List Patch}
    (h : r.write p = .ok ((), p', ps)) {img : Bytes} (hi : Contains img ps) :
    U32At img (p + 0) r.id.toNat ∧
    StringAt img (p + 4) r.path := by
  obtain ⟨bs, he, rfl, rfl⟩ := Wr.emitRes_eq_ok h
  have hd := (Contains.cons_iff.1 hi).1
  unfold Artwork.enc at he
  obtain ⟨b_path, e_path, he⟩ := Res.bind_eq_ok.1 he
  have z_path := DString.length_of_enc e_path
  injection he with he
  subst he
  simp only [HasAt.append_iff, encU8_length, encU16_length, encU32_length, ColorIndex.enc_length, FileType.enc_length,
    MenuVisibility.enc_length, Nat.reduceAdd, Nat.add_assoc] at hd
  obtain ⟨t0, t1⟩ := hd
  exact ⟨.of_hasAt t0, .of_hasAt t1 e_path⟩

/-- C64: where a written `Color` row stores its fields. -/
theorem color_row_layout {r : Color} {p p' : Nat} {ps : List Patch}
    (h : r.write p = .ok ((), p', ps)) {img : Bytes} (hi : Contains img ps) :
    U32At img (p + 0) r.unknown1.toNat ∧
    ByteAt img (p + 4) r.unknown2 ∧
    ByteAt img (p + 5) r.color.docCode ∧
    U16At img (p + 6) r.unknown3.toNat ∧
    StringAt img (p + 8) r.name := by
  obtain ⟨bs, he, rfl, rfl⟩ := Wr.emitRes_eq_ok h
  have hd := (Contains.cons_iff.1 hi).1
  unfold Color.enc at he
  obtain ⟨b_name, e_name, he⟩ := Res.bind_eq_ok.1 he
  have z_name := DString.length_of_enc e_name
  injection he with he
  subst he
  simp only [HasAt.append_iff, encU8_length, encU16_length, encU32_length, ColorIndex.enc_length, FileType.enc_length,
    MenuVisibility.enc_length, Nat.reduceAdd, Nat.add_assoc] at hd
  obtain ⟨t0, t1, t2, t3, t4⟩ := hd
  rw [ColorIndex.docCode_eq] at t2
  exact ⟨.of_hasAt t0, .of_hasAt t1, .of_hasAt t2, .of_hasAt t3, .of_hasAt t4 e_name⟩

/-- C64: where a written `Genre` row stores its fields. -/
theorem genre_row_layout {r : Genre} {p p' : Nat} {ps : List Patch}
    (h : r.write p = .ok ((), p', ps)) {img : Bytes} (hi : Contains img ps) :
    U32At img (p + 0) r.id.toNat ∧
    StringAt img (p + 4) r.name := by
  obtain ⟨bs, he, rfl, rfl⟩ := Wr.emitRes_eq_ok h
  have hd := (Contains.cons_iff.1 hi).1
  unfold Genre.enc at he
  obtain ⟨b_name, e_name, he⟩ := Res.bind_eq_ok.1 he
  have z_name := DString.length_of_enc e_name
  injection he with he
  subst he
  simp only [HasAt.append_iff, encU8_length, encU16_length, encU32_length, ColorIndex.enc_length, FileType.enc_length,
    MenuVisibility.enc_length, Nat.reduceAdd, Nat.add_assoc] at hd
  obtain ⟨t0, t1⟩ := hd
  exact ⟨.of_hasAt t0, .of_hasAt t1 e_name⟩

/-- C64: where a written `HistoryPlaylist` row stores its fields. -/
theorem historyPlaylist_row_layout {r : HistoryPlaylist} {p p' : Nat} {ps : List Patch}
    (h : r.write p = .ok ((), p', ps)) {img : Bytes} (hi : Contains img ps) :
    U32At img (p + 0) r.id.toNat ∧
    StringAt img (p + 4) r.name := by
  obtain ⟨bs, he, rfl, rfl⟩ := Wr.emitRes_eq_ok h
  have hd := (Contains.cons_iff.1 hi).1
  unfold HistoryPlaylist.enc at he
  obtain ⟨b_name, e_name, he⟩ := Res.bind_eq_ok.1 he
  have z_name := DString.length_of_enc e_name
  injection he with he
  subst he
  simp only [HasAt.append_iff, encU8_length, encU16_length, encU32_length, ColorIndex.enc_length, FileType.enc_length,
    MenuVisibility.enc_length, Nat.reduceAdd, Nat.add_assoc] at hd
  obtain ⟨t0, t1⟩ := hd
  exact ⟨.of_hasAt t0, .of_hasAt t1 e_name⟩

/-- C64: where a written `HistoryEntry` row stores its fields. -/
theorem historyEntry_row_layout {r : HistoryEntry} {p p' : Nat} {ps : List Patch}
    (h : r.write p = .ok ((), p', ps)) {img : Bytes} (hi : Contains img ps) :
    U32At img (p + 0) r.trackId.toNat ∧
    U32At img (p + 4) r.playlistId.toNat ∧
    U32At img (p + 8) r.entryIndex.toNat := by
  obtain ⟨bs, he, rfl, rfl⟩ := Wr.emitRes_eq_ok h
  have hd := (Contains.cons_iff.1 hi).1
  unfold HistoryEntry.enc at he
  injection he with he
  subst he
  simp only [HasAt.append_iff, encU8_length, encU16_length, encU32_length, ColorIndex.enc_length, FileType.enc_length,
    MenuVisibility.enc_length, Nat.reduceAdd, Nat.add_assoc] at hd
  obtain ⟨t0, t1, t2⟩ := hd
  exact ⟨.of_hasAt t0, .of_hasAt t1, .of_hasAt t2⟩

/-- C64: where a written `History` row stores its fields. -/
theorem history_row_layout {r : History} {p p' : Nat} {ps : List Patch}
    (h : r.write p = .ok ((), p', ps)) {img : Bytes} (hi : Contains img ps) :
    U16At img (p + 0) r.subtype.toNat ∧
    U16At img (p + 2) r.indexShift.toNat ∧
    U32At img (p + 4) r.numTracks.toNat ∧
    StringAt img (p + 12) r.date ∧
    U32At img (p + 8) 0 ∧
    U16At img (p + 12 + r.date.size) 0x1e19 ∧
    StringAt img (p + 14 + r.date.size) r.version ∧
    StringAt img (p + 14 + r.date.size + r.version.size) r.label := by
  obtain ⟨bs, he, rfl, rfl⟩ := Wr.emitRes_eq_ok h
  have hd := (Contains.cons_iff.1 hi).1
  unfold History.enc at he
  obtain ⟨b_date, e_date, he⟩ := Res.bind_eq_ok.1 he
  have z_date := DString.length_of_enc e_date
  obtain ⟨b_version, e_version, he⟩ := Res.bind_eq_ok.1 he
  have z_version := DString.length_of_enc e_version
  obtain ⟨b_label, e_label, he⟩ := Res.bind_eq_ok.1 he
  have z_label := DString.length_of_enc e_label
  injection he with he
  subst he
  simp only [HasAt.append_iff, encU8_length, encU16_length, encU32_length, ColorIndex.enc_length, FileType.enc_length,
    MenuVisibility.enc_length, Nat.reduceAdd, Nat.add_assoc, z_date, z_version] at hd
  obtain ⟨t0, t1, t2, t3, t4, t5, t6, t7⟩ := hd
  refine ⟨.of_hasAt t0, .of_hasAt t1, .of_hasAt t2, .of_hasAt t4 e_date, ?_, ?_, ?_, ?_⟩
  · exact U32At.of_hasAt t3
  · have := U16At.of_hasAt t5
    simpa [Nat.add_assoc] using this
  · have := StringAt.of_hasAt t6 e_version
    rwa [show p + 14 + r.date.size = p + (12 + (r.date.size + 2)) by omega]
  · have := StringAt.of_hasAt t7 e_label
    rwa [show p + 14 + r.date.size + r.version.size = p + (12 + (r.date.size + (2 + r.version.size))) by omega]

/-- C64: where a written `Key` row stores its fields. -/
theorem key_row_layout {r : Key} {p p' : Nat} {ps : List Patch}
    (h : r.write p = .ok ((), p', ps)) {img : Bytes} (hi : Contains img ps) :
    U32At img (p + 0) r.id.toNat ∧
    U32At img (p + 4) r.id2.toNat ∧
    StringAt img (p + 8) r.name := by
  obtain ⟨bs, he, rfl, rfl⟩ := Wr.emitRes_eq_ok h
  have hd := (Contains.cons_iff.1 hi).1
  unfold Key.enc at he
  obtain ⟨b_name, e_name, he⟩ := Res.bind_eq_ok.1 he
  have z_name := DString.length_of_enc e_name
  injection he with he
  subst he
  simp only [HasAt.append_iff, encU8_length, encU16_length, encU32_length, ColorIndex.enc_length, FileType.enc_length,
    MenuVisibility.enc_length, Nat.reduceAdd, Nat.add_assoc] at hd
  obtain ⟨t0, t1, t2⟩ := hd
  exact ⟨.of_hasAt t0, .of_hasAt t1, .of_hasAt t2 e_name⟩

/-- C64: where a written `Label` row stores its fields. -/
theorem label_row_layout {r : Label} {p p' : Nat} {ps : List Patch}
    (h : r.write p = .ok ((), p', ps)) {img : Bytes} (hi : Contains img ps) :
    U32At img (p + 0) r.id.toNat ∧
    StringAt img (p + 4) r.name := by
  obtain ⟨bs, he, rfl, rfl⟩ := Wr.emitRes_eq_ok h
  have hd := (Contains.cons_iff.1 hi).1
  unfold Label.enc at he
  obtain ⟨b_name, e_name, he⟩ := Res.bind_eq_ok.1 he
  have z_name := DString.length_of_enc e_name
  injection he with he
  subst he
  simp only [HasAt.append_iff, encU8_length, encU16_length, encU32_length, ColorIndex.enc_length, FileType.enc_length,
    MenuVisibility.enc_length, Nat.reduceAdd, Nat.add_assoc] at hd
  obtain ⟨t0, t1⟩ := hd
  exact ⟨.of_hasAt t0, .of_hasAt t1 e_name⟩

/-- C64: where a written `PlaylistTreeNode` row stores its fields. -/
theorem playlistTreeNode_row_layout {r : PlaylistTreeNode} {p p' : Nat} {ps : List Patch}
    (h : r.write p = .ok ((), p', ps)) {img : Bytes} (hi : Contains img ps) :
    U32At img (p + 0) r.parentId.toNat ∧
    U32At img (p + 4) r.unknown.toNat ∧
    U32At img (p + 8) r.sortOrder.toNat ∧
    U32At img (p + 0xc) r.id.toNat ∧
    U32At img (p + 0x10) r.nodeIsFolder.toNat ∧
    StringAt img (p + 0x14) r.name := by
  obtain ⟨bs, he, rfl, rfl⟩ := Wr.emitRes_eq_ok h
  have hd := (Contains.cons_iff.1 hi).1
  unfold PlaylistTreeNode.enc at he
  obtain ⟨b_name, e_name, he⟩ := Res.bind_eq_ok.1 he
  have z_name := DString.length_of_enc e_name
  injection he with he
  subst he
  simp only [HasAt.append_iff, encU8_length, encU16_length, encU32_length, ColorIndex.enc_length, FileType.enc_length,
    MenuVisibility.enc_length, Nat.reduceAdd, Nat.add_assoc] at hd
  obtain ⟨t0, t1, t2, t3, t4, t5⟩ := hd
  exact ⟨.of_hasAt t0, .of_hasAt t1, .of_hasAt t2, .of_hasAt t3, .of_hasAt t4, .of_hasAt t5 e_name⟩

/-- C64: where a written `PlaylistEntry` row stores its fields. -/
theorem playlistEntry_row_layout {r : PlaylistEntry} {p p' : Nat} {ps : List Patch}
    (h : r.write p = .ok ((), p', ps)) {img : Bytes} (hi : Contains img ps) :
    U32At img (p + 0) r.entryIndex.toNat ∧
    U32At img (p + 4) r.trackId.toNat ∧
    U32At img (p + 8) r.playlistId.toNat := by
  obtain ⟨bs, he, rfl, rfl⟩ := Wr.emitRes_eq_ok h
  have hd := (Contains.cons_iff.1 hi).1
  unfold PlaylistEntry.enc at he
  injection he with he
  subst he
  simp only [HasAt.append_iff, encU8_length, encU16_length, encU32_length, ColorIndex.enc_length, FileType.enc_length,
    MenuVisibility.enc_length, Nat.reduceAdd, Nat.add_assoc] at hd
  obtain ⟨t0, t1, t2⟩ := hd
  exact ⟨.of_hasAt t0, .of_hasAt t1, .of_hasAt t2⟩

/-- C64: where a written `ColumnEntry` row stores its fields. -/
theorem columnEntry_row_layout {r : ColumnEntry} {p p' : Nat} {ps : List Patch}
    (h : r.write p = .ok ((), p', ps)) {img : Bytes} (hi : Contains img ps) :
    U16At img (p + 0) r.id.toNat ∧
    U16At img (p + 2) r.unknown0.toNat ∧
    StringAt img (p + 4) r.columnName := by
  obtain ⟨bs, he, rfl, rfl⟩ := Wr.emitRes_eq_ok h
  have hd := (Contains.cons_iff.1 hi).1
  unfold ColumnEntry.enc at he
  obtain ⟨b_columnName, e_columnName, he⟩ := Res.bind_eq_ok.1 he
  have z_columnName := DString.length_of_enc e_columnName
  injection he with he
  subst he
  simp only [HasAt.append_iff, encU8_length, encU16_length, encU32_length, ColorIndex.enc_length, FileType.enc_length,
    MenuVisibility.enc_length, Nat.reduceAdd, Nat.add_assoc] at hd
  obtain ⟨t0, t1, t2⟩ := hd
  exact ⟨.of_hasAt t0, .of_hasAt t1, .of_hasAt t2 e_columnName⟩

/-- C64: where a written `Menu` row stores its fields. -/
theorem menu_row_layout {r : Menu} {p p' : Nat} {ps : List Patch}
    (h : r.write p = .ok ((), p', ps)) {img : Bytes} (hi : Contains img ps) :
    U16At img (p + 0) r.categoryId.toNat ∧
    U16At img (p + 2) r.contentPointer.toNat ∧
    ByteAt img (p + 4) r.unknown ∧
    ByteAt img (p + 5) r.visibility.docCode ∧
    U16At img (p + 6) r.sortOrder.toNat := by
  obtain ⟨bs, he, rfl, rfl⟩ := Wr.emitRes_eq_ok h
  have hd := (Contains.cons_iff.1 hi).1
  unfold Menu.enc at he
  injection he with he
  subst he
  simp only [HasAt.append_iff, encU8_length, encU16_length, encU32_length, ColorIndex.enc_length, FileType.enc_length,
    MenuVisibility.enc_length, Nat.reduceAdd, Nat.add_assoc] at hd
  obtain ⟨t0, t1, t2, t3, t4⟩ := hd
  rw [MenuVisibility.docCode_eq] at t3
  exact ⟨.of_hasAt t0, .of_hasAt t1, .of_hasAt t2, .of_hasAt t3, .of_hasAt t4⟩

/-- C64: where a written `Track` row stores its fields. -/
theorem track_row_layout {r : Track} (hw : r.offsets.WellTyped) {p p' : Nat} {ps : List Patch}
    (h : r.write p = .ok ((), p', ps)) {img : Bytes} (hi : Contains img ps) :
    U16At img (p + 0) r.subtype.toNat ∧
    U16At img (p + 2) r.indexShift.toNat ∧
    U32At img (p + 4) r.bitmask.toNat ∧
    U32At img (p + 8) r.sampleRate.toNat ∧
    U32At img (p + 0xc) r.composerId.toNat ∧
    U32At img (p + 0x10) r.fileSize.toNat ∧
    U32At img (p + 0x14) r.unknown2.toNat ∧
    U16At img (p + 0x18) r.unknown3.toNat ∧
    U16At img (p + 0x1a) r.unknown4.toNat ∧
    U32At img (p + 0x1c) r.artworkId.toNat ∧
    U32At img (p + 0x20) r.keyId.toNat ∧
    U32At img (p + 0x24) r.origArtistId.toNat ∧
    U32At img (p + 0x28) r.labelId.toNat ∧
    U32At img (p + 0x2c) r.remixerId.toNat ∧
    U32At img (p + 0x30) r.bitrate.toNat ∧
    U32At img (p + 0x34) r.trackNumber.toNat ∧
    U32At img (p + 0x38) r.tempo.toNat ∧
    U32At img (p + 0x3c) r.genreId.toNat ∧
    U32At img (p + 0x40) r.albumId.toNat ∧
    U32At img (p + 0x44) r.artistId.toNat ∧
    U32At img (p + 0x48) r.id.toNat ∧
    U16At img (p + 0x4c) r.discNumber.toNat ∧
    U16At img (p + 0x4e) r.playCount.toNat ∧
    U16At img (p + 0x50) r.year.toNat ∧
    U16At img (p + 0x52) r.sampleDepth.toNat ∧
    U16At img (p + 0x54) r.duration.toNat ∧
    U16At img (p + 0x56) r.unknown5.toNat ∧
    ByteAt img (p + 0x58) r.color.docCode ∧
    ByteAt img (p + 0x59) r.rating ∧
    U16At img (p + 0x5a) r.fileType.docCode ∧
    StringVia img p (p + 0x5c) (docWidth r.subtype) 0 r.offsets.inner.isrc ∧
    StringVia img p (p + 0x5c) (docWidth r.subtype) 1 r.offsets.inner.lyricist ∧
    StringVia img p (p + 0x5c) (docWidth r.subtype) 2 r.offsets.inner.unknownString2 ∧
    StringVia img p (p + 0x5c) (docWidth r.subtype) 3 r.offsets.inner.unknownString3 ∧
    StringVia img p (p + 0x5c) (docWidth r.subtype) 4 r.offsets.inner.unknownString4 ∧
    StringVia img p (p + 0x5c) (docWidth r.subtype) 5 r.offsets.inner.message ∧
    StringVia img p (p + 0x5c) (docWidth r.subtype) 6 r.offsets.inner.publishTrackInformation ∧
    StringVia img p (p + 0x5c) (docWidth r.subtype) 7 r.offsets.inner.autoloadHotcues ∧
    StringVia img p (p + 0x5c) (docWidth r.subtype) 8 r.offsets.inner.unknownString5 ∧
    StringVia img p (p + 0x5c) (docWidth r.subtype) 9 r.offsets.inner.unknownString6 ∧
    StringVia img p (p + 0x5c) (docWidth r.subtype) 10 r.offsets.inner.dateAdded ∧
    StringVia img p (p + 0x5c) (docWidth r.subtype) 11 r.offsets.inner.releaseDate ∧
    StringVia img p (p + 0x5c) (docWidth r.subtype) 12 r.offsets.inner.mixName ∧
    StringVia img p (p + 0x5c) (docWidth r.subtype) 13 r.offsets.inner.unknownString7 ∧
    StringVia img p (p + 0x5c) (docWidth r.subtype) 14 r.offsets.inner.analyzePath ∧
    StringVia img p (p + 0x5c) (docWidth r.subtype) 15 r.offsets.inner.analyzeDate ∧
    StringVia img p (p + 0x5c) (docWidth r.subtype) 16 r.offsets.inner.comment ∧
    StringVia img p (p + 0x5c) (docWidth r.subtype) 17 r.offsets.inner.title ∧
    StringVia img p (p + 0x5c) (docWidth r.subtype) 18 r.offsets.inner.unknownString8 ∧
    StringVia img p (p + 0x5c) (docWidth r.subtype) 19 r.offsets.inner.filename ∧
    StringVia img p (p + 0x5c) (docWidth r.subtype) 20 r.offsets.inner.filePath := by
  obtain ⟨hd, hv⟩ := crow_layout r.head_length hw h hi
  simp only [Track.head, HasAt.append_iff, encU8_length, encU16_length, encU32_length, ColorIndex.enc_length, FileType.enc_length,
    MenuVisibility.enc_length, Nat.reduceAdd, Nat.add_assoc] at hd
  obtain ⟨t0, t1, t2, t3, t4, t5, t6, t7, t8, t9, t10, t11, t12, t13, t14, t15, t16, t17, t18, t19, t20, t21, t22, t23, t24, t25, t26, t27, t28, t29⟩ := hd
  rw [ColorIndex.docCode_eq] at t27
  obtain ⟨fc, fe, fv⟩ := FileType.docCode_eq r.fileType
  rw [fe] at t29
  exact ⟨.of_hasAt t0, .of_hasAt t1, .of_hasAt t2, .of_hasAt t3, .of_hasAt t4, .of_hasAt t5, .of_hasAt t6, .of_hasAt t7, .of_hasAt t8, .of_hasAt t9, .of_hasAt t10, .of_hasAt t11, .of_hasAt t12, .of_hasAt t13, .of_hasAt t14, .of_hasAt t15, .of_hasAt t16, .of_hasAt t17, .of_hasAt t18, .of_hasAt t19, .of_hasAt t20, .of_hasAt t21, .of_hasAt t22, .of_hasAt t23, .of_hasAt t24, .of_hasAt t25, .of_hasAt t26, .of_hasAt t27, .of_hasAt t28, fv ▸ U16At.of_hasAt t29, hv 0 _ rfl, hv 1 _ rfl, hv 2 _ rfl, hv 3 _ rfl, hv 4 _ rfl, hv 5 _ rfl, hv 6 _ rfl, hv 7 _ rfl, hv 8 _ rfl, hv 9 _ rfl, hv 10 _ rfl, hv 11 _ rfl, hv 12 _ rfl, hv 13 _ rfl, hv 14 _ rfl, hv 15 _ rfl, hv 16 _ rfl, hv 17 _ rfl, hv 18 _ rfl, hv 19 _ rfl, hv 20 _ rfl⟩

/-- C64: where a written `TagOrCategory` row stores its fields. -/
theorem tagOrCategory_row_layout {r : TagOrCategory} (hw : r.offsets.WellTyped) {p p' : Nat} {ps : List Patch}
    (h : r.write p = .ok ((), p', ps)) {img : Bytes} (hi : Contains img ps) :
    U16At img (p + 0) r.subtype.toNat ∧
    U16At img (p + 2) r.indexShift.toNat ∧
    U32At img (p + 4) r.unknown1.toNat ∧
    U32At img (p + 8) r.unknown2.toNat ∧
    U32At img (p + 0xc) r.parentId.toNat ∧
    U32At img (p + 0x10) r.position.toNat ∧
    U32At img (p + 0x14) r.id.toNat ∧
    U32At img (p + 0x18) r.rawIsCategory.toNat ∧
    StringVia img p (p + 0x1c) (docWidth r.subtype) 0 r.offsets.inner.name ∧
    StringVia img p (p + 0x1c) (docWidth r.subtype) 1 r.offsets.inner.unknown := by
  obtain ⟨hd, hv⟩ := crow_layout r.head_length hw h hi
  simp only [TagOrCategory.head, HasAt.append_iff, encU8_length, encU16_length, encU32_length, ColorIndex.enc_length, FileType.enc_length,
    MenuVisibility.enc_length, Nat.reduceAdd, Nat.add_assoc] at hd
  obtain ⟨t0, t1, t2, t3, t4, t5, t6, t7⟩ := hd
  exact ⟨.of_hasAt t0, .of_hasAt t1, .of_hasAt t2, .of_hasAt t3, .of_hasAt t4, .of_hasAt t5, .of_hasAt t6, .of_hasAt t7, hv 0 _ rfl, hv 1 _ rfl⟩

/-- C64: where a written `TrackTag` row stores its fields. -/
theorem trackTag_row_layout {r : TrackTag} {p p' : Nat} {ps : List Patch}
    (h : r.write p = .ok ((), p', ps)) {img : Bytes} (hi : Contains img ps) :
    U32At img (p + 4) r.trackId.toNat ∧
    U32At img (p + 8) r.tagId.toNat ∧
    U32At img (p + 0xc) r.unknownConst.toNat ∧
    U32At img p 0 := by
  obtain ⟨bs, he, rfl, rfl⟩ := Wr.emitRes_eq_ok h
  have hd := (Contains.cons_iff.1 hi).1
  unfold TrackTag.enc at he
  injection he with he
  subst he
  simp only [HasAt.append_iff, encU8_length, encU16_length, encU32_length, ColorIndex.enc_length, FileType.enc_length,
    MenuVisibility.enc_length, Nat.reduceAdd, Nat.add_assoc] at hd
  obtain ⟨t0, t1, t2, t3⟩ := hd
  exact ⟨.of_hasAt t1, .of_hasAt t2, .of_hasAt t3, U32At.of_hasAt t0⟩

end Rekordcrate
