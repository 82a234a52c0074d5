import Verif.Props.Anlz
import Verif.Props.Xor

/-! # C47, C50, C51: panics of the analysis parser, song structures, waveform columns -/

namespace Rekordcrate.Anlz
open Rd

/-! ## C47: panics -/

/-- C47, what is missing in `anlz_read_panic_partial`: a section of an unknown kind whose header is said to be
shorter than 12 bytes makes the parser panic. -/
theorem short_header_panics :
    AnlzSection.read [0x50, 0x58, 0x59, 0x5a, 0, 0, 0, 11, 0, 0, 0, 11] 0 = .panic := by decide +kernel

/-- C47, what is missing in `anlz_read_panic_partial`: a section that is said to be shorter than its header
makes the parser panic. -/
theorem short_total_panics :
    AnlzSection.read [0x50, 0x56, 0x42, 0x52, 0, 0, 0, 16, 0, 0, 0, 15, 0, 0, 0, 0] 0 = .panic := by
  decide +kernel

/-- C47, what is missing in `anlz_read_panic_partial`: a number of entries whose product with the entry size
exceeds 32 bits makes the parser panic, before the entries are looked at. -/
theorem many_entries_panics :
    AnlzSection.read [0x50, 0x57, 0x56, 0x34, 0, 0, 0, 24, 0, 0, 0, 24, 0, 0, 0, 6, 0x30, 0, 0, 0] 0 = .panic := by
  decide +kernel

/-- C47, what is missing in `anlz_read_panic_partial`: a song structure with 65311 phrases makes the parser
panic, before the phrases are looked at. -/
theorem many_phrases_panics :
    AnlzSection.read [0x50, 0x53, 0x53, 0x49, 0, 0, 0, 32, 0, 0x17, 0xeb, 0x08, 0, 0, 0, 24, 0xff, 0x1f, 0, 1] 0 =
      .panic := by
  decide +kernel

/-- C47, what is missing in `anlz_read_panic_partial`: a file header of less than 12 bytes makes the parser
panic. -/
theorem short_file_header_panics :
    AnlzFile.read [0x50, 0x4d, 0x41, 0x49, 0, 0, 0, 0, 0, 0, 0, 0] 0 = .panic := by decide +kernel

/-- C47, partial: the arithmetic on a header panics exactly if the header is said to be shorter than 12 bytes,
or the section shorter than the header. -/
theorem header_sizes_panic_partial (h : Header) :
    (h.remainingSize = .panic ↔ h.size.toNat < 12) ∧ (h.contentSize = .panic ↔ h.totalSize.toNat < h.size.toNat) :=
  ⟨Header.remainingSize_panic, Header.contentSize_panic⟩

/-- C47, partial: if reading a file of less than 4 GiB panics, then the reason is one of four arithmetic
overflows, in the file header or in one of the sections.  Missing: that there is no panic, see the theorems
above for each reason. -/
theorem anlz_read_panic_partial {d : Bytes} {p : Nat} (hd : d.length + 80 ≤ 2 ^ 32)
    (h : AnlzFile.read d p = .panic) :
    (∃ x, HeaderAt d p x ∧ x.kind = .file ∧ (x.size.toNat < 12 ∨ x.totalSize.toNat < x.size.toNat)) ∨
      ∃ p' x, p + 12 ≤ p' ∧ HeaderAt d p' x ∧ SectionPanicCause d p' x := by
  unfold AnlzFile.read at h
  obtain ⟨x, q, h1, h⟩ := panic_skip Header.np h
  obtain ⟨bs, hb, rfl, rfl, _⟩ := Header.inv _ _ _ _ h1
  rw [Header.enc_length] at h
  obtain ⟨hk, h⟩ := panic_check h
  simp only [beq_iff_eq] at hk
  rcases bind_eq_panic.1 h with hx | ⟨n, q2, h2, hx⟩
  · exact .inl ⟨x, Header.headerAt hb, hk, .inl (Header.remainingSize_panic.1 (lift_panic hx))⟩
  obtain ⟨hdata, q3, h3, hy⟩ := panic_skip (NP.bytes n) hx
  rcases bind_eq_panic.1 hy with hz | ⟨m, q4, h4, hz⟩
  · exact .inl ⟨x, Header.headerAt hb, hk, .inr (Header.contentSize_panic.1 (lift_panic hz))⟩
  right
  rcases bind_eq_panic.1 hz with hw | ⟨_, _, _, hw⟩
  · obtain ⟨p', hp', hs⟩ := parseSections_eq_panic hw
    obtain ⟨x', h5, h6⟩ := AnlzSection.panic hd hs
    have e2 := (lift_ok h2).2
    have e4 := (lift_ok h4).2
    have e3 := (bytes_eq_ok.1 h3).2.2
    exact ⟨p', x', by omega, h5, h6⟩
  · cases hw

/-! ## C50: song structures -/

/-- The key of encrypted song structures, before the number of phrases is added. -/
def songKeyTable : List Nat :=
  [0xCB, 0xE1, 0xEE, 0xFA, 0xE5, 0xEE, 0xAD, 0xEE, 0xE9, 0xD2, 0xE9, 0xEB, 0xE1, 0xE9, 0xF3, 0xE8, 0xE9, 0xF4, 0xE1]

/-- The byte of the key for position `i` of a song structure with `n` phrases. -/
def songKeyByte (n i : Nat) : UInt8 := UInt8.ofNat (songKeyTable.getD (i % 19) 0 + n)

theorem keyByte_eq {n : Nat} (hn : n < 2 ^ 16) (i : Nat) :
    XorStream.keyByte (songKey (UInt16.ofNat n)) i = songKeyByte n i := by
  have e : (songKey (UInt16.ofNat n)) = songKeyTable.map fun x => UInt8.ofNat (x + n) := by
    unfold songKey
    rw [toNat_ofNat16 hn]
    rfl
  have hl : (songKey (UInt16.ofNat n)).length = 19 := rfl
  unfold XorStream.keyByte songKeyByte
  rw [hl]
  have hi : i % 19 < 19 := Nat.mod_lt _ (by omega)
  generalize i % 19 = j at hi
  rw [e, List.getD_eq_getElem?_getD, List.getD_eq_getElem?_getD, List.getElem?_map,
    List.getElem?_eq_getElem (by exact hi)]
  rfl

/-- C50, partial: a song structure with less than 65286 phrases (65311 if it is not encrypted) is written with
every byte of its data xored with the repeating key if it is encrypted, unchanged otherwise; reading it
recognises whether it is encrypted and gives the same data.  Missing: larger numbers of phrases, see below. -/
theorem song_structure_roundtrip_partial {c : SongStructure}
    (hc : c.data.phrases.length < if c.isEncrypted then 65286 else 65311) :
    ∃ bs, c.enc = .ok bs ∧ bs.length = 20 + 24 * c.data.phrases.length ∧
      U32BeAt bs 0 24 ∧ U16BeAt bs 4 c.data.phrases.length ∧
      (∀ i, bs[6 + i]? = c.data.enc[i]?.map fun b =>
        if c.isEncrypted then b ^^^ songKeyByte c.data.phrases.length i else b) ∧
      ∀ (h : Header) d p, h.totalSize.toNat = h.size.toNat + 24 * c.data.phrases.length → HasAt d p bs →
        SongStructure.read h d p = .ok (c, p + bs.length) := by
  have hf : c.Fits := hc
  have h16 := hf.lt16
  have hself := hasAt_self (encU32be 24 ++ (encU16be (UInt16.ofNat c.data.phrases.length) ++ c.dataBytes))
  rw [HasAt.append_iff, HasAt.append_iff] at hself
  refine ⟨_, c.enc_eq hf, ?_, ?_, ?_, ?_, ?_⟩
  · rw [List.length_append, List.length_append, c.dataBytes_length, encU32be_length, encU16be_length]; omega
  · exact U32BeAt.of_hasAt hself.1
  · have := U16BeAt.of_hasAt hself.2.1
    rwa [toNat_ofNat16 h16, encU32be_length] at this
  · intro i
    rw [← List.append_assoc, List.getElem?_append_right (by simp)]
    rw [show 6 + i - (encU32be 24 ++ encU16be (UInt16.ofNat c.data.phrases.length)).length = i by simp]
    unfold SongStructure.dataBytes
    cases c.isEncrypted
    · simp
    · simp only [if_true]
      rw [XorStream.xorBuf_getElem?, Nat.zero_add, keyByte_eq h16]
  · intro h d p hs hd
    exact SongStructure.rt hf hs d p hd

/-- C50: a song structure that was read had less than 65286 (65311) phrases, so larger ones are never read
back, and it is written back byte for byte, encrypted if it was encrypted. -/
theorem song_structure_rewrite {h : Header} {d : Bytes} {p q : Nat} {c : SongStructure}
    (hr : SongStructure.read h d p = .ok (c, q)) :
    (c.data.phrases.length < if c.isEncrypted then 65286 else 65311) ∧
      ∃ bs, c.enc = .ok bs ∧ HasAt d p bs ∧ q = p + bs.length := by
  obtain ⟨bs, hb, hq, he, hf, _⟩ := SongStructure.inv h _ _ _ _ hr
  exact ⟨hf, bs, he, hb, hq⟩

/-- C50, what is missing in `song_structure_roundtrip_partial`: writing an encrypted song structure with 65286
or more (but less than 65536) phrases panics. -/
theorem song_structure_write_panics {c : SongStructure} (he : c.isEncrypted = true)
    (h1 : 65286 ≤ c.data.phrases.length) (h2 : c.data.phrases.length < 65536) : c.enc = .panic := by
  unfold SongStructure.enc SongStructureData.encEncrypted
  simp only [he, if_true]
  cases hk : SongStructureData.getKey (UInt16.ofNat c.data.phrases.length) SongStructureData.keyData with
  | ok ks =>
    have := (keyData_bound hk).1
    rw [toNat_ofNat16 h2] at this
    omega
  | panic => rfl
  | err e =>
    exfalso
    have hne : ∀ (n : UInt16) (xs : Bytes) e, SongStructureData.getKey n xs ≠ .err e := by
      intro n xs
      induction xs with
      | nil => intro e h; cases h
      | cons x xs ih =>
        intro e h
        unfold SongStructureData.getKey SongStructureData.keyByteOf addU16 at h
        split at h
        · cases hg : SongStructureData.getKey n xs with
          | ok ks => rw [hg] at h; cases h
          | err e => exact ih e hg
          | panic => rw [hg] at h; cases h
        · cases h
    exact hne _ _ _ hk

/-- C50, what is missing in `song_structure_roundtrip_partial`: a plain song structure with 65311 phrases is
written, but reading it panics. -/
theorem song_structure_read_panics {c : SongStructure} (he : c.isEncrypted = false)
    (h1 : 65311 ≤ c.data.phrases.length) (h2 : c.data.phrases.length < 65536) :
    ∃ bs, c.enc = .ok bs ∧ ∀ h : Header, h.totalSize.toNat = h.size.toNat + 24 * c.data.phrases.length →
      SongStructure.read h bs 0 = .panic := by
  have henc : c.enc = .ok (encU32be 24 ++ (encU16be (UInt16.ofNat c.data.phrases.length) ++ c.data.enc)) := by
    unfold SongStructure.enc SongStructureData.encEncrypted
    rw [he]; rfl
  refine ⟨_, henc, fun h hs => ?_⟩
  have hself := hasAt_self (encU32be 24 ++ (encU16be (UInt16.ofNat c.data.phrases.length) ++ c.data.enc))
  have hl : (encU32be 24 ++ (encU16be (UInt16.ofNat c.data.phrases.length) ++ c.data.enc)).length =
      20 + 24 * c.data.phrases.length := by
    rw [List.length_append, List.length_append, SongStructureData.enc_length]; simp; omega
  rw [HasAt.append_iff, HasAt.append_iff] at hself
  generalize encU32be 24 ++ (encU16be (UInt16.ofNat c.data.phrases.length) ++ c.data.enc) = d at hself hl ⊢
  have hm : mulU32 (24 : UInt32).toNat (UInt16.ofNat c.data.phrases.length).toNat =
      .ok (24 * c.data.phrases.length) := by
    rw [toNat_ofNat16 h2]
    exact if_pos (by show 24 * _ < _; omega)
  have hk : ∀ raw, SongStructureData.checkIfEncrypted raw (UInt16.ofNat c.data.phrases.length) = .panic := by
    intro raw
    unfold SongStructureData.checkIfEncrypted
    have : SongStructureData.getKey (UInt16.ofNat c.data.phrases.length) (SongStructureData.keyData.take 2) =
        .panic := by
      show SongStructureData.getKey _ [0xCB, 0xE1] = .panic
      simp only [SongStructureData.getKey, SongStructureData.keyByteOf, addU16]
      rw [toNat_ofNat16 h2]
      by_cases h3 : (0xCB : UInt8).toNat + c.data.phrases.length < 65536
      · rw [if_pos h3, if_neg (by show ¬ (225 + _ < 65536); omega)]; rfl
      · rw [if_neg h3]; rfl
    rw [this]; rfl
  unfold SongStructure.read
  rw [bind_of_ok (RT.u32be _ _ _ hself.1)]
  rw [bind_of_ok (show Rd.require ((24 : UInt32) == 24) _ d _ = .ok ((), _) from rfl)]
  rw [bind_of_ok (RT.u16be _ _ _ hself.2.1)]
  rw [bind_of_ok (show Rd.lift (mulU32 (24 : UInt32).toNat (UInt16.ofNat c.data.phrases.length).toNat) d _ =
    .ok (_, _) by rw [hm]; rfl)]
  rw [bind_of_ok (show Rd.lift h.contentSize d _ = .ok (_, _) by rw [Header.contentSize_eq.2 hs]; rfl)]
  rw [bind_of_ok (show Rd.require (24 * c.data.phrases.length == 24 * c.data.phrases.length) _ d _ = .ok ((), _) by
    rw [beq_self_eq_true]; rfl)]
  have hb : ∀ p, p + 2 ≤ d.length → ∃ raw, Rd.bytes 2 d p = .ok (raw, p + 2) := by
    intro p hp
    refine ⟨(d.drop p).take 2, bytes_eq_ok.2 ⟨by simp; omega, ?_, rfl⟩⟩
    intro i hi
    rw [List.getElem?_take_of_lt (by simp at hi; omega), List.getElem?_drop]
  obtain ⟨raw, hb⟩ := hb (0 + (encU32be 24).length + (encU16be (UInt16.ofNat c.data.phrases.length)).length)
    (by rw [hl, encU32be_length, encU16be_length]; omega)
  refine bind_of_panic ?_
  unfold Rd.restore
  rw [bind_of_ok hb]
  simp only [hk, Rd.lift]

/-- A song structure with `n` phrases. -/
def exampleSong (encrypted : Bool) (n : Nat) : SongStructure :=
  { isEncrypted := encrypted,
    data := { mood := .mid, unknown1 := 0, unknown2 := 0, endBeat := 64, unknown3 := 0, bank := .cool, unknown4 := 0,
              phrases := List.replicate n ⟨1, 1, 2, 0, 0, 0, 0, 0, 0, 4, 5, 6, 0, 0, 0, 1, 60⟩ } }

example : ∃ bs, (exampleSong true 2).enc = .ok bs ∧ bs.length = 68 ∧
    SongStructure.read ⟨.songStructure, 32, 80⟩ bs 0 = .ok (exampleSong true 2, 68) := by
  obtain ⟨bs, h1, h2, _, _, _, h3⟩ := song_structure_roundtrip_partial (c := exampleSong true 2) (by decide)
  exact ⟨bs, h1, h2, by rw [h3 _ bs 0 rfl (hasAt_self bs), h2]; rfl⟩

theorem exampleSong_length (e : Bool) (n : Nat) : (exampleSong e n).data.phrases.length = n :=
  List.length_replicate ..

example : (exampleSong true 65286).enc = .panic :=
  song_structure_write_panics rfl (by rw [exampleSong_length]; omega) (by rw [exampleSong_length]; omega)

example : ∃ bs, (exampleSong false 65311).enc = .ok bs ∧
    SongStructure.read ⟨.songStructure, 32, 32 + 24 * 65311⟩ bs 0 = .panic := by
  obtain ⟨bs, h1, h2⟩ := song_structure_read_panics (c := exampleSong false 65311) rfl
    (by rw [exampleSong_length]; omega) (by rw [exampleSong_length]; omega)
  exact ⟨bs, h1, h2 _ (by rw [exampleSong_length]; decide)⟩

/-- C50: what the reader sees through the cipher stream is what the stream of `src/xor.rs` delivers, however
the reader divides its reads. -/
theorem song_structure_reads_through_stream (key d : Bytes) (p : Nat) (rs : List Nat)
    (h : p + rs.sum ≤ d.length) :
    readBytesOf ((XorStream.withKey d p key).run (rs.map .read)).2 =
      ((SongStructureData.decipher key p d).drop p).take rs.sum := by
  obtain ⟨f', os, h1, h2⟩ := plain_reads ⟨xorImage key p d, p⟩ rs (by simpa [xorImage] using h)
  rw [(xor_stream_behaves_like_plain_file key d p _ f' os h1).1, h2]
  congr 1
  apply List.ext_getElem?
  intro i
  rw [List.getElem?_drop, List.getElem?_drop, xorImage_getElem?]
  unfold SongStructureData.decipher
  rw [List.getElem?_append_right (by simp; omega), List.length_take, Nat.min_eq_left (by omega),
    Nat.add_sub_cancel_left, XorStream.xorBuf_getElem?, List.getElem?_drop, Nat.zero_add]
  congr 2
  funext b
  congr 1
  rw [← keyByteAt_norm]
  unfold keyByteAt XorStream.keyByte XorStream.withKey
  rw [if_neg (by cases key <;> simp)]
  rw [show ((p + i : Nat) : Int) - p = i by omega]
  generalize (if key.isEmpty = true then [0] else key : Bytes) = k
  rw [← Int.natCast_emod, Int.toNat_natCast]

/-- C50: what the writer stores is what the stream of `src/xor.rs` stores at the end of a file, however the
writer divides its writes. -/
theorem song_structure_writes_through_stream (n : UInt16) (hn : n.toNat < 65286) (c : SongStructureData)
    (pre : Bytes) (ws : List Bytes) (h : ws.flatten = c.enc) :
    ∃ bs key, c.encEncrypted true n = .ok bs ∧ SongStructureData.getKey n SongStructureData.keyData = .ok key ∧
      ((XorStream.withKey pre pre.length key).run (ws.map .write)).1.data = pre ++ bs := by
  refine ⟨_, _, encEncrypted_eq hn, songKey_ok hn, ?_⟩
  have hw := xor_write_read_roundtrip (songKey n) pre ws [ws.flatten.length] (by simp)
  obtain ⟨h1, h2, h3, _⟩ := hw
  apply List.ext_getElem?
  intro i
  by_cases hi : i < pre.length
  · rw [h2 i hi, List.getElem?_append_left hi]
  · rw [List.getElem?_append_right (by omega), XorStream.xorBuf_getElem?, ← h, Nat.zero_add]
    obtain ⟨k, rfl⟩ : ∃ k, i = pre.length + k := ⟨i - pre.length, by omega⟩
    rw [Nat.add_sub_cancel_left]
    cases hb : ws.flatten[k]? with
    | some b =>
      rw [h3 k b hb, if_neg (by intro hc; cases hc)]
      rfl
    | none =>
      rw [List.getElem?_eq_none_iff] at hb
      rw [List.getElem?_eq_none (by omega)]; rfl

/-! ## C51: waveform columns -/

/-- C51: a column of the preview: height in the five low bits, whiteness in the three high bits. -/
theorem waveform_preview_column_bits {d : Bytes} {p : Nat} {x : UInt8} (h : ByteAt d p x) :
    ∃ c, WaveformPreviewColumn.read d p = .ok (c, p + 1) ∧ c.enc = [x] ∧
      c.height.val = x.toNat % 32 ∧ c.whiteness.val = x.toNat / 32 := by
  have hx := x.toNat_lt
  have hd : HasAt d p [x] := by
    intro i hi
    simp at hi; subst hi; simpa [ByteAt] using h
  have hr : WaveformPreviewColumn.read d p = .ok (WaveformPreviewColumn.ofRaw (leDec [x]), p + 1) := by
    unfold WaveformPreviewColumn.read
    rw [bind_of_ok (show Rd.bytes 1 d p = .ok ([x], p + 1) from bytes_eq_ok.2 ⟨rfl, hd, rfl⟩)]; rfl
  refine ⟨_, hr, ?_, ?_, ?_⟩
  · obtain ⟨bs, hb, hq, he⟩ := WaveformPreviewColumn.inv _ _ _ _ hr
    rw [← he]
    exact HasAt.eq_of_length hb hd (by simp; omega)
  · simp only [WaveformPreviewColumn.ofRaw, unpackLSB, leDec, Fin.ofNat]; omega
  · simp only [WaveformPreviewColumn.ofRaw, unpackLSB, leDec, Fin.ofNat]; omega

/-- C51: a column of the tiny preview: height in the four high bits. -/
theorem tiny_waveform_preview_column_bits {d : Bytes} {p : Nat} {x : UInt8} (h : ByteAt d p x) :
    ∃ c, TinyWaveformPreviewColumn.read d p = .ok (c, p + 1) ∧ c.enc = [x] ∧
      c.unused.val = x.toNat % 16 ∧ c.height.val = x.toNat / 16 := by
  have hx := x.toNat_lt
  have hd : HasAt d p [x] := by
    intro i hi
    simp at hi; subst hi; simpa [ByteAt] using h
  have hr : TinyWaveformPreviewColumn.read d p = .ok (TinyWaveformPreviewColumn.ofRaw (leDec [x]), p + 1) := by
    unfold TinyWaveformPreviewColumn.read
    rw [bind_of_ok (show Rd.bytes 1 d p = .ok ([x], p + 1) from bytes_eq_ok.2 ⟨rfl, hd, rfl⟩)]; rfl
  refine ⟨_, hr, ?_, ?_, ?_⟩
  · obtain ⟨bs, hb, hq, he⟩ := TinyWaveformPreviewColumn.inv _ _ _ _ hr
    rw [← he]
    exact HasAt.eq_of_length hb hd (by simp; omega)
  · simp only [TinyWaveformPreviewColumn.ofRaw, unpackLSB, leDec, Fin.ofNat]; omega
  · simp only [TinyWaveformPreviewColumn.ofRaw, unpackLSB, leDec, Fin.ofNat]; omega

/-- C51: a column of the color detail waveform: with the two bytes as a little-endian number, red, green and
blue in three bits each from the lowest bit on, then five bits of height and two unknown bits. -/
theorem waveform_color_detail_column_bits {d : Bytes} {p n : Nat} (h : U16At d p n) :
    ∃ c, WaveformColorDetailColumn.read d p = .ok (c, p + 2) ∧ HasAt d p c.enc ∧ c.enc.length = 2 ∧
      c.red.val = n % 8 ∧ c.green.val = n / 8 % 8 ∧ c.blue.val = n / 64 % 8 ∧ c.height.val = n / 512 % 32 ∧
      c.unknown.val = n / 16384 := by
  obtain ⟨a, b, ha, hb, rfl⟩ := h
  have h1 := a.toNat_lt
  have h2 := b.toNat_lt
  have hd : HasAt d p [a, b] := by
    intro i hi
    match i, hi with
    | 0, _ => simpa using ha
    | 1, _ => simpa using hb
  have hr : WaveformColorDetailColumn.read d p = .ok (WaveformColorDetailColumn.ofRaw (leDec [a, b]), p + 2) := by
    unfold WaveformColorDetailColumn.read
    rw [bind_of_ok (show Rd.bytes 2 d p = .ok ([a, b], p + 2) from bytes_eq_ok.2 ⟨rfl, hd, rfl⟩)]; rfl
  refine ⟨_, hr, ?_, WaveformColorDetailColumn.enc_length _, ?_, ?_, ?_, ?_, ?_⟩
  · obtain ⟨bs, hb, hq, he⟩ := WaveformColorDetailColumn.inv _ _ _ _ hr
    rw [← he]; exact hb
  all_goals simp only [WaveformColorDetailColumn.ofRaw, unpackLSB, leDec, Fin.ofNat]; omega

/-- C51: every value of a packed column survives write/read, at any place. -/
theorem waveform_columns_roundtrip (c : WaveformPreviewColumn) (t : TinyWaveformPreviewColumn)
    (e : WaveformColorDetailColumn) (d : Bytes) (p : Nat) :
    (HasAt d p c.enc → WaveformPreviewColumn.read d p = .ok (c, p + 1)) ∧
    (HasAt d p t.enc → TinyWaveformPreviewColumn.read d p = .ok (t, p + 1)) ∧
    (HasAt d p e.enc → WaveformColorDetailColumn.read d p = .ok (e, p + 2)) := by
  refine ⟨fun h => ?_, fun h => ?_, fun h => ?_⟩
  · rw [c.rt d p h, c.enc_length]
  · rw [t.rt d p h, t.enc_length]
  · rw [e.rt d p h, e.enc_length]

/-- C51: the columns that consist of whole bytes hold them in the order of the fields. -/
theorem waveform_byte_columns_layout (c : WaveformColorPreviewColumn) (t : Waveform3BandPreviewColumn)
    (e : Waveform3BandDetailColumn) (d : Bytes) (p : Nat) :
    c.enc = [c.unknown1, c.unknown2, c.energyBottomHalfFreq, c.energyBottomThirdFreq, c.energyMidThirdFreq,
      c.energyTopThirdFreq] ∧
    (HasAt d p c.enc → WaveformColorPreviewColumn.read d p = .ok (c, p + 6)) ∧
    t.enc = [t.energyMidThirdFreq, t.energyTopThirdFreq, t.energyBottomThirdFreq] ∧
    (HasAt d p t.enc → Waveform3BandPreviewColumn.read d p = .ok (t, p + 3)) ∧
    e.enc = [e.energyMidThirdFreq, e.energyTopThirdFreq, e.energyBottomThirdFreq] ∧
    (HasAt d p e.enc → Waveform3BandDetailColumn.read d p = .ok (e, p + 3)) := by
  refine ⟨rfl, fun h => ?_, rfl, fun h => ?_, rfl, fun h => ?_⟩
  · rw [c.rt d p h, c.enc_length]
  · rw [t.rt d p h, t.enc_length]
  · rw [e.rt d p h, e.enc_length]

example : WaveformPreviewColumn.enc ⟨17, 5⟩ = [0xb1] ∧ TinyWaveformPreviewColumn.enc ⟨3, 9⟩ = [0x93] ∧
    WaveformColorDetailColumn.enc ⟨7, 1, 2, 16, 3⟩ = [0x8f, 0xe0] := by decide

end Rekordcrate.Anlz
