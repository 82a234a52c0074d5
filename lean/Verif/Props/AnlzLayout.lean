import Verif.Props.AnlzSong

/-! # C64: byte layout of analysis files

All numbers are big endian.  The positions are relative to the beginning of the section (the header of a
section takes 12 bytes), of the cue, or of the phrase. -/

namespace Rekordcrate.Anlz
open Rd

theorem hasAt_flatMap_const {α : Type} {f : α → Bytes} {k : Nat} (hf : ∀ a, (f a).length = k) {d : Bytes}
    {l : List α} {p : Nat} (h : HasAt d p (l.flatMap f)) {i : Nat} {a : α} (ha : l[i]? = some a) :
    HasAt d (p + k * i) (f a) := by
  induction l generalizing p i with
  | nil => simp at ha
  | cons b l ih =>
    rw [List.flatMap_cons, HasAt.append_iff, hf] at h
    cases i with
    | zero => simp at ha; subst ha; exact h.1
    | succ i =>
      have := ih h.2 (i := i) (by simpa using ha)
      rwa [show p + k * (i + 1) = p + k + k * i by rw [Nat.mul_succ]; omega]

theorem HasAt.move {d : Bytes} {a b : Nat} {bs : Bytes} (h : HasAt d a bs) (e : a = b) : HasAt d b bs := e ▸ h

/-- A section is stored as its header and its content behind it. -/
theorem section_parts {s : AnlzSection} {bs : Bytes} (h : s.enc = .ok bs) {d : Bytes} {p : Nat}
    (hd : HasAt d p bs) : HasAt d p s.header.enc ∧ ∃ cb, s.content.enc = .ok cb ∧ HasAt d (p + 12) cb := by
  unfold AnlzSection.enc at h
  obtain ⟨cb, hc, h⟩ := Res.bind_eq_ok.1 h
  injection h with h
  rw [← h, HasAt.append_iff, Header.enc_length] at hd
  exact ⟨hd.1, cb, hc, hd.2⟩

/-- The four characters that name a kind of section. -/
def tagOf : Kind → List Char
  | .file => ['P', 'M', 'A', 'I']
  | .beatGrid => ['P', 'Q', 'T', 'Z']
  | .cueList => ['P', 'C', 'O', 'B']
  | .extendedCueList => ['P', 'C', 'O', '2']
  | .extendedCue => ['P', 'C', 'P', '2']
  | .cue => ['P', 'C', 'P', 'T']
  | .path => ['P', 'P', 'T', 'H']
  | .vbr => ['P', 'V', 'B', 'R']
  | .waveformPreview => ['P', 'W', 'A', 'V']
  | .tinyWaveformPreview => ['P', 'W', 'V', '2']
  | .waveformDetail => ['P', 'W', 'V', '3']
  | .waveformColorPreview => ['P', 'W', 'V', '4']
  | .waveformColorDetail => ['P', 'W', 'V', '5']
  | .waveform3BandPreview => ['P', 'W', 'V', '6']
  | .waveform3BandDetail => ['P', 'W', 'V', '7']
  | .songStructure => ['P', 'S', 'S', 'I']
  | .unknown a b c d => [a, b, c, d].map fun x => Char.ofNat x.toNat

theorem tag_bytes (k : Kind) : k.enc.map (fun x => Char.ofNat x.toNat) = tagOf k := by cases k <;> rfl

/-- C64: a section begins with its tag, the size of the header and the total size. -/
theorem section_header_layout {s : AnlzSection} {bs : Bytes} (h : s.enc = .ok bs) {d : Bytes} {p : Nat}
    (hd : HasAt d p bs) :
    (∃ a b c e : UInt8, d[p]? = some a ∧ d[p + 1]? = some b ∧ d[p + 2]? = some c ∧ d[p + 3]? = some e ∧
      [a, b, c, e].map (fun x => Char.ofNat x.toNat) = tagOf s.header.kind) ∧
    U32BeAt d (p + 4) s.header.size.toNat ∧ U32BeAt d (p + 8) s.header.totalSize.toNat := by
  have hh := Header.headerAt (section_parts h hd).1
  refine ⟨?_, hh.size, hh.totalSize⟩
  have hk := hh.kind
  have ht := tag_bytes s.header.kind
  have hl := Kind.enc_length s.header.kind
  generalize s.header.kind.enc = t at hk hl ht
  match t, hl with
  | [a, b, c, e], _ =>
    exact ⟨a, b, c, e, by simpa using hk 0 (by simp), by simpa using hk 1 (by simp), by simpa using hk 2 (by simp),
      by simpa using hk 3 (by simp), ht⟩

/-- C64: beat grids. -/
theorem beat_grid_layout {s : AnlzSection} {c : BeatGrid} (hc : s.content = .beatGrid c)
    (hn : c.beats.length < 2 ^ 32) {bs : Bytes} (h : s.enc = .ok bs) {d : Bytes} {p : Nat} (hd : HasAt d p bs) :
    U32BeAt d (p + 12) c.unknown1.toNat ∧ U32BeAt d (p + 16) c.unknown2.toNat ∧
    U32BeAt d (p + 20) c.beats.length ∧
    ∀ i b, c.beats[i]? = some b → U16BeAt d (p + 24 + 8 * i) b.beatNumber.toNat ∧
      U16BeAt d (p + 24 + 8 * i + 2) b.tempo.toNat ∧ U32BeAt d (p + 24 + 8 * i + 4) b.time.toNat := by
  obtain ⟨_, cb, he, hb⟩ := section_parts h hd
  rw [hc] at he
  injection he with he
  rw [← he] at hb
  simp only [BeatGrid.enc, HasAt.append_iff, encU32be_length] at hb
  obtain ⟨h1, h2, h3, h4⟩ := hb
  have h3 := U32BeAt.of_hasAt h3
  rw [toNat_ofNat32 hn] at h3
  refine ⟨.of_hasAt h1, .of_hasAt h2, h3, fun i b hi => ?_⟩
  have hbeat := hasAt_flatMap_const Beat.enc_length h4 hi
  simp only [Beat.enc, HasAt.append_iff, encU16be_length] at hbeat
  exact ⟨.of_hasAt hbeat.1, .of_hasAt hbeat.2.1, .of_hasAt hbeat.2.2⟩

/-- The number that stands for a kind of cue list in a file. -/
def listTypeNumber : CueListType → Nat
  | .memoryCues => 0
  | .hotCues => 1

/-- The number that stands for a kind of cue in a file. -/
def cueTypeNumber : CueType → UInt8
  | .point => 1
  | .loop => 2

theorem listType_at {d : Bytes} {p : Nat} {t : CueListType} (h : HasAt d p t.enc) :
    U32BeAt d p (listTypeNumber t) := by
  have := U32BeAt.of_hasAt h
  cases t <;> exact this

theorem cueType_at {d : Bytes} {p : Nat} {t : CueType} (h : HasAt d p t.enc) : ByteAt d p (cueTypeNumber t) := by
  have := ByteAt.of_hasAt h
  cases t <;> exact this

/-- C64: the fields of a cue, 56 bytes. -/
theorem cue_layout {c : Cue} {d : Bytes} {p : Nat} (h : HasAt d p c.enc) :
    HasAt d p c.header.kind.enc ∧ U32BeAt d (p + 4) c.header.size.toNat ∧
    U32BeAt d (p + 8) c.header.totalSize.toNat ∧ U32BeAt d (p + 12) c.hotCue.toNat ∧
    U32BeAt d (p + 16) c.status.toNat ∧ U32BeAt d (p + 20) c.unknown1.toNat ∧
    U16BeAt d (p + 24) c.orderFirst.toNat ∧ U16BeAt d (p + 26) c.orderLast.toNat ∧
    ByteAt d (p + 28) (cueTypeNumber c.cueType) ∧ ByteAt d (p + 29) c.unknown2 ∧
    U16BeAt d (p + 30) c.unknown3.toNat ∧ U32BeAt d (p + 32) c.time.toNat ∧
    U32BeAt d (p + 36) c.loopTime.toNat ∧ U32BeAt d (p + 40) c.unknown4.toNat ∧
    U32BeAt d (p + 44) c.unknown5.toNat ∧ U32BeAt d (p + 48) c.unknown6.toNat ∧
    U32BeAt d (p + 52) c.unknown7.toNat := by
  simp only [Cue.enc, HasAt.append_iff, encU32be_length, encU16be_length, encU8_length, Header.enc_length,
    CueType.enc_length] at h
  obtain ⟨h0, h1, h2, h3, h4, h5, h6, h7, h8, h9, h10, h11, h12, h13, h14⟩ := h
  have hh := Header.headerAt h0
  exact ⟨hh.kind, hh.size, hh.totalSize, .of_hasAt h1, .of_hasAt h2, .of_hasAt h3, .of_hasAt h4, .of_hasAt h5,
    cueType_at h6, .of_hasAt h7, .of_hasAt h8, .of_hasAt h9, .of_hasAt h10, .of_hasAt h11, .of_hasAt h12,
    .of_hasAt h13, .of_hasAt h14⟩

/-- C64: cue lists. -/
theorem cue_list_layout {s : AnlzSection} {c : CueList} (hc : s.content = .cueList c)
    (hn : c.cues.length < 2 ^ 16) {bs : Bytes} (h : s.enc = .ok bs) {d : Bytes} {p : Nat} (hd : HasAt d p bs) :
    U32BeAt d (p + 12) (listTypeNumber c.listType) ∧ U16BeAt d (p + 16) c.unknown.toNat ∧
    U16BeAt d (p + 18) c.cues.length ∧ U32BeAt d (p + 20) c.memoryCount.toNat ∧
    ∀ i x, c.cues[i]? = some x → HasAt d (p + 24 + 56 * i) x.enc := by
  obtain ⟨_, cb, he, hb⟩ := section_parts h hd
  rw [hc] at he
  injection he with he
  rw [← he] at hb
  simp only [CueList.enc, HasAt.append_iff, encU32be_length, encU16be_length, CueListType.enc_length] at hb
  obtain ⟨h1, h2, h3, h4, h5⟩ := hb
  have h3 := U16BeAt.of_hasAt h3
  rw [toNat_ofNat16 hn] at h3
  exact ⟨listType_at h1, .of_hasAt h2, h3, .of_hasAt h4, fun i x hi => hasAt_flatMap_const Cue.enc_length h5 hi⟩

/-- The number that stands for a color in a file. -/
def colorNumber : ColorIndex → UInt8
  | .none => 0
  | .pink => 1
  | .red => 2
  | .orange => 3
  | .yellow => 4
  | .green => 5
  | .aqua => 6
  | .blue => 7
  | .purple => 8

theorem color_at {d : Bytes} {p : Nat} {c : ColorIndex} (h : HasAt d p c.enc) : ByteAt d p (colorNumber c) := by
  have : HasAt d p (encU8 (colorNumber c)) := by cases c <;> exact h
  exact ByteAt.of_hasAt this

/-- C64: the fields of an extended cue; those behind the comment move with its length `n`. -/
theorem extended_cue_layout {c : ExtendedCue} {bs : Bytes} (h : c.enc = .ok bs)
    (hs : c.comment.byteCount < 2 ^ 32) {d : Bytes} {p : Nat} (hd : HasAt d p bs) :
    HasAt d p c.header.kind.enc ∧ U32BeAt d (p + 4) c.header.size.toNat ∧
    U32BeAt d (p + 8) c.header.totalSize.toNat ∧ U32BeAt d (p + 12) c.hotCue.toNat ∧
    ByteAt d (p + 16) (cueTypeNumber c.cueType) ∧ ByteAt d (p + 17) c.unknown1 ∧
    U16BeAt d (p + 18) c.unknown2.toNat ∧ U32BeAt d (p + 20) c.time.toNat ∧
    U32BeAt d (p + 24) c.loopTime.toNat ∧ ByteAt d (p + 28) (colorNumber c.color) ∧
    ByteAt d (p + 29) c.unknown3 ∧ U16BeAt d (p + 30) c.unknown4.toNat ∧ U32BeAt d (p + 32) c.unknown5.toNat ∧
    U16BeAt d (p + 36) c.loopNumerator.toNat ∧ U16BeAt d (p + 38) c.loopDenominator.toNat ∧
    ∃ n, n = c.comment.byteCount ∧ U32BeAt d (p + 40) n ∧
      (∀ i u, (encodeUtf16 c.comment.val)[i]? = some u → U16BeAt d (p + 44 + 2 * i) u.toNat) ∧
      ByteAt d (p + 44 + n) c.hotCueColorIndex ∧ ByteAt d (p + 45 + n) c.red ∧ ByteAt d (p + 46 + n) c.green ∧
      ByteAt d (p + 47 + n) c.blue ∧ U32BeAt d (p + 48 + n) c.unknown6.toNat ∧
      U32BeAt d (p + 52 + n) c.unknown7.toNat ∧ U32BeAt d (p + 56 + n) c.unknown8.toNat ∧
      U32BeAt d (p + 60 + n) c.unknown9.toNat ∧ U32BeAt d (p + 64 + n) c.unknown10.toNat ∧
      HasAt d (p + 68 + n) c.trailing := by
  rw [c.enc_eq hs] at h
  injection h with h
  rw [← h] at hd
  have hl := c.comment.canonical_length
  simp only [ExtendedCue.bytesWith, ExtendedCue.front, ExtendedCue.back, HasAt.append_iff, List.length_append,
    encU32be_length, encU16be_length, encU8_length, Header.enc_length, CueType.enc_length, ColorIndex.enc_length,
    hl] at hd
  obtain ⟨⟨h0, h1, h2, h3, h4, h5, h6, h7, h8, h9, h10, h11, h12⟩, ⟨h13, h14⟩, h15, h16, h17, h18, h19, h20, h21,
    h22, h23, h24⟩ := hd
  have hh := Header.headerAt h0
  have h13' := U32BeAt.of_hasAt h13
  rw [toNat_ofNat32 hs] at h13'
  refine ⟨hh.kind, hh.size, hh.totalSize, .of_hasAt h1, cueType_at h2, .of_hasAt h3, .of_hasAt h4, .of_hasAt h5,
    .of_hasAt h6, color_at h7, .of_hasAt h8, .of_hasAt h9, .of_hasAt h10, .of_hasAt h11, .of_hasAt h12,
    _, rfl, h13', ?_, ?_⟩
  · intro i u hu
    have he : c.comment.val ≠ "" := by
      intro hc; rw [hc] at hu; cases hu
    unfold WideString.canonical at h14
    rw [if_neg he, HasAt.append_iff] at h14
    exact .of_hasAt (hasAt_flatMap_const encU16be_length h14.1 hu)
  · generalize c.comment.byteCount = n at *
    refine ⟨?_, ?_, ?_, ?_, ?_, ?_, ?_, ?_, ?_, ?_⟩
    · exact .of_hasAt (HasAt.move h15 (by omega))
    · exact .of_hasAt (HasAt.move h16 (by omega))
    · exact .of_hasAt (HasAt.move h17 (by omega))
    · exact .of_hasAt (HasAt.move h18 (by omega))
    · exact .of_hasAt (HasAt.move h19 (by omega))
    · exact .of_hasAt (HasAt.move h20 (by omega))
    · exact .of_hasAt (HasAt.move h21 (by omega))
    · exact .of_hasAt (HasAt.move h22 (by omega))
    · exact .of_hasAt (HasAt.move h23 (by omega))
    · exact HasAt.move h24 (by omega)

/-- C64: extended cue lists: each cue behind the one before. -/
theorem extended_cue_list_layout {s : AnlzSection} {c : ExtendedCueList} (hc : s.content = .extendedCueList c)
    (hn : c.cues.length < 2 ^ 16) (hs : ∀ x ∈ c.cues, x.comment.byteCount < 2 ^ 32) {bs : Bytes}
    (h : s.enc = .ok bs) {d : Bytes} {p : Nat} (hd : HasAt d p bs) :
    U32BeAt d (p + 12) (listTypeNumber c.listType) ∧ U16BeAt d (p + 16) c.cues.length ∧
    U16BeAt d (p + 18) c.unknown.toNat ∧
    ∀ i x, c.cues[i]? = some x → ∃ xb, x.enc = .ok xb ∧
      HasAt d (p + 20 + ((c.cues.take i).map ExtendedCue.byteCount).sum) xb := by
  obtain ⟨_, cb, he, hb⟩ := section_parts h hd
  rw [hc] at he
  obtain ⟨cs, hcs, he⟩ := Res.bind_eq_ok.1 (show c.enc = .ok cb from he)
  injection he with he
  rw [← he] at hb
  simp only [HasAt.append_iff, encU16be_length, CueListType.enc_length] at hb
  obtain ⟨h1, h2, h3, h4⟩ := hb
  have h2 := U16BeAt.of_hasAt h2
  rw [toNat_ofNat16 hn] at h2
  refine ⟨listType_at h1, h2, .of_hasAt h3, ?_⟩
  have h5 : HasAt d (p + 20) cs := h4
  clear h1 h2 h3 h4 hd h he hc hn
  generalize c.cues = l at hs hcs ⊢
  generalize p + 20 = q at h5
  induction l generalizing cs q with
  | nil => intro i x hi; simp at hi
  | cons y l ih =>
    unfold encAll at hcs
    obtain ⟨yb, hy, hcs⟩ := Res.bind_eq_ok.1 hcs
    obtain ⟨rest, hr, hcs⟩ := Res.bind_eq_ok.1 hcs
    injection hcs with hcs
    have hlen : yb.length = y.byteCount := by
      have := y.enc_eq (hs y (List.mem_cons_self ..))
      rw [hy] at this
      injection this with this
      rw [this, ExtendedCue.bytesWith_length, WideString.canonical_length]
      rfl
    rw [← hcs, HasAt.append_iff, hlen] at h5
    intro i x hi
    cases i with
    | zero =>
      simp at hi; subst hi
      exact ⟨yb, hy, by simpa using h5.1⟩
    | succ i =>
      obtain ⟨xb, h6, h7⟩ := ih (cs := rest) (q := q + y.byteCount) (hs := fun z hz => hs z (List.mem_cons_of_mem _ hz)) (hcs := hr) (h5 := h5.2) i x
        (by simpa using hi)
      refine ⟨xb, h6, HasAt.move h7 ?_⟩
      simp; omega

/-- C64: paths: the number of bytes, then UTF-16 with a terminator. -/
theorem path_layout {s : AnlzSection} {c : Path} (hc : s.content = .path c)
    (hn : 2 * (c.path.length + 1) < 2 ^ 32) {bs : Bytes} (h : s.enc = .ok bs) {d : Bytes} {p : Nat}
    (hd : HasAt d p bs) :
    U32BeAt d (p + 12) (2 * (c.path.length + 1)) ∧
    (∀ i u, c.path[i]? = some u → U16BeAt d (p + 16 + 2 * i) u.toNat) ∧
    U16BeAt d (p + 16 + 2 * c.path.length) 0 := by
  obtain ⟨_, cb, he, hb⟩ := section_parts h hd
  rw [hc] at he
  rw [show Content.enc (.path c) = c.enc from rfl, Path.enc_eq hn] at he
  injection he with he
  rw [← he] at hb
  simp only [encWideUnits, HasAt.append_iff, encU32be_length] at hb
  obtain ⟨h1, h2, h3⟩ := hb
  have h1 := U32BeAt.of_hasAt h1
  rw [toNat_ofNat32 hn] at h1
  refine ⟨h1, fun i u hu => .of_hasAt (hasAt_flatMap_const encU16be_length h2 hu), ?_⟩
  rw [flatMap_encU16be_length] at h3
  exact .of_hasAt h3

/-- C64: VBR sections. -/
theorem vbr_layout {s : AnlzSection} {c : Vbr} (hc : s.content = .vbr c) {bs : Bytes} (h : s.enc = .ok bs)
    {d : Bytes} {p : Nat} (hd : HasAt d p bs) :
    U32BeAt d (p + 12) c.unknown1.toNat ∧ ∀ i b, c.unknown2[i]? = some b → ByteAt d (p + 16 + i) b := by
  obtain ⟨_, cb, he, hb⟩ := section_parts h hd
  rw [hc] at he
  injection he with he
  rw [← he] at hb
  simp only [Vbr.enc, HasAt.append_iff, encU32be_length] at hb
  refine ⟨.of_hasAt hb.1, fun i b hi => ?_⟩
  obtain ⟨hl, _⟩ := List.getElem?_eq_some_iff.1 hi
  exact (hb.2 i hl).trans hi

/-- C64: unknown sections. -/
theorem unknown_layout {s : AnlzSection} {c : Unknown} (hc : s.content = .unknown c) {bs : Bytes}
    (h : s.enc = .ok bs) {d : Bytes} {p : Nat} (hd : HasAt d p bs) :
    HasAt d (p + 12) c.headerData ∧ HasAt d (p + 12 + c.headerData.length) c.contentData := by
  obtain ⟨_, cb, he, hb⟩ := section_parts h hd
  rw [hc] at he
  injection he with he
  rw [← he, Unknown.enc, HasAt.append_iff] at hb
  exact hb

/-- C64: `WaveformPreview` sections. -/
theorem waveform_preview_layout {s : AnlzSection} {c : WaveformPreview} (hc : s.content = .waveformPreview c)
    (hn : c.data.length < 2 ^ 32) {bs : Bytes} (h : s.enc = .ok bs) {d : Bytes} {p : Nat} (hd : HasAt d p bs) :
    U32BeAt d (p + 12) c.data.length ∧ U32BeAt d (p + 16) c.unknown.toNat ∧
    ∀ i x, c.data[i]? = some x → HasAt d (p + 20 + 1 * i) x.enc := by
  obtain ⟨_, cb, he, hb⟩ := section_parts h hd
  rw [hc] at he
  injection he with he
  rw [← he] at hb
  simp only [WaveformPreview.enc, HasAt.append_iff, encU32be_length] at hb
  obtain ⟨h1, h2, h3⟩ := hb
  have h1 := U32BeAt.of_hasAt h1
  rw [toNat_ofNat32 hn] at h1
  exact ⟨h1, .of_hasAt h2, fun i x hi => hasAt_flatMap_const WaveformPreviewColumn.enc_length h3 hi⟩

/-- C64: `TinyWaveformPreview` sections. -/
theorem tiny_waveform_preview_layout {s : AnlzSection} {c : TinyWaveformPreview} (hc : s.content = .tinyWaveformPreview c)
    (hn : c.data.length < 2 ^ 32) {bs : Bytes} (h : s.enc = .ok bs) {d : Bytes} {p : Nat} (hd : HasAt d p bs) :
    U32BeAt d (p + 12) c.data.length ∧ U32BeAt d (p + 16) c.unknown.toNat ∧
    ∀ i x, c.data[i]? = some x → HasAt d (p + 20 + 1 * i) x.enc := by
  obtain ⟨_, cb, he, hb⟩ := section_parts h hd
  rw [hc] at he
  injection he with he
  rw [← he] at hb
  simp only [TinyWaveformPreview.enc, HasAt.append_iff, encU32be_length] at hb
  obtain ⟨h1, h2, h3⟩ := hb
  have h1 := U32BeAt.of_hasAt h1
  rw [toNat_ofNat32 hn] at h1
  exact ⟨h1, .of_hasAt h2, fun i x hi => hasAt_flatMap_const TinyWaveformPreviewColumn.enc_length h3 hi⟩

/-- C64: `WaveformDetail` sections. -/
theorem waveform_detail_layout {s : AnlzSection} {c : WaveformDetail} (hc : s.content = .waveformDetail c)
    (hn : c.data.length < 2 ^ 32) {bs : Bytes} (h : s.enc = .ok bs) {d : Bytes} {p : Nat} (hd : HasAt d p bs) :
    U32BeAt d (p + 12) 1 ∧ U32BeAt d (p + 16) c.data.length ∧ U32BeAt d (p + 20) c.unknown.toNat ∧
    ∀ i x, c.data[i]? = some x → HasAt d (p + 24 + 1 * i) x.enc := by
  obtain ⟨_, cb, he, hb⟩ := section_parts h hd
  rw [hc] at he
  injection he with he
  rw [← he] at hb
  simp only [WaveformDetail.enc, HasAt.append_iff, encU32be_length] at hb
  obtain ⟨h0, h1, h2, h3⟩ := hb
  have h1 := U32BeAt.of_hasAt h1
  rw [toNat_ofNat32 hn] at h1
  exact ⟨.of_hasAt h0, h1, .of_hasAt h2, fun i x hi => hasAt_flatMap_const WaveformPreviewColumn.enc_length h3 hi⟩

/-- C64: `WaveformColorPreview` sections. -/
theorem waveform_color_preview_layout {s : AnlzSection} {c : WaveformColorPreview} (hc : s.content = .waveformColorPreview c)
    (hn : c.data.length < 2 ^ 32) {bs : Bytes} (h : s.enc = .ok bs) {d : Bytes} {p : Nat} (hd : HasAt d p bs) :
    U32BeAt d (p + 12) 6 ∧ U32BeAt d (p + 16) c.data.length ∧ U32BeAt d (p + 20) c.unknown.toNat ∧
    ∀ i x, c.data[i]? = some x → HasAt d (p + 24 + 6 * i) x.enc := by
  obtain ⟨_, cb, he, hb⟩ := section_parts h hd
  rw [hc] at he
  injection he with he
  rw [← he] at hb
  simp only [WaveformColorPreview.enc, HasAt.append_iff, encU32be_length] at hb
  obtain ⟨h0, h1, h2, h3⟩ := hb
  have h1 := U32BeAt.of_hasAt h1
  rw [toNat_ofNat32 hn] at h1
  exact ⟨.of_hasAt h0, h1, .of_hasAt h2, fun i x hi => hasAt_flatMap_const WaveformColorPreviewColumn.enc_length h3 hi⟩

/-- C64: `WaveformColorDetail` sections. -/
theorem waveform_color_detail_layout {s : AnlzSection} {c : WaveformColorDetail} (hc : s.content = .waveformColorDetail c)
    (hn : c.data.length < 2 ^ 32) {bs : Bytes} (h : s.enc = .ok bs) {d : Bytes} {p : Nat} (hd : HasAt d p bs) :
    U32BeAt d (p + 12) 2 ∧ U32BeAt d (p + 16) c.data.length ∧ U32BeAt d (p + 20) c.unknown.toNat ∧
    ∀ i x, c.data[i]? = some x → HasAt d (p + 24 + 2 * i) x.enc := by
  obtain ⟨_, cb, he, hb⟩ := section_parts h hd
  rw [hc] at he
  injection he with he
  rw [← he] at hb
  simp only [WaveformColorDetail.enc, HasAt.append_iff, encU32be_length] at hb
  obtain ⟨h0, h1, h2, h3⟩ := hb
  have h1 := U32BeAt.of_hasAt h1
  rw [toNat_ofNat32 hn] at h1
  exact ⟨.of_hasAt h0, h1, .of_hasAt h2, fun i x hi => hasAt_flatMap_const WaveformColorDetailColumn.enc_length h3 hi⟩

/-- C64: `Waveform3BandPreview` sections. -/
theorem waveform_3band_preview_layout {s : AnlzSection} {c : Waveform3BandPreview} (hc : s.content = .waveform3BandPreview c)
    (hn : c.data.length < 2 ^ 32) {bs : Bytes} (h : s.enc = .ok bs) {d : Bytes} {p : Nat} (hd : HasAt d p bs) :
    U32BeAt d (p + 12) 3 ∧ U32BeAt d (p + 16) c.data.length ∧
    ∀ i x, c.data[i]? = some x → HasAt d (p + 20 + 3 * i) x.enc := by
  obtain ⟨_, cb, he, hb⟩ := section_parts h hd
  rw [hc] at he
  injection he with he
  rw [← he] at hb
  simp only [Waveform3BandPreview.enc, HasAt.append_iff, encU32be_length] at hb
  obtain ⟨h0, h1, h3⟩ := hb
  have h1 := U32BeAt.of_hasAt h1
  rw [toNat_ofNat32 hn] at h1
  exact ⟨.of_hasAt h0, h1, fun i x hi => hasAt_flatMap_const Waveform3BandPreviewColumn.enc_length h3 hi⟩

/-- C64: `Waveform3BandDetail` sections. -/
theorem waveform_3band_detail_layout {s : AnlzSection} {c : Waveform3BandDetail} (hc : s.content = .waveform3BandDetail c)
    (hn : c.data.length < 2 ^ 32) {bs : Bytes} (h : s.enc = .ok bs) {d : Bytes} {p : Nat} (hd : HasAt d p bs) :
    U32BeAt d (p + 12) 3 ∧ U32BeAt d (p + 16) c.data.length ∧ U32BeAt d (p + 20) c.unknown.toNat ∧
    ∀ i x, c.data[i]? = some x → HasAt d (p + 24 + 3 * i) x.enc := by
  obtain ⟨_, cb, he, hb⟩ := section_parts h hd
  rw [hc] at he
  injection he with he
  rw [← he] at hb
  simp only [Waveform3BandDetail.enc, HasAt.append_iff, encU32be_length] at hb
  obtain ⟨h0, h1, h2, h3⟩ := hb
  have h1 := U32BeAt.of_hasAt h1
  rw [toNat_ofNat32 hn] at h1
  exact ⟨.of_hasAt h0, h1, .of_hasAt h2, fun i x hi => hasAt_flatMap_const Waveform3BandDetailColumn.enc_length h3 hi⟩

/-- The number that stands for a mood in a file. -/
def moodNumber : Mood → Nat
  | .high => 1
  | .mid => 2
  | .low => 3

/-- The number that stands for a bank in a file. -/
def bankNumber : Bank → UInt8
  | .default => 0
  | .cool => 1
  | .natural => 2
  | .hot => 3
  | .subtle => 4
  | .warm => 5
  | .vivid => 6
  | .club1 => 7
  | .club2 => 8

/-- C64: the fields of a phrase, 24 bytes. -/
theorem phrase_layout {x : Phrase} {d : Bytes} {p : Nat} (h : HasAt d p x.enc) :
    U16BeAt d p x.index.toNat ∧ U16BeAt d (p + 2) x.beat.toNat ∧ U16BeAt d (p + 4) x.kind.toNat ∧
    ByteAt d (p + 6) x.unknown1 ∧ ByteAt d (p + 7) x.k1 ∧ ByteAt d (p + 8) x.unknown2 ∧ ByteAt d (p + 9) x.k2 ∧
    ByteAt d (p + 10) x.unknown3 ∧ ByteAt d (p + 11) x.b ∧ U16BeAt d (p + 12) x.beat2.toNat ∧
    U16BeAt d (p + 14) x.beat3.toNat ∧ U16BeAt d (p + 16) x.beat4.toNat ∧ ByteAt d (p + 18) x.unknown4 ∧
    ByteAt d (p + 19) x.k3 ∧ ByteAt d (p + 20) x.unknown5 ∧ ByteAt d (p + 21) x.fill ∧
    U16BeAt d (p + 22) x.beatFill.toNat := by
  simp only [Phrase.enc, HasAt.append_iff, encU16be_length, encU8_length] at h
  obtain ⟨h0, h1, h2, h3, h4, h5, h6, h7, h8, h9, h10, h11, h12, h13, h14, h15, h16⟩ := h
  exact ⟨.of_hasAt h0, .of_hasAt h1, .of_hasAt h2, .of_hasAt h3, .of_hasAt h4, .of_hasAt h5, .of_hasAt h6,
    .of_hasAt h7, .of_hasAt h8, .of_hasAt h9, .of_hasAt h10, .of_hasAt h11, .of_hasAt h12, .of_hasAt h13,
    .of_hasAt h14, .of_hasAt h15, .of_hasAt h16⟩

/-- C64: the data of a song structure (what is stored if it is not encrypted; what is stored otherwise is
described by `song_structure_roundtrip_partial`). -/
theorem song_data_layout {c : SongStructureData} {d : Bytes} {p : Nat} (h : HasAt d p c.enc) :
    U16BeAt d p (moodNumber c.mood) ∧ U32BeAt d (p + 2) c.unknown1.toNat ∧ U16BeAt d (p + 6) c.unknown2.toNat ∧
    U16BeAt d (p + 8) c.endBeat.toNat ∧ U16BeAt d (p + 10) c.unknown3.toNat ∧
    ByteAt d (p + 12) (bankNumber c.bank) ∧ ByteAt d (p + 13) c.unknown4 ∧
    ∀ i x, c.phrases[i]? = some x → HasAt d (p + 14 + 24 * i) x.enc := by
  simp only [SongStructureData.enc, HasAt.append_iff, encU32be_length, encU16be_length, encU8_length,
    Mood.enc_length, Bank.enc_length] at h
  obtain ⟨h0, h1, h2, h3, h4, h5, h6, h7⟩ := h
  refine ⟨?_, .of_hasAt h1, .of_hasAt h2, .of_hasAt h3, .of_hasAt h4, ?_, .of_hasAt h6,
    fun i x hi => hasAt_flatMap_const Phrase.enc_length h7 hi⟩
  · have := U16BeAt.of_hasAt h0
    cases hm : c.mood <;> rw [hm] at this <;> exact this
  · have := ByteAt.of_hasAt h5
    cases hm : c.bank <;> rw [hm] at this <;> exact this

/-- C64: song structures that are not encrypted: 24, the number of phrases, the data. -/
theorem plain_song_structure_layout {s : AnlzSection} {c : SongStructure} (hc : s.content = .songStructure c)
    (hn : c.data.phrases.length < 2 ^ 16) (hp : c.isEncrypted = false) {bs : Bytes} (h : s.enc = .ok bs) {d : Bytes}
    {p : Nat} (hd : HasAt d p bs) :
    U32BeAt d (p + 12) 24 ∧ U16BeAt d (p + 16) c.data.phrases.length ∧ HasAt d (p + 18) c.data.enc := by
  obtain ⟨_, cb, he, hb⟩ := section_parts h hd
  rw [hc] at he
  have he : c.enc = .ok cb := he
  unfold SongStructure.enc SongStructureData.encEncrypted at he
  simp only [hp, Bool.false_eq_true, if_false, Res.ok_bind] at he
  injection he with he
  rw [← he] at hb
  simp only [HasAt.append_iff, encU32be_length, encU16be_length] at hb
  have h1 := U16BeAt.of_hasAt hb.2.1
  rw [toNat_ofNat16 hn] at h1
  exact ⟨.of_hasAt hb.1, h1, hb.2.2⟩

/-- C64: a file is its header, the header data, and the sections one behind the other. -/
theorem anlz_file_layout {a : AnlzFile} {bs : Bytes} (h : a.enc = .ok bs) {d : Bytes} {p : Nat} (hd : HasAt d p bs) :
    HasAt d p a.header.kind.enc ∧ U32BeAt d (p + 4) a.header.size.toNat ∧
    U32BeAt d (p + 8) a.header.totalSize.toNat ∧ HasAt d (p + 12) a.headerData ∧
    ∀ i s, a.sections[i]? = some s → ∃ q sb, s.enc = .ok sb ∧ HasAt d q sb ∧
      (i = 0 → q = p + 12 + a.headerData.length) ∧
      ∀ s', a.sections[i + 1]? = some s' → ∃ sb', s'.enc = .ok sb' ∧ HasAt d (q + sb.length) sb' := by
  obtain ⟨ss, hs, h⟩ := Res.bind_eq_ok.1 (show (encAll AnlzSection.enc a.sections >>= _) = .ok bs from h)
  injection h with h
  rw [← h, HasAt.append_iff, HasAt.append_iff, Header.enc_length] at hd
  obtain ⟨h0, h1, h2⟩ := hd
  have hh := Header.headerAt h0
  refine ⟨hh.kind, hh.size, hh.totalSize, h1, ?_⟩
  clear h0 h1 hh h
  generalize p + 12 + a.headerData.length = q at h2
  generalize a.sections = l at hs
  induction l generalizing ss q with
  | nil => intro i s hi; simp at hi
  | cons y l ih =>
    unfold encAll at hs
    obtain ⟨yb, hy, hs⟩ := Res.bind_eq_ok.1 hs
    obtain ⟨rest, hr, hs⟩ := Res.bind_eq_ok.1 hs
    injection hs with hs
    rw [← hs, HasAt.append_iff] at h2
    intro i s hi
    cases i with
    | zero =>
      simp at hi; subst hi
      refine ⟨q, yb, hy, h2.1, fun _ => rfl, ?_⟩
      intro s' hs'
      simp only [Nat.zero_add, List.getElem?_cons_succ] at hs'
      obtain ⟨q', sb', h3, h4, h5, _⟩ := ih (ss := rest) (q := q + yb.length) (hs := hr) (h2 := h2.2) 0 s' hs'
      rw [h5 rfl] at h4
      exact ⟨sb', h3, h4⟩
    | succ i =>
      obtain ⟨q', sb', h3, h4, _, h6⟩ := ih (ss := rest) (q := q + yb.length) (hs := hr) (h2 := h2.2) i s (by simpa using hi)
      exact ⟨q', sb', h3, h4, fun hc => absurd hc (Nat.succ_ne_zero _), fun s' hs' => h6 s' (by simpa using hs')⟩

/-- The example file of `Verif.Props.Anlz` can be written, so the theorems above apply to its sections. -/
example : ∃ bs, exampleFile.enc = .ok bs ∧ HasAt bs 0 bs :=
  ⟨_, exampleFile_consistent.enc_eq, hasAt_self _⟩

end Rekordcrate.Anlz
