import Verif.Lemmas.AnlzContent

/-! # Lemmas on analysis sections -/

namespace Rekordcrate.Anlz
open Rd

/-! ## Choosing the variant -/

theorem variant_rt {α : Type} {r : Rd α} {f : α → Content} {bs : Bytes} {a : α} {g : Bool} (hg : g = true)
    (h : RT r bs a) : RT (Content.variant g r f) bs (f a) :=
  RT.check hg (RT.bind_pure h)

theorem variant_inv {α : Type} {r : Rd α} {f : α → Content} {g : Bool} {φ : α → Bytes → Prop}
    {ψ : Content → Bytes → Prop} (h : Inv r φ) (hψ : ∀ a bs, g = true → φ a bs → ψ (f a) bs) :
    Inv (Content.variant g r f) ψ := by
  refine Inv.check fun hg => ?_
  refine Inv.bind h ?_
  intro a bs ha
  refine (Inv.pure _).mono ?_
  rintro _ _ ⟨rfl, rfl⟩
  rw [List.append_nil]
  exact hψ a bs hg ha

theorem RT.skip {α : Type} {r : Rd α} {f : α → Content} {s : Rd Content} {bs : Bytes} {c : Content} {g : Bool}
    (hg : g = false) (h : RT s bs c) : RT ((Content.variant g r f).orElse s) bs c := by
  refine RT.orElse_right (fun d p _ => ⟨.assertFail, ?_⟩) h
  subst hg; rfl

/-- What the reader of a content guarantees. -/
def Content.ReadInv (h : Header) : Content → Bytes → Prop
  | .extendedCueList c, bs => h.kind = .extendedCueList ∧ c.cues.length < 2 ^ 16 ∧ c.unknown = 0 ∧
      (∀ x ∈ c.cues, x.Readable) ∧ (Content.extendedCueList c).HeldBy bs
  | .path c, bs => h.kind = .path ∧ (0 : UInt16) ∉ c.path ∧ c.enc = .ok bs ∧
      ∃ n, c.lenPath = .ok n ∧ h.totalSize.toNat = h.size.toNat + n
  | .unknown c, bs => h.kind.isUnknown = true ∧ bs = c.enc ∧ h.size.toNat = 12 + c.headerData.length ∧
      h.totalSize.toNat = h.size.toNat + c.contentData.length
  | c, bs => c.enc = .ok bs ∧ c.Consistent h

theorem Content.read_inv (h : Header) : Inv (Content.read h) (Content.ReadInv h) := by
  unfold Content.read
  refine Inv.orElse (variant_inv BeatGrid.inv ?_) ?_
  · rintro a bs hg ⟨rfl, hl⟩; simp only [beq_iff_eq] at hg; exact ⟨rfl, hg, hl⟩
  refine Inv.orElse (variant_inv CueList.inv ?_) ?_
  · rintro a bs hg ⟨rfl, hl⟩; simp only [beq_iff_eq] at hg; exact ⟨rfl, hg, hl⟩
  refine Inv.orElse (variant_inv ExtendedCueList.inv ?_) ?_
  · rintro a bs hg ⟨h1, h2, h3, h4⟩; simp only [beq_iff_eq] at hg; exact ⟨hg, h1, h2, h3, h4⟩
  refine Inv.orElse (variant_inv (Path.inv h) ?_) ?_
  · rintro a bs hg ⟨h1, h2, h3⟩; simp only [beq_iff_eq] at hg; exact ⟨hg, h1, h2, h3⟩
  refine Inv.orElse (variant_inv (Vbr.inv h) ?_) ?_
  · rintro a bs hg ⟨rfl, hl⟩; simp only [beq_iff_eq] at hg; exact ⟨rfl, hg, hl⟩
  refine Inv.orElse (variant_inv (WaveformPreview.inv h) ?_) ?_
  · rintro a bs hg ⟨rfl, hl⟩; simp only [beq_iff_eq] at hg; exact ⟨rfl, hg, hl⟩
  refine Inv.orElse (variant_inv (TinyWaveformPreview.inv h) ?_) ?_
  · rintro a bs hg ⟨rfl, hl⟩; simp only [beq_iff_eq] at hg; exact ⟨rfl, hg, hl⟩
  refine Inv.orElse (variant_inv (WaveformDetail.inv h) ?_) ?_
  · rintro a bs hg ⟨rfl, hl⟩; simp only [beq_iff_eq] at hg; exact ⟨rfl, hg, hl⟩
  refine Inv.orElse (variant_inv (WaveformColorPreview.inv h) ?_) ?_
  · rintro a bs hg ⟨rfl, hl⟩; simp only [beq_iff_eq] at hg; exact ⟨rfl, hg, hl⟩
  refine Inv.orElse (variant_inv (WaveformColorDetail.inv h) ?_) ?_
  · rintro a bs hg ⟨rfl, hl⟩; simp only [beq_iff_eq] at hg; exact ⟨rfl, hg, hl⟩
  refine Inv.orElse (variant_inv (Waveform3BandPreview.inv h) ?_) ?_
  · rintro a bs hg ⟨rfl, hl⟩; simp only [beq_iff_eq] at hg; exact ⟨rfl, hg, hl⟩
  refine Inv.orElse (variant_inv (Waveform3BandDetail.inv h) ?_) ?_
  · rintro a bs hg ⟨rfl, hl⟩; simp only [beq_iff_eq] at hg; exact ⟨rfl, hg, hl⟩
  refine Inv.orElse (variant_inv (SongStructure.inv h) ?_) ?_
  · rintro a bs hg ⟨h1, h2, h3⟩; simp only [beq_iff_eq] at hg; exact ⟨h1, hg, h3, h2⟩
  refine variant_inv (Unknown.inv h) ?_
  rintro a bs hg ⟨rfl, h1, h2⟩; exact ⟨hg, rfl, h1, h2⟩

theorem Content.ReadInv.heldBy {h : Header} {c : Content} {bs : Bytes} (hr : c.ReadInv h bs) : c.HeldBy bs := by
  cases c <;> first
    | exact hr.1
    | exact hr.2.2.2.2
    | exact hr.2.2.1
    | (rw [hr.2.1]; rfl)

/-- The bytes that the writer produces for a consistent content. -/
def Content.bytes : Content → Bytes
  | .beatGrid c => c.enc
  | .cueList c => c.enc
  | .extendedCueList c => c.bytesWith (c.cues.flatMap fun x => x.bytesWith x.comment.canonical)
  | .path c => encU32be (UInt32.ofNat (2 * (c.path.length + 1))) ++ encWideUnits c.path
  | .vbr c => c.enc
  | .waveformPreview c => c.enc
  | .tinyWaveformPreview c => c.enc
  | .waveformDetail c => c.enc
  | .waveformColorPreview c => c.enc
  | .waveformColorDetail c => c.enc
  | .waveform3BandPreview c => c.enc
  | .waveform3BandDetail c => c.enc
  | .songStructure c => encU32be 24 ++ (encU16be (UInt16.ofNat c.data.phrases.length) ++ c.dataBytes)
  | .unknown c => c.enc

theorem Content.Consistent.enc_eq {h : Header} {c : Content} (hc : c.Consistent h) : c.enc = .ok c.bytes := by
  cases c <;> try rfl
  · refine ExtendedCueList.enc_eq fun x hx => ?_
    have := (hc.2.2.2 x hx).size
    omega
  · refine Path.enc_eq ?_
    have := h.totalSize.toNat_lt
    have := hc.2.2
    omega
  · exact SongStructure.enc_eq hc.2.2

theorem Content.Consistent.rt {h : Header} {c : Content} (hc : c.Consistent h) :
    RT (Content.read h) c.bytes c := by
  have hu : ∀ k : Kind, k.isUnknown = false → h.kind.isUnknown = true → (h.kind == k) = false := by
    intro k hk hh
    rw [beq_eq_false_iff_ne]
    rintro rfl
    rw [hk] at hh; cases hh
  unfold Content.read
  cases c with
  | beatGrid c =>
    obtain ⟨hk, h1⟩ := hc
    exact RT.orElse_left (variant_rt (by rw [hk]; rfl) (BeatGrid.rt h1))
  | cueList c =>
    obtain ⟨hk, h1, h2⟩ := hc
    iterate 1 refine RT.skip (by rw [hk]; rfl) ?_
    exact RT.orElse_left (variant_rt (by rw [hk]; rfl) (CueList.rt h1 h2))
  | extendedCueList c =>
    obtain ⟨hk, h1, h2, h3⟩ := hc
    iterate 2 refine RT.skip (by rw [hk]; rfl) ?_
    exact RT.orElse_left (variant_rt (by rw [hk]; rfl) (ExtendedCueList.rt h1 h2 h3))
  | path c =>
    obtain ⟨hk, h1, h2⟩ := hc
    iterate 3 refine RT.skip (by rw [hk]; rfl) ?_
    exact RT.orElse_left (variant_rt (by rw [hk]; rfl) (Path.rt h1 h2))
  | vbr c =>
    obtain ⟨hk, h1⟩ := hc
    iterate 4 refine RT.skip (by rw [hk]; rfl) ?_
    exact RT.orElse_left (variant_rt (by rw [hk]; rfl) (Vbr.rt h1))
  | waveformPreview c =>
    obtain ⟨hk, h1⟩ := hc
    iterate 5 refine RT.skip (by rw [hk]; rfl) ?_
    exact RT.orElse_left (variant_rt (by rw [hk]; rfl) (WaveformPreview.rt h1))
  | tinyWaveformPreview c =>
    obtain ⟨hk, h1⟩ := hc
    iterate 6 refine RT.skip (by rw [hk]; rfl) ?_
    exact RT.orElse_left (variant_rt (by rw [hk]; rfl) (TinyWaveformPreview.rt h1))
  | waveformDetail c =>
    obtain ⟨hk, h1, h2⟩ := hc
    iterate 7 refine RT.skip (by rw [hk]; rfl) ?_
    exact RT.orElse_left (variant_rt (by rw [hk]; rfl) (WaveformDetail.rt h1 h2))
  | waveformColorPreview c =>
    obtain ⟨hk, h1⟩ := hc
    iterate 8 refine RT.skip (by rw [hk]; rfl) ?_
    exact RT.orElse_left (variant_rt (by rw [hk]; rfl) (WaveformColorPreview.rt h1))
  | waveformColorDetail c =>
    obtain ⟨hk, h1⟩ := hc
    iterate 9 refine RT.skip (by rw [hk]; rfl) ?_
    exact RT.orElse_left (variant_rt (by rw [hk]; rfl) (WaveformColorDetail.rt h1))
  | waveform3BandPreview c =>
    obtain ⟨hk, h1⟩ := hc
    iterate 10 refine RT.skip (by rw [hk]; rfl) ?_
    exact RT.orElse_left (variant_rt (by rw [hk]; rfl) (Waveform3BandPreview.rt h1))
  | waveform3BandDetail c =>
    obtain ⟨hk, h1, h2⟩ := hc
    iterate 11 refine RT.skip (by rw [hk]; rfl) ?_
    exact RT.orElse_left (variant_rt (by rw [hk]; rfl) (Waveform3BandDetail.rt h1 h2))
  | songStructure c =>
    obtain ⟨hk, h1, h2⟩ := hc
    iterate 12 refine RT.skip (by rw [hk]; rfl) ?_
    exact RT.orElse_left (variant_rt (by rw [hk]; rfl) (SongStructure.rt h2 h1))
  | unknown c =>
    obtain ⟨hk, hp, h1, h2⟩ := hc
    iterate 13 refine RT.skip (hu _ rfl hk) ?_
    exact variant_rt hk (Unknown.rt h1 h2)

theorem Content.Consistent.proper {h : Header} {c : Content} (hc : c.Consistent h) : h.kind.Proper := by
  cases c <;> first
    | exact hc.2.1
    | (intro hu; rw [hc.1] at hu; cases hu)

theorem sum_map_length_flatMap {α : Type} (f : α → Bytes) (g : α → Nat) (l : List α)
    (h : ∀ a ∈ l, (f a).length = g a) : (l.flatMap f).length = (l.map g).sum := by
  induction l with
  | nil => rfl
  | cons a l ih =>
    rw [List.flatMap_cons, List.length_append, List.map_cons, List.sum_cons, h a (by simp),
      ih fun x hx => h x (by simp [hx])]

theorem ExtendedCue.bytesWith_canonical_length (c : ExtendedCue) :
    (c.bytesWith c.comment.canonical).length = c.byteCount := by
  rw [ExtendedCue.bytesWith_length, WideString.canonical_length]; rfl

theorem Content.bytes_length (c : Content) : c.bytes.length = c.byteCount := by
  cases c with
  | beatGrid c =>
    have := flatMap_length_const Beat.enc_length c.beats
    simp only [Content.bytes, BeatGrid.enc, Content.byteCount, List.length_append, this, encU32be_length]; omega
  | cueList c =>
    have := flatMap_length_const Cue.enc_length c.cues
    simp only [Content.bytes, CueList.enc, Content.byteCount, List.length_append, this, encU32be_length,
      encU16be_length, CueListType.enc_length]; omega
  | extendedCueList c =>
    have := sum_map_length_flatMap (fun x : ExtendedCue => x.bytesWith x.comment.canonical) ExtendedCue.byteCount
      c.cues fun x _ => x.bytesWith_canonical_length
    simp only [Content.bytes, ExtendedCueList.bytesWith, Content.byteCount, List.length_append, this,
      encU16be_length, CueListType.enc_length]; omega
  | path c =>
    simp only [Content.bytes, Content.byteCount, List.length_append, encWideUnits_length, encU32be_length]
  | vbr c =>
    simp only [Content.bytes, Vbr.enc, Content.byteCount, List.length_append, encU32be_length]
  | waveformPreview c =>
    have := flatMap_length_const WaveformPreviewColumn.enc_length c.data
    simp only [Content.bytes, WaveformPreview.enc, Content.byteCount, List.length_append, this, encU32be_length]
    omega
  | tinyWaveformPreview c =>
    have := flatMap_length_const TinyWaveformPreviewColumn.enc_length c.data
    simp only [Content.bytes, TinyWaveformPreview.enc, Content.byteCount, List.length_append, this, encU32be_length]
    omega
  | waveformDetail c =>
    have := flatMap_length_const WaveformPreviewColumn.enc_length c.data
    simp only [Content.bytes, WaveformDetail.enc, Content.byteCount, List.length_append, this, encU32be_length]
    omega
  | waveformColorPreview c =>
    have := flatMap_length_const WaveformColorPreviewColumn.enc_length c.data
    simp only [Content.bytes, WaveformColorPreview.enc, Content.byteCount, List.length_append, this, encU32be_length]
    omega
  | waveformColorDetail c =>
    have := flatMap_length_const WaveformColorDetailColumn.enc_length c.data
    simp only [Content.bytes, WaveformColorDetail.enc, Content.byteCount, List.length_append, this, encU32be_length]
    omega
  | waveform3BandPreview c =>
    have := flatMap_length_const Waveform3BandPreviewColumn.enc_length c.data
    simp only [Content.bytes, Waveform3BandPreview.enc, Content.byteCount, List.length_append, this, encU32be_length]
    omega
  | waveform3BandDetail c =>
    have := flatMap_length_const Waveform3BandDetailColumn.enc_length c.data
    simp only [Content.bytes, Waveform3BandDetail.enc, Content.byteCount, List.length_append, this, encU32be_length]
    omega
  | songStructure c =>
    simp only [Content.bytes, Content.byteCount, List.length_append, SongStructure.dataBytes_length,
      encU32be_length, encU16be_length]
    omega
  | unknown c =>
    simp only [Content.bytes, Unknown.enc, Content.byteCount, List.length_append]

/-! ## Sections -/

/-- The bytes that the writer produces for a consistent section. -/
def AnlzSection.bytes (s : AnlzSection) : Bytes := s.header.enc ++ s.content.bytes

theorem AnlzSection.bytes_length (s : AnlzSection) : s.bytes.length = s.byteCount := by
  rw [AnlzSection.bytes, List.length_append, Header.enc_length, Content.bytes_length]; rfl

theorem AnlzSection.Consistent.enc_eq {s : AnlzSection} (h : s.Consistent) : s.enc = .ok s.bytes := by
  unfold AnlzSection.enc
  rw [Content.Consistent.enc_eq h, Res.ok_bind]; rfl

theorem AnlzSection.Consistent.rt {s : AnlzSection} (h : s.Consistent) : RT AnlzSection.read s.bytes s :=
  RT.bind (Header.rt (Content.Consistent.proper h)) (RT.bind_pure (Content.Consistent.rt h))

theorem AnlzSection.read_inv : Inv AnlzSection.read (fun s bs => s.header.kind.Proper ∧
    ∃ cb, s.content.ReadInv s.header cb ∧ bs = s.header.enc ++ cb) := by
  unfold AnlzSection.read
  refine Inv.bind Header.inv ?_
  rintro h _ ⟨rfl, hk⟩
  refine Inv.bind (Content.read_inv h) ?_
  intro c cb hc
  refine (Inv.pure _).mono ?_
  rintro _ _ ⟨rfl, rfl⟩
  exact ⟨hk, cb, hc, by simp⟩

/-- Every section that is read takes at least the 12 bytes of its header. -/
theorem AnlzSection.read_progress {d : Bytes} {p : Nat} {s : AnlzSection} {q : Nat}
    (h : AnlzSection.read d p = .ok (s, q)) : p + 12 ≤ q := by
  obtain ⟨bs, _, hq, _, cb, _, rfl⟩ := AnlzSection.read_inv _ _ _ _ h
  rw [List.length_append, Header.enc_length] at hq
  omega

end Rekordcrate.Anlz
