import Verif.Props.AnlzPanic
import Verif.Lemmas.WrapRewrite
import Verif.Lemmas.RowAt
import Verif.Props.AnlzExact
import Verif.Props.PageAt
import Verif.Spec.AnlzAt

/-! # Which bytes are read as which part of an analysis file -/

namespace Rekordcrate.Anlz
open Rd

/-! ## Fields -/

theorem hasAt_u16be_iff {d : Bytes} {p : Nat} {v : UInt16} : HasAt d p (encU16be v) ↔ U16BeAt d p v.toNat := by
  refine ⟨.of_hasAt, fun ⟨a, b, ha, hb, hv⟩ => ?_⟩
  have e : v = UInt16.ofNat (beDec [a, b]) := by
    have h1 := a.toNat_lt
    have h2 := b.toNat_lt
    apply UInt16.toNat_inj.1
    rw [toNat_ofNat16 (by simp only [beDec, leDec, List.reverse_cons, List.reverse_nil, List.nil_append, List.cons_append]; omega), hv]
    simp only [beDec, leDec, List.reverse_cons, List.reverse_nil, List.nil_append, List.cons_append]
    omega
  rw [e, encU16be_beDec]
  intro i hi
  match i, hi with
  | 0, _ => simpa using ha
  | 1, _ => simpa using hb

theorem hasAt_u32be_iff {d : Bytes} {p : Nat} {v : UInt32} : HasAt d p (encU32be v) ↔ U32BeAt d p v.toNat := by
  refine ⟨.of_hasAt, fun h => ?_⟩
  obtain ⟨b3, b2, b1, b0, h3, h2, h1, h0, -⟩ := id h
  have hl : HasAt d p [b3, b2, b1, b0] := by
    intro i hi
    match i, hi with
    | 0, _ => simpa using h3
    | 1, _ => simpa using h2
    | 2, _ => simpa using h1
    | 3, _ => simpa using h0
  cases hr : Rd.u32be d p with
  | ok x =>
    obtain ⟨w, q⟩ := x
    obtain ⟨bs, hb, -, rfl⟩ := Inv.u32be _ _ _ _ hr
    have := U32BeAt.unique (.of_hasAt hb) h
    rw [UInt32.toNat_inj.1 this] at hb
    exact hb
  | err e =>
    exfalso
    unfold Rd.u32be at hr
    rw [bind_of_ok (show Rd.bytes 4 d p = .ok ([b3, b2, b1, b0], p + 4) from bytes_eq_ok.2 ⟨rfl, hl, rfl⟩)] at hr
    cases hr
  | panic => exact absurd hr (NP.u32be _ _)

theorem u16be_read_iff {d : Bytes} {p : Nat} {v : UInt16} {q : Nat} :
    Rd.u16be d p = .ok (v, q) ↔ U16BeAt d p v.toNat ∧ q = p + 2 := by
  rw [exact_of (enc := encU16be) (C := fun _ => True) Inv.u16be (fun _ _ _ _ _ => trivial) fun a _ => RT.u16be a,
    hasAt_u16be_iff]
  simp

theorem u32be_read_iff {d : Bytes} {p : Nat} {v : UInt32} {q : Nat} :
    Rd.u32be d p = .ok (v, q) ↔ U32BeAt d p v.toNat ∧ q = p + 4 := by
  rw [exact_of (enc := encU32be) (C := fun _ => True) Inv.u32be (fun _ _ _ _ _ => trivial) fun a _ => RT.u32be a,
    hasAt_u32be_iff]
  simp

theorem listType_read_iff {d : Bytes} {p : Nat} {t : CueListType} {q : Nat} :
    CueListType.read d p = .ok (t, q) ↔ U32BeAt d p (listTypeNumber t) ∧ q = p + 4 := by
  rw [exact_of (enc := CueListType.enc) (C := fun _ => True) CueListType.inv (fun _ _ _ _ _ => trivial)
    fun a _ => CueListType.rt a, CueListType.enc, hasAt_u32be_iff]
  cases t <;> simp [listTypeNumber, CueListType.code]

theorem cueType_read_iff {d : Bytes} {p : Nat} {t : CueType} {q : Nat} :
    CueType.read d p = .ok (t, q) ↔ ByteAt d p (cueTypeNumber t) ∧ q = p + 1 := by
  rw [exact_of (enc := CueType.enc) (C := fun _ => True) CueType.inv (fun _ _ _ _ _ => trivial)
    fun a _ => CueType.rt a, CueType.enc, hasAt_u8_iff]
  cases t <;> simp [cueTypeNumber, CueType.code]

theorem mood_read_iff {d : Bytes} {p : Nat} {t : Mood} {q : Nat} :
    Mood.read d p = .ok (t, q) ↔ U16BeAt d p (moodNumber t) ∧ q = p + 2 := by
  rw [exact_of (enc := Mood.enc) (C := fun _ => True) Mood.inv (fun _ _ _ _ _ => trivial)
    fun a _ => Mood.rt a, Mood.enc, hasAt_u16be_iff]
  cases t <;> simp [moodNumber, Mood.code]

theorem bank_read_iff {d : Bytes} {p : Nat} {t : Bank} {q : Nat} :
    Bank.read d p = .ok (t, q) ↔ ByteAt d p (bankNumber t) ∧ q = p + 1 := by
  rw [exact_of (enc := Bank.enc) (C := fun _ => True) Bank.inv (fun _ _ _ _ _ => trivial)
    fun a _ => Bank.rt a, Bank.enc, hasAt_u8_iff]
  cases t <;> simp [bankNumber, Bank.code]

theorem colorNumber_read_iff {d : Bytes} {p : Nat} {t : ColorIndex} {q : Nat} :
    ColorIndex.read d p = .ok (t, q) ↔ ByteAt d p (colorNumber t) ∧ q = p + 1 := by
  rw [color_read_iff]
  cases t <;> rfl

theorem lettersAt_iff {d : Bytes} {p : Nat} {bs : Bytes} :
    LettersAt d p (bs.map fun x => Char.ofNat x.toNat) ↔ HasAt d p bs := by
  have hc : ∀ b : UInt8, (Char.ofNat b.toNat).toNat = b.toNat := by
    intro b
    have := b.toNat_lt
    unfold Char.ofNat
    rw [dif_pos (.inl (by omega))]
    rfl
  constructor
  · intro h i hi
    obtain ⟨b, hb, he⟩ := h i (Char.ofNat bs[i].toNat) (by simp [List.getElem?_eq_getElem hi])
    rw [hc] at he
    rw [List.getElem?_eq_getElem hi, ← UInt8.toNat_inj.1 he]
    exact hb
  · intro h i c hi
    rw [List.getElem?_map] at hi
    cases hb : bs[i]? with
    | none => rw [hb] at hi; cases hi
    | some b =>
      rw [hb] at hi
      injection hi with hi
      refine ⟨b, ?_, by rw [← hi, hc]⟩
      have := h i (by rw [List.getElem?_eq_some_iff] at hb; exact hb.1)
      rw [hb] at this
      exact this

theorem tag_hasAt_iff {d : Bytes} {p : Nat} (k : Kind) : LettersAt d p (tagOf k) ↔ HasAt d p k.enc := by
  rw [← tag_bytes, lettersAt_iff]

theorem Kind.mem_named_iff {bs : Bytes} :
    bs ∈ Kind.named.map (·.1) ↔ ∃ k : Kind, k.isUnknown = false ∧ k.enc = bs := by
  constructor
  · intro h
    simp only [Kind.named, List.map_cons, List.map_nil, List.mem_cons, List.not_mem_nil, or_false] at h
    rcases h with h | h | h | h | h | h | h | h | h | h | h | h | h | h | h | h
    · exact ⟨.file, rfl, h.symm⟩
    · exact ⟨.beatGrid, rfl, h.symm⟩
    · exact ⟨.cueList, rfl, h.symm⟩
    · exact ⟨.extendedCueList, rfl, h.symm⟩
    · exact ⟨.extendedCue, rfl, h.symm⟩
    · exact ⟨.cue, rfl, h.symm⟩
    · exact ⟨.path, rfl, h.symm⟩
    · exact ⟨.vbr, rfl, h.symm⟩
    · exact ⟨.waveformPreview, rfl, h.symm⟩
    · exact ⟨.tinyWaveformPreview, rfl, h.symm⟩
    · exact ⟨.waveformDetail, rfl, h.symm⟩
    · exact ⟨.waveformColorPreview, rfl, h.symm⟩
    · exact ⟨.waveformColorDetail, rfl, h.symm⟩
    · exact ⟨.waveform3BandPreview, rfl, h.symm⟩
    · exact ⟨.waveform3BandDetail, rfl, h.symm⟩
    · exact ⟨.songStructure, rfl, h.symm⟩
  · rintro ⟨k, hk, rfl⟩
    cases k <;> first | decide | (cases hk)

theorem kind_at_iff {d : Bytes} {p : Nat} {k : Kind} : k.Proper ∧ HasAt d p k.enc ↔ k.At d p := by
  cases k with
  | unknown a b c e =>
    have hb : HasAt d p (Kind.unknown a b c e).enc ↔
        ByteAt d p a ∧ ByteAt d (p + 1) b ∧ ByteAt d (p + 2) c ∧ ByteAt d (p + 3) e := by
      show HasAt d p (encU8 a ++ (encU8 b ++ (encU8 c ++ encU8 e))) ↔ _
      simp only [HasAt.append_iff, hasAt_u8_iff, encU8_length]
    unfold Kind.At
    constructor
    · rintro ⟨h1, h2⟩
      obtain ⟨g1, g2, g3, g4⟩ := hb.1 h2
      refine ⟨g1, g2, g3, g4, fun k hk hl => ?_⟩
      refine h1 rfl (Kind.mem_named_iff.2 ⟨k, hk, ?_⟩)
      exact HasAt.eq_of_length ((tag_hasAt_iff k).1 hl) h2 (by rw [Kind.enc_length, Kind.enc_length])
    · rintro ⟨g1, g2, g3, g4, h⟩
      have h2 := hb.2 ⟨g1, g2, g3, g4⟩
      refine ⟨fun _ hm => ?_, h2⟩
      obtain ⟨k, hk, he⟩ := Kind.mem_named_iff.1 hm
      exact h k hk ((tag_hasAt_iff k).2 (he ▸ h2))
  | _ =>
    refine ⟨fun h => (tag_hasAt_iff _).2 h.2, fun h => ⟨fun hc => (by cases hc), (tag_hasAt_iff _).1 h⟩⟩

theorem kind_read_iff {d : Bytes} {p : Nat} {k : Kind} {q : Nat} :
    Kind.read d p = .ok (k, q) ↔ k.At d p ∧ q = p + 4 := by
  rw [exact_of (enc := Kind.enc) (C := Kind.Proper) (Kind.inv.mono fun _ _ h => h.1)
    (fun _ _ _ _ h => (Kind.inv _ _ _ _ h).elim fun _ h => h.2.2.2) fun a h => Kind.rt h, Kind.enc_length, ← and_assoc,
    kind_at_iff]


theorem header_at_iff {d : Bytes} {p : Nat} {x : Header} {q : Nat} :
    Header.read d p = .ok (x, q) ↔ x.At d p ∧ q = p + 12 := by
  unfold Header.read Header.At
  simp only [bind_eq_ok, pure_eq_ok, kind_read_iff, u32be_read_iff]
  constructor
  · rintro ⟨_, _, ⟨h1, rfl⟩, _, _, ⟨h2, rfl⟩, _, _, ⟨h3, rfl⟩, rfl, rfl⟩
    exact ⟨⟨h1, h2, h3⟩, rfl⟩
  · rintro ⟨⟨h1, h2, h3⟩, rfl⟩
    exact ⟨_, _, ⟨h1, rfl⟩, _, _, ⟨h2, rfl⟩, _, _, ⟨h3, rfl⟩, rfl, rfl⟩

theorem beat_read_iff {d : Bytes} {p : Nat} {x : Beat} {q : Nat} :
    Beat.read d p = .ok (x, q) ↔ x.At d p ∧ q = p + 8 := by
  unfold Beat.read Beat.At
  simp only [bind_eq_ok, pure_eq_ok, u16be_read_iff, u32be_read_iff]
  constructor
  · rintro ⟨_, _, ⟨h1, rfl⟩, _, _, ⟨h2, rfl⟩, _, _, ⟨h3, rfl⟩, rfl, rfl⟩
    exact ⟨⟨h1, h2, h3⟩, rfl⟩
  · rintro ⟨⟨h1, h2, h3⟩, rfl⟩
    exact ⟨_, _, ⟨h1, rfl⟩, _, _, ⟨h2, rfl⟩, _, _, ⟨h3, rfl⟩, rfl, rfl⟩

theorem cue_read_iff {d : Bytes} {p : Nat} {x : Cue} {q : Nat} :
    Cue.read d p = .ok (x, q) ↔ x.At d p ∧ q = p + 56 := by
  unfold Cue.read Cue.At
  simp only [bind_eq_ok, pure_eq_ok, header_at_iff, u32be_read_iff, u16be_read_iff, cueType_read_iff, u8_read_iff]
  constructor
  · rintro ⟨_, _, ⟨h1, rfl⟩, _, _, ⟨h2, rfl⟩, _, _, ⟨h3, rfl⟩, _, _, ⟨h4, rfl⟩, _, _, ⟨h5, rfl⟩,
      _, _, ⟨h6, rfl⟩, _, _, ⟨h7, rfl⟩, _, _, ⟨h8, rfl⟩, _, _, ⟨h9, rfl⟩, _, _, ⟨h10, rfl⟩, _, _, ⟨h11, rfl⟩,
      _, _, ⟨h12, rfl⟩, _, _, ⟨h13, rfl⟩, _, _, ⟨h14, rfl⟩, _, _, ⟨h15, rfl⟩, rfl, rfl⟩
    exact ⟨⟨h1, h2, h3, h4, h5, h6, h7, h8, h9, h10, h11, h12, h13, h14, h15⟩, rfl⟩
  · rintro ⟨⟨h1, h2, h3, h4, h5, h6, h7, h8, h9, h10, h11, h12, h13, h14, h15⟩, rfl⟩
    exact ⟨_, _, ⟨h1, rfl⟩, _, _, ⟨h2, rfl⟩, _, _, ⟨h3, rfl⟩, _, _, ⟨h4, rfl⟩, _, _, ⟨h5, rfl⟩,
      _, _, ⟨h6, rfl⟩, _, _, ⟨h7, rfl⟩, _, _, ⟨h8, rfl⟩, _, _, ⟨h9, rfl⟩, _, _, ⟨h10, rfl⟩, _, _, ⟨h11, rfl⟩,
      _, _, ⟨h12, rfl⟩, _, _, ⟨h13, rfl⟩, _, _, ⟨h14, rfl⟩, _, _, ⟨h15, rfl⟩, rfl, rfl⟩

theorem color_preview_column_read_iff {d : Bytes} {p : Nat} {x : WaveformColorPreviewColumn} {q : Nat} :
    WaveformColorPreviewColumn.read d p = .ok (x, q) ↔ x.At d p ∧ q = p + 6 := by
  unfold WaveformColorPreviewColumn.read WaveformColorPreviewColumn.At
  simp only [bind_eq_ok, pure_eq_ok, u8_read_iff]
  constructor
  · rintro ⟨_, _, ⟨h1, rfl⟩, _, _, ⟨h2, rfl⟩, _, _, ⟨h3, rfl⟩, _, _, ⟨h4, rfl⟩, _, _, ⟨h5, rfl⟩,
      _, _, ⟨h6, rfl⟩, rfl, rfl⟩
    exact ⟨⟨h1, h2, h3, h4, h5, h6⟩, rfl⟩
  · rintro ⟨⟨h1, h2, h3, h4, h5, h6⟩, rfl⟩
    exact ⟨_, _, ⟨h1, rfl⟩, _, _, ⟨h2, rfl⟩, _, _, ⟨h3, rfl⟩, _, _, ⟨h4, rfl⟩, _, _, ⟨h5, rfl⟩,
      _, _, ⟨h6, rfl⟩, rfl, rfl⟩

theorem three_band_preview_column_read_iff {d : Bytes} {p : Nat} {x : Waveform3BandPreviewColumn} {q : Nat} :
    Waveform3BandPreviewColumn.read d p = .ok (x, q) ↔ x.At d p ∧ q = p + 3 := by
  unfold Waveform3BandPreviewColumn.read Waveform3BandPreviewColumn.At
  simp only [bind_eq_ok, pure_eq_ok, u8_read_iff]
  constructor
  · rintro ⟨_, _, ⟨h1, rfl⟩, _, _, ⟨h2, rfl⟩, _, _, ⟨h3, rfl⟩, rfl, rfl⟩
    exact ⟨⟨h1, h2, h3⟩, rfl⟩
  · rintro ⟨⟨h1, h2, h3⟩, rfl⟩
    exact ⟨_, _, ⟨h1, rfl⟩, _, _, ⟨h2, rfl⟩, _, _, ⟨h3, rfl⟩, rfl, rfl⟩

theorem three_band_detail_column_read_iff {d : Bytes} {p : Nat} {x : Waveform3BandDetailColumn} {q : Nat} :
    Waveform3BandDetailColumn.read d p = .ok (x, q) ↔ x.At d p ∧ q = p + 3 := by
  unfold Waveform3BandDetailColumn.read Waveform3BandDetailColumn.At
  simp only [bind_eq_ok, pure_eq_ok, u8_read_iff]
  constructor
  · rintro ⟨_, _, ⟨h1, rfl⟩, _, _, ⟨h2, rfl⟩, _, _, ⟨h3, rfl⟩, rfl, rfl⟩
    exact ⟨⟨h1, h2, h3⟩, rfl⟩
  · rintro ⟨⟨h1, h2, h3⟩, rfl⟩
    exact ⟨_, _, ⟨h1, rfl⟩, _, _, ⟨h2, rfl⟩, _, _, ⟨h3, rfl⟩, rfl, rfl⟩

theorem phrase_read_iff {d : Bytes} {p : Nat} {x : Phrase} {q : Nat} :
    Phrase.read d p = .ok (x, q) ↔ x.At d p ∧ q = p + 24 := by
  unfold Phrase.read Phrase.At
  simp only [bind_eq_ok, pure_eq_ok, u16be_read_iff, u8_read_iff]
  constructor
  · rintro ⟨_, _, ⟨h1, rfl⟩, _, _, ⟨h2, rfl⟩, _, _, ⟨h3, rfl⟩, _, _, ⟨h4, rfl⟩, _, _, ⟨h5, rfl⟩,
      _, _, ⟨h6, rfl⟩, _, _, ⟨h7, rfl⟩, _, _, ⟨h8, rfl⟩, _, _, ⟨h9, rfl⟩, _, _, ⟨h10, rfl⟩, _, _, ⟨h11, rfl⟩,
      _, _, ⟨h12, rfl⟩, _, _, ⟨h13, rfl⟩, _, _, ⟨h14, rfl⟩, _, _, ⟨h15, rfl⟩, _, _, ⟨h16, rfl⟩,
      _, _, ⟨h17, rfl⟩, rfl, rfl⟩
    exact ⟨⟨h1, h2, h3, h4, h5, h6, h7, h8, h9, h10, h11, h12, h13, h14, h15, h16, h17⟩, rfl⟩
  · rintro ⟨⟨h1, h2, h3, h4, h5, h6, h7, h8, h9, h10, h11, h12, h13, h14, h15, h16, h17⟩, rfl⟩
    exact ⟨_, _, ⟨h1, rfl⟩, _, _, ⟨h2, rfl⟩, _, _, ⟨h3, rfl⟩, _, _, ⟨h4, rfl⟩, _, _, ⟨h5, rfl⟩,
      _, _, ⟨h6, rfl⟩, _, _, ⟨h7, rfl⟩, _, _, ⟨h8, rfl⟩, _, _, ⟨h9, rfl⟩, _, _, ⟨h10, rfl⟩, _, _, ⟨h11, rfl⟩,
      _, _, ⟨h12, rfl⟩, _, _, ⟨h13, rfl⟩, _, _, ⟨h14, rfl⟩, _, _, ⟨h15, rfl⟩, _, _, ⟨h16, rfl⟩,
      _, _, ⟨h17, rfl⟩, rfl, rfl⟩

/-! ## Packed columns -/

theorem preview_column_read_iff {d : Bytes} {p : Nat} {x : WaveformPreviewColumn} {q : Nat} :
    WaveformPreviewColumn.read d p = .ok (x, q) ↔ x.At d p ∧ q = p + 1 := by
  constructor
  · intro h
    cases hb : d[p]? with
    | none =>
      obtain ⟨bs, hbs, -, rfl⟩ := WaveformPreviewColumn.inv _ _ _ _ h
      have hl := x.enc_length
      have := hbs 0 (by omega)
      rw [Nat.add_zero, hb, List.getElem?_eq_getElem (by omega)] at this
      cases this
    | some b =>
      obtain ⟨c, hr, -, h1, h2⟩ := waveform_preview_column_bits (show ByteAt d p b from hb)
      rw [h] at hr
      injection hr with hr
      injection hr with e1 e2
      subst e1 e2
      exact ⟨⟨b, hb, by omega⟩, rfl⟩
  · rintro ⟨⟨b, hb, he⟩, rfl⟩
    obtain ⟨c, hr, -, h1, h2⟩ := waveform_preview_column_bits hb
    have := x.height.isLt
    have := x.whiteness.isLt
    rw [hr]
    have e1 : c.height = x.height := Fin.ext (by omega)
    have e2 : c.whiteness = x.whiteness := Fin.ext (by omega)
    cases c; cases x
    simp only at e1 e2
    rw [e1, e2]

theorem tiny_column_read_iff {d : Bytes} {p : Nat} {x : TinyWaveformPreviewColumn} {q : Nat} :
    TinyWaveformPreviewColumn.read d p = .ok (x, q) ↔ x.At d p ∧ q = p + 1 := by
  constructor
  · intro h
    cases hb : d[p]? with
    | none =>
      obtain ⟨bs, hbs, -, rfl⟩ := TinyWaveformPreviewColumn.inv _ _ _ _ h
      have hl := x.enc_length
      have := hbs 0 (by omega)
      rw [Nat.add_zero, hb, List.getElem?_eq_getElem (by omega)] at this
      cases this
    | some b =>
      obtain ⟨c, hr, -, h1, h2⟩ := tiny_waveform_preview_column_bits (show ByteAt d p b from hb)
      rw [h] at hr
      injection hr with hr
      injection hr with e1 e2
      subst e1 e2
      exact ⟨⟨b, hb, by omega⟩, rfl⟩
  · rintro ⟨⟨b, hb, he⟩, rfl⟩
    obtain ⟨c, hr, -, h1, h2⟩ := tiny_waveform_preview_column_bits hb
    have := x.height.isLt
    have := x.unused.isLt
    rw [hr]
    have e1 : c.unused = x.unused := Fin.ext (by omega)
    have e2 : c.height = x.height := Fin.ext (by omega)
    cases c; cases x
    simp only at e1 e2
    rw [e1, e2]

theorem color_detail_column_read_iff {d : Bytes} {p : Nat} {x : WaveformColorDetailColumn} {q : Nat} :
    WaveformColorDetailColumn.read d p = .ok (x, q) ↔ x.At d p ∧ q = p + 2 := by
  constructor
  · intro h
    obtain ⟨n, hn⟩ : ∃ n, U16At d p n := by
      obtain ⟨bs, hbs, -, rfl⟩ := WaveformColorDetailColumn.inv _ _ _ _ h
      have hl := x.enc_length
      have h0 := hbs 0 (by omega)
      have h1 := hbs 1 (by omega)
      rw [List.getElem?_eq_getElem (l := x.enc) (by omega)] at h0 h1
      exact ⟨_, _, _, h0, h1, rfl⟩
    obtain ⟨c, hr, -, -, h1, h2, h3, h4, h5⟩ := waveform_color_detail_column_bits hn
    rw [h] at hr
    injection hr with hr
    injection hr with e1 e2
    subst e1 e2
    refine ⟨?_, rfl⟩
    unfold WaveformColorDetailColumn.At
    have := x.unknown.isLt
    rw [show x.red.val + 8 * x.green.val + 64 * x.blue.val + 512 * x.height.val + 16384 * x.unknown.val = n by omega]
    exact hn
  · rintro ⟨h, rfl⟩
    obtain ⟨c, hr, -, -, h1, h2, h3, h4, h5⟩ := waveform_color_detail_column_bits h
    have := x.red.isLt
    have := x.green.isLt
    have := x.blue.isLt
    have := x.height.isLt
    have := x.unknown.isLt
    rw [hr]
    have e1 : c.red = x.red := Fin.ext (by omega)
    have e2 : c.green = x.green := Fin.ext (by omega)
    have e3 : c.blue = x.blue := Fin.ext (by omega)
    have e4 : c.height = x.height := Fin.ext (by omega)
    have e5 : c.unknown = x.unknown := Fin.ext (by omega)
    cases c; cases x
    simp only at e1 e2 e3 e4 e5
    rw [e1, e2, e3, e4, e5]

/-! ## Comments and extended cues -/

theorem comment_read_iff {d : Bytes} {p : Nat} {s : WideString} {q : Nat} :
    WideString.read d p = .ok (s, q) ↔ s.At d p q := by
  constructor
  · intro h
    obtain ⟨bs, hb, hq, raw, hl, rfl, hr⟩ := WideString.inv _ _ _ _ h
    rw [HasAt.append_iff, hasAt_u32be_iff, toNat_ofNat32 hl, encU32be_length] at hb
    rw [List.length_append, encU32be_length] at hq
    exact ⟨raw, hb.1, hb.2, hr, by omega⟩
  · rintro ⟨raw, h1, h2, h3, rfl⟩
    have := WideString.rt h3 h1.lt d p (by
      rw [HasAt.append_iff, hasAt_u32be_iff, toNat_ofNat32 h1.lt, encU32be_length]; exact ⟨h1, h2⟩)
    rw [this, List.length_append, encU32be_length, Nat.add_assoc]

theorem WideString.At.byteCount_le {d : Bytes} {p q : Nat} {s : WideString} (h : s.At d p q) :
    s.byteCount ≤ 2 ^ 32 := by
  obtain ⟨raw, h1, -, h3, -⟩ := h
  have := h3.byteCount_le
  have := h1.lt
  omega

theorem trailingLen_iff {h : Header} {s : WideString} {n : Nat} (hs : s.byteCount ≤ 2 ^ 32) :
    ExtendedCue.trailingLen h s = .ok n ↔
      68 + s.byteCount < 2 ^ 32 ∧ n = h.totalSize.toNat - (68 + s.byteCount) := by
  constructor
  · intro ht
    obtain ⟨m, hm, hr⟩ := Res.bind_eq_ok.1 ht
    have hlt := WideString.byteCount_lt_of_byteLen hm hs
    rw [s.byteLen_eq hlt] at hm
    injection hm with hm
    subst hm
    split at hr
    · rename_i h68
      injection hr with hr
      exact ⟨h68, hr.symm⟩
    · cases hr
  · rintro ⟨h1, rfl⟩
    exact ExtendedCue.trailingLen_eq h1

theorem trailingLenWrap_eq (h : Header) (s : WideString) :
    ExtendedCue.trailingLenWrap h s = h.totalSize.toNat - (68 + s.byteCount) % 2 ^ 32 := by
  unfold ExtendedCue.trailingLenWrap WideString.byteLenWrap WideString.byteCount addWrap32 mulWrap32
  by_cases he : s.val = ""
  · rw [if_pos (by simpa using he), if_pos he]
  · rw [if_neg (by simpa using he), if_neg he]
    congr 1
    omega

theorem extended_cue_read_iff {d : Bytes} {p : Nat} {c : ExtendedCue} {q : Nat} :
    ExtendedCue.read d p = .ok (c, q) ↔ c.At true d p q := by
  unfold ExtendedCue.read ExtendedCue.At ExtendedCue.Trails
  simp only [bind_eq_ok, pure_eq_ok, header_at_iff, u32be_read_iff, u16be_read_iff, u8_read_iff, cueType_read_iff,
    colorNumber_read_iff, comment_read_iff, lift_read_iff, bytes_eq_ok, if_true]
  constructor
  · rintro ⟨_, _, ⟨h1, rfl⟩, _, _, ⟨h2, rfl⟩, _, _, ⟨h3, rfl⟩, _, _, ⟨h4, rfl⟩, _, _, ⟨h5, rfl⟩, _, _, ⟨h6, rfl⟩,
      _, _, ⟨h7, rfl⟩, _, _, ⟨h8, rfl⟩, _, _, ⟨h9, rfl⟩, _, _, ⟨h10, rfl⟩, _, _, ⟨h11, rfl⟩, _, _, ⟨h12, rfl⟩,
      _, _, ⟨h13, rfl⟩, _, m, h14, _, _, ⟨h15, rfl⟩, _, _, ⟨h16, rfl⟩, _, _, ⟨h17, rfl⟩, _, _, ⟨h18, rfl⟩,
      _, _, ⟨h19, rfl⟩, _, _, ⟨h20, rfl⟩, _, _, ⟨h21, rfl⟩, _, _, ⟨h22, rfl⟩, _, _, ⟨h23, rfl⟩, n, _, ⟨h24, rfl⟩,
      _, _, ⟨rfl, h26, rfl⟩, rfl, rfl⟩
    exact ⟨h1, h2, h3, h4, h5, h6, h7, h8, h9, h10, h11, h12, h13, m, h14, h15, h16, h17, h18, h19, h20, h21, h22, h23,
      (trailingLen_iff h14.byteCount_le).1 h24, h26, rfl⟩
  · rintro ⟨h1, h2, h3, h4, h5, h6, h7, h8, h9, h10, h11, h12, h13, m, h14, h15, h16, h17, h18, h19, h20, h21, h22, h23,
      h24, h26, rfl⟩
    exact ⟨_, _, ⟨h1, rfl⟩, _, _, ⟨h2, rfl⟩, _, _, ⟨h3, rfl⟩, _, _, ⟨h4, rfl⟩, _, _, ⟨h5, rfl⟩, _, _, ⟨h6, rfl⟩,
      _, _, ⟨h7, rfl⟩, _, _, ⟨h8, rfl⟩, _, _, ⟨h9, rfl⟩, _, _, ⟨h10, rfl⟩, _, _, ⟨h11, rfl⟩, _, _, ⟨h12, rfl⟩,
      _, _, ⟨h13, rfl⟩, _, m, h14, _, _, ⟨h15, rfl⟩, _, _, ⟨h16, rfl⟩, _, _, ⟨h17, rfl⟩, _, _, ⟨h18, rfl⟩,
      _, _, ⟨h19, rfl⟩, _, _, ⟨h20, rfl⟩, _, _, ⟨h21, rfl⟩, _, _, ⟨h22, rfl⟩, _, _, ⟨h23, rfl⟩, _, _,
      ⟨(trailingLen_iff h14.byteCount_le).2 h24, rfl⟩, _, _, ⟨rfl, h26, rfl⟩, rfl, rfl⟩

theorem extended_cue_release_read_iff {d : Bytes} {p : Nat} {c : ExtendedCue} {q : Nat} :
    ExtendedCue.readWrap d p = .ok (c, q) ↔ c.At false d p q := by
  unfold ExtendedCue.readWrap ExtendedCue.At ExtendedCue.Trails
  simp only [bind_eq_ok, pure_eq_ok, header_at_iff, u32be_read_iff, u16be_read_iff, u8_read_iff, cueType_read_iff,
    colorNumber_read_iff, comment_read_iff, bytes_eq_ok, Bool.false_eq_true, if_false, trailingLenWrap_eq]
  constructor
  · rintro ⟨_, _, ⟨h1, rfl⟩, _, _, ⟨h2, rfl⟩, _, _, ⟨h3, rfl⟩, _, _, ⟨h4, rfl⟩, _, _, ⟨h5, rfl⟩, _, _, ⟨h6, rfl⟩,
      _, _, ⟨h7, rfl⟩, _, _, ⟨h8, rfl⟩, _, _, ⟨h9, rfl⟩, _, _, ⟨h10, rfl⟩, _, _, ⟨h11, rfl⟩, _, _, ⟨h12, rfl⟩,
      _, _, ⟨h13, rfl⟩, _, m, h14, _, _, ⟨h15, rfl⟩, _, _, ⟨h16, rfl⟩, _, _, ⟨h17, rfl⟩, _, _, ⟨h18, rfl⟩,
      _, _, ⟨h19, rfl⟩, _, _, ⟨h20, rfl⟩, _, _, ⟨h21, rfl⟩, _, _, ⟨h22, rfl⟩, _, _, ⟨h23, rfl⟩,
      _, _, ⟨h24, h26, rfl⟩, rfl, rfl⟩
    exact ⟨h1, h2, h3, h4, h5, h6, h7, h8, h9, h10, h11, h12, h13, m, h14, h15, h16, h17, h18, h19, h20, h21, h22, h23,
      h24, h26, by rw [h24]⟩
  · rintro ⟨h1, h2, h3, h4, h5, h6, h7, h8, h9, h10, h11, h12, h13, m, h14, h15, h16, h17, h18, h19, h20, h21, h22, h23,
      h24, h26, rfl⟩
    exact ⟨_, _, ⟨h1, rfl⟩, _, _, ⟨h2, rfl⟩, _, _, ⟨h3, rfl⟩, _, _, ⟨h4, rfl⟩, _, _, ⟨h5, rfl⟩, _, _, ⟨h6, rfl⟩,
      _, _, ⟨h7, rfl⟩, _, _, ⟨h8, rfl⟩, _, _, ⟨h9, rfl⟩, _, _, ⟨h10, rfl⟩, _, _, ⟨h11, rfl⟩, _, _, ⟨h12, rfl⟩,
      _, _, ⟨h13, rfl⟩, _, m, h14, _, _, ⟨h15, rfl⟩, _, _, ⟨h16, rfl⟩, _, _, ⟨h17, rfl⟩, _, _, ⟨h18, rfl⟩,
      _, _, ⟨h19, rfl⟩, _, _, ⟨h20, rfl⟩, _, _, ⟨h21, rfl⟩, _, _, ⟨h22, rfl⟩, _, _, ⟨h23, rfl⟩,
      _, _, ⟨h24, h26, rfl⟩, rfl, by rw [h24]⟩

theorem cues_iff {r : Rd ExtendedCue} {checked : Bool} {d : Bytes}
    (h : ∀ p c q, r d p = .ok (c, q) ↔ c.At checked d p q) {n p : Nat} {cs : List ExtendedCue} {q : Nat} :
    Rd.many r n d p = .ok (cs, q) ↔ cs.length = n ∧ ExtendedCue.ListAt checked d p cs q := by
  induction n generalizing p cs q with
  | zero =>
    rw [Rd.many, pure_eq_ok]
    constructor
    · rintro ⟨rfl, rfl⟩
      exact ⟨rfl, .nil _⟩
    · rintro ⟨h1, h2⟩
      rw [List.length_eq_zero_iff] at h1
      subst h1
      cases h2
      exact ⟨rfl, rfl⟩
  | succ n ih =>
    rw [Rd.many]
    simp only [bind_eq_ok, pure_eq_ok, h, ih]
    constructor
    · rintro ⟨c, m, h1, cs', _, ⟨h2, h3⟩, rfl, rfl⟩
      exact ⟨by rw [List.length_cons, h2], .cons h1 h3⟩
    · rintro ⟨h1, h2⟩
      cases h2 with
      | nil => cases h1
      | cons h t => exact ⟨_, _, h, _, _, ⟨by simpa using h1, t⟩, rfl, rfl⟩

end Rekordcrate.Anlz
