import Verif.Lemmas.AnlzFileAt
import Verif.Lemmas.TruncateAnlz

/-! # What is read depends only on the bytes that are read -/

namespace Rekordcrate

open Rd

/-- Whatever the reader reads, it reads the same from the same bytes anywhere else. -/
def Rd.Own {α : Type} (r : Rd α) : Prop := Inv r fun a bs => RT r bs a

namespace Rd.Own

theorem of {α : Type} {r : Rd α} {Q : α → Bytes → Prop} (hi : Inv r Q) (hr : ∀ a bs, Q a bs → RT r bs a) : Own r :=
  hi.mono hr

theorem of_enc {α : Type} {r : Rd α} {enc : α → Bytes} (hi : Inv r fun a bs => bs = enc a) (hr : ∀ a, RT r (enc a) a) :
    Own r := hi.mono (by rintro a _ rfl; exact hr a)

theorem pure {α : Type} (a : α) : Own (pure a : Rd α) := of (Inv.pure a) (by
  rintro _ _ ⟨rfl, rfl⟩
  exact RT.pure _)

theorem bind {α β : Type} {r : Rd α} {f : α → Rd β} (h : Own r) (h' : ∀ a, Own (f a)) : Own (r >>= f) := by
  refine Inv.bind h fun a bs ha => ?_
  refine (h' a).mono fun b bs' hb => ?_
  exact RT.bind ha hb

theorem fails {α : Type} {r : Rd α} (h : ∀ d p x, r d p ≠ .ok x) : Own r := fun d p _ _ hr => absurd hr (h d p _)

theorem fail {α : Type} (e : Err) : Own (Rd.fail e : Rd α) := fails fun _ _ _ h => by cases h

theorem u8 : Own Rd.u8 := of_enc Inv.u8 RT.u8
theorem u16be : Own Rd.u16be := of_enc Inv.u16be RT.u16be
theorem u32be : Own Rd.u32be := of_enc Inv.u32be RT.u32be

theorem bytes (n : Nat) : Own (Rd.bytes n) := of (Inv.bytes n) (by
  rintro a _ ⟨rfl, h⟩
  exact RT.bytes' h)

theorem require (b : Bool) (e : Err) : Own (Rd.require b e) := of (Inv.require b e) (by
  rintro ⟨⟩ _ ⟨h, rfl⟩
  exact RT.require h)

theorem lift {α : Type} (r : Res α) : Own (Rd.lift r) := of (Inv.lift r) (by
  rintro a _ ⟨h, rfl⟩
  exact Anlz.RT.lift h)

theorem many {α : Type} {r : Rd α} (h : Own r) (n : Nat) : Own (Rd.many r n) := by
  induction n with
  | zero => exact pure _
  | succ n ih => exact bind h fun _ => bind ih fun _ => pure _

theorem orElse_fails {α : Type} {r s : Rd α} (hr : ∀ d p, ∃ e, r d p = .err e) (h : Own s) : Own (Rd.orElse r s) := by
  have : Rd.orElse r s = s := by
    funext d p
    obtain ⟨e, he⟩ := hr d p
    unfold Rd.orElse
    rw [he]
  rw [this]
  exact h

theorem orElse_only {α : Type} {r s : Rd α} (h : Own r) (hs : ∀ d p x, s d p ≠ .ok x) : Own (Rd.orElse r s) := by
  intro d p a q hr
  have h1 : r d p = .ok (a, q) := by
    unfold Rd.orElse at hr
    split at hr
    · rename_i x hx; rw [hx]; exact hr
    · cases hr
    · exact absurd hr (hs d p _)
  obtain ⟨bs, h2, h3, h4⟩ := h d p a q h1
  refine ⟨bs, h2, h3, fun d' p' hb => ?_⟩
  unfold Rd.orElse
  rw [h4 d' p' hb]

end Rd.Own

namespace Anlz

theorem Kind.own : Own Kind.read := .of Kind.inv fun _ _ h => h.1 ▸ Kind.rt h.2
theorem Header.own : Own Header.read := .of Header.inv fun _ _ h => h.1 ▸ Header.rt h.2
theorem CueListType.own : Own CueListType.read := .of_enc CueListType.inv CueListType.rt
theorem CueType.own : Own CueType.read := .of_enc CueType.inv CueType.rt
theorem color_own : Own ColorIndex.read := .of_enc ColorIndex.inv ColorIndex.rt
theorem Cue.own : Own Cue.read := .of Cue.inv fun _ _ h => h.1 ▸ Cue.rt h.2
theorem Beat.own : Own Beat.read := .of_enc Beat.inv Beat.rt
theorem WaveformPreviewColumn.own : Own WaveformPreviewColumn.read := .of_enc WaveformPreviewColumn.inv WaveformPreviewColumn.rt
theorem TinyWaveformPreviewColumn.own : Own TinyWaveformPreviewColumn.read :=
  .of_enc TinyWaveformPreviewColumn.inv TinyWaveformPreviewColumn.rt
theorem WaveformColorPreviewColumn.own : Own WaveformColorPreviewColumn.read :=
  .of_enc WaveformColorPreviewColumn.inv WaveformColorPreviewColumn.rt
theorem WaveformColorDetailColumn.own : Own WaveformColorDetailColumn.read :=
  .of_enc WaveformColorDetailColumn.inv WaveformColorDetailColumn.rt
theorem Waveform3BandPreviewColumn.own : Own Waveform3BandPreviewColumn.read :=
  .of_enc Waveform3BandPreviewColumn.inv Waveform3BandPreviewColumn.rt
theorem Waveform3BandDetailColumn.own : Own Waveform3BandDetailColumn.read :=
  .of_enc Waveform3BandDetailColumn.inv Waveform3BandDetailColumn.rt

theorem WideString.own : Own WideString.read := by
  unfold WideString.read
  refine .bind .u32be fun v => ?_
  split
  · exact .pure _
  · refine .bind (.bytes _) fun bs => ?_
    split
    · exact .pure _
    · exact .fail _

theorem readWideUnits_own : Own readWideUnits := .of readWideUnits_inv (by
  rintro a _ ⟨rfl, h⟩
  exact readWideUnits_rt h)

/-- Closes goals about readers that are sequences of field readers. -/
macro "own_fields" : tactic =>
  `(tactic| repeat' first
    | with_reducible exact Own.pure _
    | with_reducible exact Own.u8
    | with_reducible exact Own.u16be
    | with_reducible exact Own.u32be
    | with_reducible exact Own.bytes _
    | with_reducible exact Own.require _ _
    | with_reducible exact Own.lift _
    | with_reducible exact color_own
    | with_reducible exact Header.own
    | with_reducible exact CueListType.own
    | with_reducible exact CueType.own
    | with_reducible exact WideString.own
    | with_reducible exact readWideUnits_own
    | with_reducible exact Own.many (by assumption) _
    | with_reducible refine Own.bind ?_ fun _ => ?_)

theorem ExtendedCue.own : Own ExtendedCue.read := by
  unfold ExtendedCue.read
  own_fields

theorem readEntryLens_own (h : Header) (n : UInt32) : Own (readEntryLens h n) := by
  unfold readEntryLens
  own_fields

theorem BeatGrid.own : Own BeatGrid.read := by
  have := Beat.own
  unfold BeatGrid.read
  own_fields

theorem CueList.own : Own CueList.read := by
  have := Cue.own
  unfold CueList.read
  own_fields

theorem ExtendedCueList.own : Own ExtendedCueList.read := by
  have := ExtendedCue.own
  unfold ExtendedCueList.read
  own_fields

theorem Path.own (h : Header) : Own (Path.read h) := by
  unfold Path.read
  own_fields

theorem Vbr.own (h : Header) : Own (Vbr.read h) := by
  unfold Vbr.read
  own_fields

theorem WaveformPreview.own (h : Header) : Own (WaveformPreview.read h) := by
  have := WaveformPreviewColumn.own
  unfold WaveformPreview.read
  own_fields

theorem TinyWaveformPreview.own (h : Header) : Own (TinyWaveformPreview.read h) := by
  have := TinyWaveformPreviewColumn.own
  unfold TinyWaveformPreview.read
  own_fields

theorem WaveformDetail.own (h : Header) : Own (WaveformDetail.read h) := by
  have := WaveformPreviewColumn.own
  have h1 := readEntryLens_own h
  unfold WaveformDetail.read
  own_fields
  exact h1 _

theorem WaveformColorPreview.own (h : Header) : Own (WaveformColorPreview.read h) := by
  have := WaveformColorPreviewColumn.own
  have h1 := readEntryLens_own h
  unfold WaveformColorPreview.read
  own_fields
  exact h1 _

theorem WaveformColorDetail.own (h : Header) : Own (WaveformColorDetail.read h) := by
  have := WaveformColorDetailColumn.own
  have h1 := readEntryLens_own h
  unfold WaveformColorDetail.read
  own_fields
  exact h1 _

theorem Waveform3BandPreview.own (h : Header) : Own (Waveform3BandPreview.read h) := by
  have := Waveform3BandPreviewColumn.own
  have h1 := readEntryLens_own h
  unfold Waveform3BandPreview.read
  own_fields
  exact h1 _

theorem Waveform3BandDetail.own (h : Header) : Own (Waveform3BandDetail.read h) := by
  have := Waveform3BandDetailColumn.own
  have h1 := readEntryLens_own h
  unfold Waveform3BandDetail.read
  own_fields
  exact h1 _

theorem Unknown.own (h : Header) : Own (Unknown.read h) := by
  unfold Unknown.read
  own_fields

theorem ExtendedCue.ownWrap : Own ExtendedCue.readWrap := by
  unfold ExtendedCue.readWrap
  own_fields

theorem readEntryLensWrap_own (h : Header) (n : UInt32) : Own (readEntryLensWrap h n) := by
  unfold readEntryLensWrap
  own_fields

theorem ExtendedCueList.ownWrap : Own ExtendedCueList.readWrap := by
  have := ExtendedCue.ownWrap
  unfold ExtendedCueList.readWrap
  own_fields

theorem Path.ownWrap (h : Header) : Own (Path.readWrap h) := by
  unfold Path.readWrap
  own_fields

theorem Vbr.ownWrap (h : Header) : Own (Vbr.readWrap h) := by
  unfold Vbr.readWrap
  own_fields

theorem WaveformPreview.ownWrap (h : Header) : Own (WaveformPreview.readWrap h) := by
  have := WaveformPreviewColumn.own
  unfold WaveformPreview.readWrap
  own_fields

theorem TinyWaveformPreview.ownWrap (h : Header) : Own (TinyWaveformPreview.readWrap h) := by
  have := TinyWaveformPreviewColumn.own
  unfold TinyWaveformPreview.readWrap
  own_fields

theorem WaveformDetail.ownWrap (h : Header) : Own (WaveformDetail.readWrap h) := by
  have := WaveformPreviewColumn.own
  have h1 := readEntryLensWrap_own h
  unfold WaveformDetail.readWrap
  own_fields
  exact h1 _

theorem WaveformColorPreview.ownWrap (h : Header) : Own (WaveformColorPreview.readWrap h) := by
  have := WaveformColorPreviewColumn.own
  have h1 := readEntryLensWrap_own h
  unfold WaveformColorPreview.readWrap
  own_fields
  exact h1 _

theorem WaveformColorDetail.ownWrap (h : Header) : Own (WaveformColorDetail.readWrap h) := by
  have := WaveformColorDetailColumn.own
  have h1 := readEntryLensWrap_own h
  unfold WaveformColorDetail.readWrap
  own_fields
  exact h1 _

theorem Waveform3BandPreview.ownWrap (h : Header) : Own (Waveform3BandPreview.readWrap h) := by
  have := Waveform3BandPreviewColumn.own
  have h1 := readEntryLensWrap_own h
  unfold Waveform3BandPreview.readWrap
  own_fields
  exact h1 _

theorem Waveform3BandDetail.ownWrap (h : Header) : Own (Waveform3BandDetail.readWrap h) := by
  have := Waveform3BandDetailColumn.own
  have h1 := readEntryLensWrap_own h
  unfold Waveform3BandDetail.readWrap
  own_fields
  exact h1 _

theorem Unknown.ownWrap (h : Header) : Own (Unknown.readWrap h) := by
  unfold Unknown.readWrap
  own_fields

theorem SongStructure.own (h : Header) : Own (SongStructure.read h) := .of (SongStructure.inv h) (by
  rintro c bs ⟨he, hf, hs⟩
  rw [SongStructure.enc_eq hf] at he
  injection he with he
  rw [← he]
  exact SongStructure.rt hf hs)

theorem SongStructure.ownWrap (h : Header) : Own (SongStructure.readWrap h) := .of (SongStructure.inv_wrap h) (by
  rintro c _ ⟨rfl, hl, hs⟩
  exact SongStructure.rt_wrap hl hs)

theorem variant_own {α : Type} (g : Bool) {r : Rd α} (f : α → Content) (h : Own r) : Own (Content.variant g r f) :=
  .bind (.require _ _) fun _ => .bind h fun _ => .pure _

theorem variant_false {α : Type} (r : Rd α) (f : α → Content) (d : Bytes) (p : Nat) :
    ∃ e, Content.variant false r f d p = .err e := ⟨_, rfl⟩

theorem Content.own (h : Header) : Own (Content.read h) := by
  unfold Content.read
  cases hk : h.kind with
  | file | cue | extendedCue =>
    simp only [kind_beq_false, skip_eq, ne_eq, reduceCtorEq, not_false_eq_true, Kind.isUnknown]
    exact .fails fun _ _ _ h => by cases h
  | beatGrid =>
    simp only [kind_beq_false, skip_eq, ne_eq, reduceCtorEq, not_false_eq_true, Kind.isUnknown, beq_self_eq_true]
    exact .orElse_only (variant_own _ _ (BeatGrid.own)) fun _ _ _ h => by cases h
  | cueList =>
    simp only [kind_beq_false, skip_eq, ne_eq, reduceCtorEq, not_false_eq_true, Kind.isUnknown, beq_self_eq_true]
    exact .orElse_only (variant_own _ _ (CueList.own)) fun _ _ _ h => by cases h
  | extendedCueList =>
    simp only [kind_beq_false, skip_eq, ne_eq, reduceCtorEq, not_false_eq_true, Kind.isUnknown, beq_self_eq_true]
    exact .orElse_only (variant_own _ _ (ExtendedCueList.own)) fun _ _ _ h => by cases h
  | path =>
    simp only [kind_beq_false, skip_eq, ne_eq, reduceCtorEq, not_false_eq_true, Kind.isUnknown, beq_self_eq_true]
    exact .orElse_only (variant_own _ _ (Path.own h)) fun _ _ _ h => by cases h
  | vbr =>
    simp only [kind_beq_false, skip_eq, ne_eq, reduceCtorEq, not_false_eq_true, Kind.isUnknown, beq_self_eq_true]
    exact .orElse_only (variant_own _ _ (Vbr.own h)) fun _ _ _ h => by cases h
  | waveformPreview =>
    simp only [kind_beq_false, skip_eq, ne_eq, reduceCtorEq, not_false_eq_true, Kind.isUnknown, beq_self_eq_true]
    exact .orElse_only (variant_own _ _ (WaveformPreview.own h)) fun _ _ _ h => by cases h
  | tinyWaveformPreview =>
    simp only [kind_beq_false, skip_eq, ne_eq, reduceCtorEq, not_false_eq_true, Kind.isUnknown, beq_self_eq_true]
    exact .orElse_only (variant_own _ _ (TinyWaveformPreview.own h)) fun _ _ _ h => by cases h
  | waveformDetail =>
    simp only [kind_beq_false, skip_eq, ne_eq, reduceCtorEq, not_false_eq_true, Kind.isUnknown, beq_self_eq_true]
    exact .orElse_only (variant_own _ _ (WaveformDetail.own h)) fun _ _ _ h => by cases h
  | waveformColorPreview =>
    simp only [kind_beq_false, skip_eq, ne_eq, reduceCtorEq, not_false_eq_true, Kind.isUnknown, beq_self_eq_true]
    exact .orElse_only (variant_own _ _ (WaveformColorPreview.own h)) fun _ _ _ h => by cases h
  | waveformColorDetail =>
    simp only [kind_beq_false, skip_eq, ne_eq, reduceCtorEq, not_false_eq_true, Kind.isUnknown, beq_self_eq_true]
    exact .orElse_only (variant_own _ _ (WaveformColorDetail.own h)) fun _ _ _ h => by cases h
  | waveform3BandPreview =>
    simp only [kind_beq_false, skip_eq, ne_eq, reduceCtorEq, not_false_eq_true, Kind.isUnknown, beq_self_eq_true]
    exact .orElse_only (variant_own _ _ (Waveform3BandPreview.own h)) fun _ _ _ h => by cases h
  | waveform3BandDetail =>
    simp only [kind_beq_false, skip_eq, ne_eq, reduceCtorEq, not_false_eq_true, Kind.isUnknown, beq_self_eq_true]
    exact .orElse_only (variant_own _ _ (Waveform3BandDetail.own h)) fun _ _ _ h => by cases h
  | songStructure =>
    simp only [kind_beq_false, skip_eq, ne_eq, reduceCtorEq, not_false_eq_true, Kind.isUnknown, beq_self_eq_true]
    exact .orElse_only (variant_own _ _ (SongStructure.own h)) fun _ _ _ h => by cases h
  | unknown a b e g =>
    simp only [kind_beq_false, skip_eq, ne_eq, reduceCtorEq, not_false_eq_true, Kind.isUnknown]
    exact variant_own _ _ (Unknown.own h)

theorem AnlzSection.own : Own AnlzSection.read :=
  .bind Header.own fun _ => .bind (Content.own _) fun _ => .pure _

theorem Content.ownWrap (h : Header) : Own (Content.readWrap h) := by
  unfold Content.readWrap
  cases hk : h.kind with
  | file | cue | extendedCue =>
    simp only [kind_beq_false, skip_eq, ne_eq, reduceCtorEq, not_false_eq_true, Kind.isUnknown]
    exact .fails fun _ _ _ h => by cases h
  | beatGrid =>
    simp only [kind_beq_false, skip_eq, ne_eq, reduceCtorEq, not_false_eq_true, Kind.isUnknown, beq_self_eq_true]
    exact .orElse_only (variant_own _ _ (BeatGrid.own)) fun _ _ _ h => by cases h
  | cueList =>
    simp only [kind_beq_false, skip_eq, ne_eq, reduceCtorEq, not_false_eq_true, Kind.isUnknown, beq_self_eq_true]
    exact .orElse_only (variant_own _ _ (CueList.own)) fun _ _ _ h => by cases h
  | extendedCueList =>
    simp only [kind_beq_false, skip_eq, ne_eq, reduceCtorEq, not_false_eq_true, Kind.isUnknown, beq_self_eq_true]
    exact .orElse_only (variant_own _ _ (ExtendedCueList.ownWrap)) fun _ _ _ h => by cases h
  | path =>
    simp only [kind_beq_false, skip_eq, ne_eq, reduceCtorEq, not_false_eq_true, Kind.isUnknown, beq_self_eq_true]
    exact .orElse_only (variant_own _ _ (Path.ownWrap h)) fun _ _ _ h => by cases h
  | vbr =>
    simp only [kind_beq_false, skip_eq, ne_eq, reduceCtorEq, not_false_eq_true, Kind.isUnknown, beq_self_eq_true]
    exact .orElse_only (variant_own _ _ (Vbr.ownWrap h)) fun _ _ _ h => by cases h
  | waveformPreview =>
    simp only [kind_beq_false, skip_eq, ne_eq, reduceCtorEq, not_false_eq_true, Kind.isUnknown, beq_self_eq_true]
    exact .orElse_only (variant_own _ _ (WaveformPreview.ownWrap h)) fun _ _ _ h => by cases h
  | tinyWaveformPreview =>
    simp only [kind_beq_false, skip_eq, ne_eq, reduceCtorEq, not_false_eq_true, Kind.isUnknown, beq_self_eq_true]
    exact .orElse_only (variant_own _ _ (TinyWaveformPreview.ownWrap h)) fun _ _ _ h => by cases h
  | waveformDetail =>
    simp only [kind_beq_false, skip_eq, ne_eq, reduceCtorEq, not_false_eq_true, Kind.isUnknown, beq_self_eq_true]
    exact .orElse_only (variant_own _ _ (WaveformDetail.ownWrap h)) fun _ _ _ h => by cases h
  | waveformColorPreview =>
    simp only [kind_beq_false, skip_eq, ne_eq, reduceCtorEq, not_false_eq_true, Kind.isUnknown, beq_self_eq_true]
    exact .orElse_only (variant_own _ _ (WaveformColorPreview.ownWrap h)) fun _ _ _ h => by cases h
  | waveformColorDetail =>
    simp only [kind_beq_false, skip_eq, ne_eq, reduceCtorEq, not_false_eq_true, Kind.isUnknown, beq_self_eq_true]
    exact .orElse_only (variant_own _ _ (WaveformColorDetail.ownWrap h)) fun _ _ _ h => by cases h
  | waveform3BandPreview =>
    simp only [kind_beq_false, skip_eq, ne_eq, reduceCtorEq, not_false_eq_true, Kind.isUnknown, beq_self_eq_true]
    exact .orElse_only (variant_own _ _ (Waveform3BandPreview.ownWrap h)) fun _ _ _ h => by cases h
  | waveform3BandDetail =>
    simp only [kind_beq_false, skip_eq, ne_eq, reduceCtorEq, not_false_eq_true, Kind.isUnknown, beq_self_eq_true]
    exact .orElse_only (variant_own _ _ (Waveform3BandDetail.ownWrap h)) fun _ _ _ h => by cases h
  | songStructure =>
    simp only [kind_beq_false, skip_eq, ne_eq, reduceCtorEq, not_false_eq_true, Kind.isUnknown, beq_self_eq_true]
    exact .orElse_only (variant_own _ _ (SongStructure.ownWrap h)) fun _ _ _ h => by cases h
  | unknown a b e g =>
    simp only [kind_beq_false, skip_eq, ne_eq, reduceCtorEq, not_false_eq_true, Kind.isUnknown]
    exact variant_own _ _ (Unknown.ownWrap h)

theorem AnlzSection.ownWrap : Own AnlzSection.readWrap :=
  .bind Header.own fun _ => .bind (Content.ownWrap _) fun _ => .pure _

end Anlz
end Rekordcrate
