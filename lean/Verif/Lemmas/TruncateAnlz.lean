import Verif.Lemmas.TruncatePdb
import Verif.Lemmas.Setting
import Verif.Lemmas.AnlzFile

/-! # Analysis and settings files read from a truncated image -/

namespace Rekordcrate

open Rd

theorem Rd.Exactly.seq {α β : Type} {m n : Nat} {r : Rd α} {f : α → Rd β} (h : Exactly m r) (hf : Fixed m r)
    (h' : ∀ a, Exactly n (f a)) : Exactly (m + n) (r >>= f) where
  same img full p hp hn := by
    have e := h.same img full p hp (by omega)
    cases hr : r img p with
    | ok x =>
      obtain ⟨a, q⟩ := x
      have := (hf img p).2 a q hr
      subst this
      rw [bind_of_ok hr, bind_of_ok (e.trans hr)]
      exact (h' a).same img full _ hp (by omega)
    | err _ => rw [bind_of_err hr, bind_of_err (e.trans hr)]
    | panic => rw [bind_of_panic hr, bind_of_panic (e.trans hr)]
  short img p hn := by
    cases hr : r img p with
    | ok x =>
      obtain ⟨a, q⟩ := x
      have := (hf img p).2 a q hr
      subst this
      rw [bind_of_ok hr]
      exact (h' a).short img _ (by omega)
    | err e => exact ⟨e, bind_of_err hr⟩
    | panic => exact absurd hr (hf img p).1

namespace Anlz

variable {G : Bytes → Prop} {P : Prop}

theorem Kind.cut : Cut G P Kind.read :=
  (Exactly.orElse (n := 4) (Exactly.magicEnum (by omega) (by decide))
    (Exactly.u8.seq (n := 3) Fixed.u8 fun _ => Exactly.u8.seq (n := 2) Fixed.u8 fun _ => Exactly.u8.seq (n := 1) Fixed.u8 fun _ =>
      Exactly.u8.bind fun _ _ _ _ => rfl)).cut

theorem Header.cut : Cut G P Header.read :=
  .bind Kind.cut fun _ => .bind .u32be fun _ => .bind .u32be fun _ => .pure _

theorem CueListType.cut : Cut G P CueListType.read := by
  refine .bind .u32be fun v => ?_
  split
  · exact .pure _
  · split
    · exact .pure _
    · exact .fail _

theorem CueType.cut : Cut G P CueType.read := by
  refine .bind .u8 fun v => ?_
  split
  · exact .pure _
  · split
    · exact .pure _
    · exact .fail _

theorem Mood.cut : Cut G P Mood.read := by
  refine .bind .u16be fun v => ?_
  split
  · exact .pure _
  · split
    · exact .pure _
    · split
      · exact .pure _
      · exact .fail _

theorem Bank.cut : Cut G P Bank.read := by
  refine .bind .u8 fun v => ?_
  split
  · exact .pure _
  · exact .fail _

theorem WideString.cut : Cut G P WideString.read := by
  refine .bind .u32be fun v => ?_
  split
  · exact .pure _
  · refine .bind (.bytes _) fun bs => ?_
    split
    · exact .pure _
    · exact .fail _

/-- Closes goals about readers that are sequences of field readers. -/
macro "anlz_fields" : tactic =>
  `(tactic| repeat' first
    | with_reducible exact Cut.pure _
    | with_reducible exact Cut.u8
    | with_reducible exact Cut.u16be
    | with_reducible exact Cut.u32be
    | with_reducible exact Cut.bytes _
    | with_reducible exact Cut.require _ _
    | with_reducible exact Cut.lift _
    | with_reducible exact ColorIndex.exactly.cut
    | with_reducible exact Header.cut
    | with_reducible exact CueListType.cut
    | with_reducible exact CueType.cut
    | with_reducible exact Mood.cut
    | with_reducible exact Bank.cut
    | with_reducible exact WideString.cut
    | with_reducible refine Cut.bind ?_ fun _ => ?_)

theorem Beat.cut : Cut G P Beat.read := by unfold Beat.read; anlz_fields
theorem Cue.cut : Cut G P Cue.read := by unfold Cue.read; anlz_fields
theorem ExtendedCue.cut : Cut G P ExtendedCue.read := by unfold ExtendedCue.read; anlz_fields
theorem WaveformPreviewColumn.cut : Cut G P WaveformPreviewColumn.read := by
  unfold WaveformPreviewColumn.read; anlz_fields
theorem TinyWaveformPreviewColumn.cut : Cut G P TinyWaveformPreviewColumn.read := by
  unfold TinyWaveformPreviewColumn.read; anlz_fields
theorem WaveformColorPreviewColumn.cut : Cut G P WaveformColorPreviewColumn.read := by
  unfold WaveformColorPreviewColumn.read; anlz_fields
theorem WaveformColorDetailColumn.cut : Cut G P WaveformColorDetailColumn.read := by
  unfold WaveformColorDetailColumn.read; anlz_fields
theorem Waveform3BandPreviewColumn.cut : Cut G P Waveform3BandPreviewColumn.read := by
  unfold Waveform3BandPreviewColumn.read; anlz_fields
theorem Waveform3BandDetailColumn.cut : Cut G P Waveform3BandDetailColumn.read := by
  unfold Waveform3BandDetailColumn.read; anlz_fields
theorem Phrase.cut : Cut G P Phrase.read := by unfold Phrase.read; anlz_fields

theorem BeatGrid.cut : Cut G P BeatGrid.read := by
  unfold BeatGrid.read; anlz_fields; exact .many Beat.cut _
theorem CueList.cut : Cut G P CueList.read := by
  unfold CueList.read; anlz_fields; exact .many Cue.cut _
theorem ExtendedCueList.cut : Cut G P ExtendedCueList.read := by
  unfold ExtendedCueList.read; anlz_fields; exact .many ExtendedCue.cut _

theorem scanUnits_append {bs t : Bytes} {x : List UInt16 × Nat} : scanUnits bs = some x → scanUnits (bs ++ t) = some x := by
  fun_induction scanUnits bs generalizing x with
  | case1 a b rest h0 =>
    intro h
    rw [List.cons_append, List.cons_append, scanUnits, if_pos h0]
    exact h
  | case2 a b rest h0 ih =>
    intro h
    rw [List.cons_append, List.cons_append, scanUnits, if_neg h0]
    cases hs : scanUnits rest with
    | none => rw [hs] at h; cases h
    | some y => rw [ih hs]; rwa [hs] at h
  | case3 => intro h; cases h

theorem readWideUnits_cut : Cut G P readWideUnits := by
  intro img full p hp _
  unfold CutAt readWideUnits
  cases hs : scanUnits (img.drop p) with
  | none => exact .inl ⟨_, rfl⟩
  | some x =>
    obtain ⟨t, rfl⟩ := hp
    refine .inr (.inl ?_)
    by_cases hle : p ≤ img.length
    · rw [List.drop_append_of_le_length hle, scanUnits_append hs]
    · rw [List.drop_eq_nil_of_le (by omega)] at hs
      cases hs

theorem Path.cut (h : Header) : Cut G P (Path.read h) := by
  unfold Path.read; anlz_fields; exact readWideUnits_cut
theorem Vbr.cut (h : Header) : Cut G P (Vbr.read h) := by unfold Vbr.read; anlz_fields
theorem WaveformPreview.cut (h : Header) : Cut G P (WaveformPreview.read h) := by
  unfold WaveformPreview.read; anlz_fields; exact .many WaveformPreviewColumn.cut _
theorem TinyWaveformPreview.cut (h : Header) : Cut G P (TinyWaveformPreview.read h) := by
  unfold TinyWaveformPreview.read; anlz_fields; exact .many TinyWaveformPreviewColumn.cut _
theorem readEntryLens_cut (h : Header) (n : UInt32) : Cut G P (readEntryLens h n) := by
  unfold readEntryLens; anlz_fields
theorem WaveformDetail.cut (h : Header) : Cut G P (WaveformDetail.read h) := by
  unfold WaveformDetail.read; anlz_fields
  · exact readEntryLens_cut _ _
  · exact .many WaveformPreviewColumn.cut _
theorem WaveformColorPreview.cut (h : Header) : Cut G P (WaveformColorPreview.read h) := by
  unfold WaveformColorPreview.read; anlz_fields
  · exact readEntryLens_cut _ _
  · exact .many WaveformColorPreviewColumn.cut _
theorem WaveformColorDetail.cut (h : Header) : Cut G P (WaveformColorDetail.read h) := by
  unfold WaveformColorDetail.read; anlz_fields
  · exact readEntryLens_cut _ _
  · exact .many WaveformColorDetailColumn.cut _
theorem Waveform3BandPreview.cut (h : Header) : Cut G P (Waveform3BandPreview.read h) := by
  unfold Waveform3BandPreview.read; anlz_fields
  · exact readEntryLens_cut _ _
  · exact .many Waveform3BandPreviewColumn.cut _
theorem Waveform3BandDetail.cut (h : Header) : Cut G P (Waveform3BandDetail.read h) := by
  unfold Waveform3BandDetail.read; anlz_fields
  · exact readEntryLens_cut _ _
  · exact .many Waveform3BandDetailColumn.cut _
theorem Unknown.cut (h : Header) : Cut G P (Unknown.read h) := by unfold Unknown.read; anlz_fields

theorem SongStructureData.cut (n : UInt16) : Cut G P (SongStructureData.read n) := by
  unfold SongStructureData.read; anlz_fields; exact .many Phrase.cut _

theorem decipher_prefix (key : Bytes) (p : Nat) {img full : Bytes} (h : img <+: full) :
    SongStructureData.decipher key p img <+: SongStructureData.decipher key p full := by
  obtain ⟨t, rfl⟩ := h
  unfold SongStructureData.decipher
  by_cases hle : p ≤ img.length
  · rw [List.take_append_of_le_length hle, List.drop_append_of_le_length hle, XorStream.xorBuf_append, ← List.append_assoc]
    exact List.prefix_append _ _
  · have hle : img.length ≤ p := by omega
    rw [List.take_of_length_le hle, List.drop_eq_nil_of_le hle, List.take_append]
    simp only [XorStream.xorBuf, List.append_nil, List.append_assoc]
    rw [List.take_of_length_le hle]
    exact List.prefix_append _ _

theorem SongStructureData.readEncrypted_cut (b : Bool) (n : UInt16) : Cut G P (SongStructureData.readEncrypted b n) := by
  intro img full p hp _
  unfold CutAt SongStructureData.readEncrypted
  cases b with
  | false => exact SongStructureData.cut (G := fun _ => True) n img full p hp trivial
  | true =>
    simp only [if_true]
    cases hk : SongStructureData.getKey n SongStructureData.keyData with
    | ok key => exact SongStructureData.cut (G := fun _ => True) n _ _ p (decipher_prefix key p hp) trivial
    | err e => exact .inl ⟨e, rfl⟩
    | panic => exact .inr (.inl rfl)

theorem SongStructure.cut (h : Header) : Cut G P (SongStructure.read h) := by
  unfold SongStructure.read; anlz_fields
  · exact .restore (.bind (.bytes _) fun _ => .lift _)
  · exact SongStructureData.readEncrypted_cut _ _

theorem variant_cut {α : Type} (g : Bool) {r : Rd α} (f : α → Content) (h : Cut G P r) : Cut G P (Content.variant g r f) :=
  .bind (.require _ _) fun _ => .bind h fun _ => .pure _

theorem variant_fails {α : Type} {g : Bool} (r : Rd α) (f : α → Content) (h : g = false) : Fails (Content.variant g r f) :=
  Fails.require h _

/-- Alternatives after the one that is meant all fail. -/
macro "other_kinds" : tactic =>
  `(tactic| repeat' first
    | exact variant_fails _ _ rfl
    | refine Fails.orElse (variant_fails _ _ rfl) ?_)

theorem Content.cut (h : Header) : Cut G P (Content.read h) := by
  obtain ⟨k, s, t⟩ := h
  unfold Content.read
  cases k <;> repeat' first
    | refine Cut.orElse_right (variant_fails _ _ rfl) ?_
    | exact Cut.orElse_left (variant_cut _ _ BeatGrid.cut) (by other_kinds)
    | exact Cut.orElse_left (variant_cut _ _ CueList.cut) (by other_kinds)
    | exact Cut.orElse_left (variant_cut _ _ ExtendedCueList.cut) (by other_kinds)
    | exact Cut.orElse_left (variant_cut _ _ (Path.cut _)) (by other_kinds)
    | exact Cut.orElse_left (variant_cut _ _ (Vbr.cut _)) (by other_kinds)
    | exact Cut.orElse_left (variant_cut _ _ (WaveformPreview.cut _)) (by other_kinds)
    | exact Cut.orElse_left (variant_cut _ _ (TinyWaveformPreview.cut _)) (by other_kinds)
    | exact Cut.orElse_left (variant_cut _ _ (WaveformDetail.cut _)) (by other_kinds)
    | exact Cut.orElse_left (variant_cut _ _ (WaveformColorPreview.cut _)) (by other_kinds)
    | exact Cut.orElse_left (variant_cut _ _ (WaveformColorDetail.cut _)) (by other_kinds)
    | exact Cut.orElse_left (variant_cut _ _ (Waveform3BandPreview.cut _)) (by other_kinds)
    | exact Cut.orElse_left (variant_cut _ _ (Waveform3BandDetail.cut _)) (by other_kinds)
    | exact Cut.orElse_left (variant_cut _ _ (SongStructure.cut _)) (by other_kinds)
    | exact variant_cut _ _ (Unknown.cut _)

theorem AnlzSection.cut : Cut G P AnlzSection.read :=
  .bind Header.cut fun _ => .bind (Content.cut _) fun _ => .pure _

theorem parseSections_err {fin : Nat} {d : Bytes} {p : Nat} {e : Err} (h : p < fin) (hs : AnlzSection.read d p = .err e) :
    AnlzFile.parseSections fin d p = .err e := by
  rw [AnlzFile.parseSections.eq_def, dif_pos h]
  split
  · rename_i h'; rw [hs] at h'; cases h'
  · rename_i h'; rw [hs] at h'; cases h'; rfl
  · rename_i h'; rw [hs] at h'; cases h'

theorem parseSections_panic {fin : Nat} {d : Bytes} {p : Nat} (h : p < fin) (hs : AnlzSection.read d p = .panic) :
    AnlzFile.parseSections fin d p = .panic := by
  rw [AnlzFile.parseSections.eq_def, dif_pos h]
  split
  · rename_i h'; rw [hs] at h'; cases h'
  · rename_i h'; rw [hs] at h'; cases h'
  · rfl

theorem AnlzFile.parseSections_cut (fin : Nat) {img full : Bytes} (hp : img <+: full) (p : Nat) :
    CutAt P (AnlzFile.parseSections fin) img full p := by
  induction hm : fin - p using Nat.strongRecOn generalizing p with
  | ind m ih =>
    subst hm
    unfold CutAt
    by_cases hlt : p < fin
    · have hc := AnlzSection.cut (G := fun _ => True) (P := False) img full p hp trivial
      cases hs : AnlzSection.read img p with
      | err e => exact .inl ⟨e, parseSections_err hlt hs⟩
      | panic =>
        rcases hc with ⟨e, h⟩ | h | ⟨h, -⟩
        · rw [hs] at h; cases h
        · rw [parseSections_panic hlt hs, parseSections_panic hlt (h.trans hs)]
          exact .inr (.inl rfl)
        · exact h.elim
      | ok x =>
        obtain ⟨s, q⟩ := x
        have hq := AnlzSection.read_progress hs
        rw [parseSections_step hlt hs, parseSections_step hlt (hc.ok hs)]
        rcases ih (fin - q) (by omega) q rfl with ⟨e, h⟩ | h | ⟨hP, h⟩
        · rw [h]; exact .inl ⟨e, rfl⟩
        · rw [h]; exact .inr (.inl rfl)
        · rw [h]; exact .inr (.inr ⟨hP, rfl⟩)
    · rw [parseSections_done hlt, parseSections_done hlt]
      exact .inr (.inl rfl)

theorem AnlzFile.cut : Cut G P AnlzFile.read :=
  .bind Header.cut fun _ => .bind (.require _ _) fun _ => .bind (.lift _) fun _ => .bind (.bytes _) fun _ =>
    .bind (.lift _) fun n => .bind (fun _ _ p hp _ => AnlzFile.parseSections_cut (p + n) hp p) fun _ => .pure _

end Anlz

/-! ## Settings -/

theorem readOption_cut {α : Type} [OptionCode α] {G : Bytes → Prop} {P : Prop} : Cut G P (readOption : Rd α) := by
  refine .bind .u8 fun v => ?_
  split
  · exact .pure _
  · exact .fail _

/-- Closes goals about readers that are sequences of field readers. -/
macro "setting_fields" : tactic =>
  `(tactic| repeat' first
    | with_reducible exact Cut.pure _
    | with_reducible exact readOption_cut
    | with_reducible exact Cut.u8
    | with_reducible exact Cut.u16
    | with_reducible exact Cut.u32
    | with_reducible exact Cut.bytes _
    | with_reducible exact Cut.require _ _
    | with_reducible refine Cut.bind ?_ fun _ => ?_)

variable {G : Bytes → Prop} {P : Prop}

theorem DevSetting.cut : Cut G P DevSetting.read := by unfold DevSetting.read; setting_fields
theorem DJMMySetting.cut : Cut G P DJMMySetting.read := by unfold DJMMySetting.read; setting_fields
theorem MySetting.cut : Cut G P MySetting.read := by unfold MySetting.read; setting_fields
theorem MySetting2.cut : Cut G P MySetting2.read := by unfold MySetting2.read; setting_fields

theorem SettingData.cut (t : SettingType) : Cut G P (SettingData.read t) := by
  unfold SettingData.read
  cases t
  · exact Cut.orElse_left (.bind (.require _ _) fun _ => .bind DevSetting.cut fun _ => .pure _)
      ((Fails.require rfl _).orElse ((Fails.require rfl _).orElse (Fails.require rfl _)))
  · exact Cut.orElse_right (Fails.require rfl _)
      (Cut.orElse_left (.bind (.require _ _) fun _ => .bind DJMMySetting.cut fun _ => .pure _)
        ((Fails.require rfl _).orElse (Fails.require rfl _)))
  · exact Cut.orElse_right (Fails.require rfl _) (Cut.orElse_right (Fails.require rfl _)
      (Cut.orElse_left (.bind (.require _ _) fun _ => .bind MySetting.cut fun _ => .pure _) (Fails.require rfl _)))
  · exact Cut.orElse_right (Fails.require rfl _) (Cut.orElse_right (Fails.require rfl _)
      (Cut.orElse_right (Fails.require rfl _) (.bind (.require _ _) fun _ => .bind MySetting2.cut fun _ => .pure _)))

theorem Setting.readName_cut : Cut G P Setting.readName :=
  .bind .pos fun _ => .bind .readNullString fun _ => .bind .pos fun _ => .bind (.seekTo _) fun _ =>
    .bind (.require _ _) fun _ => .pure _

theorem Setting.cut (t : SettingType) : Cut G P (Setting.read t) :=
  .bind .u32 fun _ => .bind (.require _ _) fun _ => .bind readName_cut fun _ => .bind readName_cut fun _ =>
    .bind readName_cut fun _ => .bind .u32 fun _ => .bind (.require _ _) fun _ => .bind (SettingData.cut t) fun _ =>
    .bind .u16 fun _ => .bind .u16 fun _ => .bind (.require _ _) fun _ => .pure _

end Rekordcrate
