import Verif.Props.AnlzRewrite
import Verif.Props.WrapRewrite

/-! # C89: which analysis files are written back as they were by builds without overflow checks -/

namespace Rekordcrate.Anlz
open Rd

/-! ## Comments and extended cues -/

theorem WideString.byteLenWrap_eq (s : WideString) : s.byteLenWrap = s.byteCount % 2 ^ 32 := by
  unfold WideString.byteLenWrap WideString.byteCount mulWrap32 addWrap32
  by_cases h : s.val = ""
  · simp [h]
  · rw [if_neg (by simpa using h), if_neg h]
    omega

theorem WideString.encWrap_eq (s : WideString) (h : s.byteCount < 2 ^ 32) :
    s.encWrap = encU32be (UInt32.ofNat s.canonical.length) ++ s.canonical := by
  have hl := s.byteLenWrap_eq
  rw [Nat.mod_eq_of_lt h] at hl
  unfold WideString.encWrap
  rw [hl, s.canonical_length]
  unfold WideString.byteCount WideString.canonical
  split
  · simp
  · rw [if_pos (by omega)]

theorem ExtendedCue.encWrap_eq (c : ExtendedCue) (h : c.comment.byteCount < 2 ^ 32) :
    c.encWrap = c.bytesWith c.comment.canonical := by
  unfold ExtendedCue.encWrap ExtendedCue.bytesWith
  rw [c.comment.encWrap_eq h]

theorem WideString.encWrap_length_field (s : WideString) : ∃ xs,
    s.encWrap = encU32be (UInt32.ofNat (s.byteCount % 2 ^ 32)) ++ xs := by
  unfold WideString.encWrap
  rw [s.byteLenWrap_eq]
  split
  · exact ⟨_, rfl⟩
  · exact ⟨[], by rw [List.append_nil]⟩

theorem extended_cue_at_rewrite_wrap {d : Bytes} {c : ExtendedCue} {p q : Nat} (h : c.At false d p q) :
    ∃ bs, Res.ok c.encWrap = .ok bs ∧ (HasAt d p bs ↔ U32BeAt d (p + 40) c.comment.byteCount) ∧
      (U32BeAt d (p + 40) c.comment.byteCount → q = p + bs.length) := by
  obtain ⟨bs, hb, hq, raw, hl, hr, rfl⟩ := ExtendedCue.inv_wrap _ _ _ _ (extended_cue_release_read_iff.2 h)
  have hraw : U32BeAt d (p + 40) raw.length := by
    have hb := hb
    unfold ExtendedCue.bytesWith at hb
    rw [HasAt.append_iff, HasAt.append_iff, HasAt.append_iff, ExtendedCue.front_length] at hb
    have := U32BeAt.of_hasAt hb.2.1.1
    rwa [toNat_ofNat32 hl] at this
  have hle := hr.byteCount_le
  have key : U32BeAt d (p + 40) c.comment.byteCount → c.encWrap = c.bytesWith raw := by
    intro hu
    have : raw.length = c.comment.byteCount := U32BeAt.unique hraw hu
    rw [c.encWrap_eq (by omega), ← hr.canonical this]
  refine ⟨_, rfl, ⟨fun hb' => ?_, fun hu => by rwa [key hu]⟩, fun hu => by rw [key hu]; exact hq⟩
  obtain ⟨xs, hxs⟩ := c.comment.encWrap_length_field
  unfold ExtendedCue.encWrap at hb'
  rw [hxs, HasAt.append_iff, HasAt.append_iff, HasAt.append_iff, ExtendedCue.front_length] at hb'
  have hu := U32BeAt.of_hasAt hb'.2.1.1
  rw [toNat_ofNat32 (Nat.mod_lt _ (by decide))] at hu
  have he : raw.length = c.comment.byteCount % 2 ^ 32 := U32BeAt.unique hraw hu
  have : raw.length = c.comment.byteCount := by omega
  rwa [this] at hraw

theorem extended_cue_end_unique_wrap {d : Bytes} {c : ExtendedCue} {p q q' : Nat} (h : c.At false d p q)
    (h' : c.At false d p q') : q = q' := by
  have := (extended_cue_release_read_iff.2 h).symm.trans (extended_cue_release_read_iff.2 h')
  injection this with this
  injection this

/-! ## Sections -/

theorem section_at_rewrite_wrap {d : Bytes} {s : AnlzSection} {p q : Nat} (h : s.At false d p q) :
    ∃ bs, Res.ok s.encWrap = .ok bs ∧ (HasAt d p bs ↔ s.AsWritten false d p) ∧
      (s.AsWritten false d p → q = p + bs.length) := by
  rcases Classical.em s.HasComments with ⟨c, hc⟩ | hn
  · obtain ⟨_, hb, _, ⟨cb, hcb, rfl⟩, _⟩ := AnlzSection.inv_wrap _ _ _ _ (anlz_section_release_read_iff.2 h)
    obtain ⟨h1, h2⟩ := h
    rw [hc] at h2 hcb
    obtain ⟨raws, inner, _, rfl⟩ := hcb
    obtain ⟨_, _, _, _, _, g6⟩ := h2
    obtain ⟨bs, e, k1, k2⟩ := list_rewrite (enc := fun x => .ok (ExtendedCue.encWrap x))
      (R := fun x p q => ExtendedCue.At false d p x q)
      (C := fun x p => U32BeAt d (p + 40) x.comment.byteCount) (fun x p q => extended_cue_at_rewrite_wrap)
      (fun x p q q' => extended_cue_end_unique_wrap) extended_cues_nil extended_cues_cons g6
    rw [encAll_ok fun _ _ => rfl] at e
    injection e with e
    have hw : s.AsWritten false d p ↔ HasAt d (p + 20) bs := by
      rw [k1]
      exact ⟨fun hw => hw c hc, fun hw c' hc' => by
        rw [hc] at hc'
        injection hc' with hc'
        rw [← hc']
        exact hw⟩
    have hsplit : ∀ xs : Bytes, HasAt d p (s.header.enc ++ c.bytesWith xs) ↔
        (HasAt d p s.header.enc ∧ HasAt d (p + 12) c.listType.enc ∧
          HasAt d (p + 16) (encU16be (UInt16.ofNat c.cues.length)) ∧ HasAt d (p + 18) (encU16be c.unknown)) ∧
          HasAt d (p + 20) xs := by
      intro xs
      unfold ExtendedCueList.bytesWith
      simp only [HasAt.append_iff, Header.enc_length, CueListType.enc_length, encU16be_length, Nat.add_assoc,
        Nat.reduceAdd, and_assoc]
    have he : s.encWrap = s.header.enc ++ c.bytesWith bs := by
      unfold AnlzSection.encWrap Content.encWrap
      rw [hc]
      simp only [ExtendedCueList.encWrap, ExtendedCueList.bytesWith]
      rw [e]
    refine ⟨_, rfl, ?_, ?_⟩
    · rw [he, hw, hsplit]
      exact ⟨fun x => x.2, fun x => ⟨((hsplit inner).1 hb).1, x⟩⟩
    · intro x
      rw [he, k2 (hw.1 x), ExtendedCueList.bytesWith]
      simp only [List.length_append, Header.enc_length, CueListType.enc_length, encU16be_length]
      omega
  · obtain ⟨_, h2, h3⟩ := (section_release_read_iff hn _ _ _).1 (anlz_section_release_read_iff.2 h)
    have hw : s.AsWritten false d p := fun c hc => absurd ⟨c, hc⟩ hn
    exact ⟨_, rfl, ⟨fun _ => hw, fun _ => h2⟩, fun _ => h3⟩

/-- C89, exact: without overflow checks, a section that was read is written back byte for byte exactly if every comment
of an extended cue in it has the length field that the writer gives it. -/
theorem section_release_rewrite_iff {d : Bytes} {p q : Nat} {s : AnlzSection}
    (h : AnlzSection.readWrap d p = .ok (s, q)) :
    (HasAt d p s.encWrap ∧ q = p + s.encWrap.length) ↔ s.AsWritten false d p := by
  obtain ⟨bs, e, h1, h2⟩ := section_at_rewrite_wrap (anlz_section_release_read_iff.1 h)
  injection e with e
  subst e
  exact ⟨fun x => h1.1 x.1, fun x => ⟨h1.2 x, h2 x⟩⟩

/-! ## Files -/

/-- C89, exact: without overflow checks, a file that was read is written back byte for byte exactly if every comment of
an extended cue in it has the length field that the writer gives it. -/
theorem anlz_release_rewrite_iff {d : Bytes} {p q : Nat} {a : AnlzFile} (h : AnlzFile.readWrap d p = .ok (a, q)) :
    (HasAt d p a.encWrap ∧ q = p + a.encWrap.length) ↔
      ∀ before s after m, a.sections = before ++ s :: after →
        AnlzSection.Row false d (p + 12 + a.headerData.length) before m → s.AsWritten false d m := by
  obtain ⟨h1, h2, h3⟩ := (anlz_release_read_iff.1 h).row
  obtain ⟨bs, e, k1, k2⟩ := list_rewrite (enc := fun x => .ok (AnlzSection.encWrap x))
    (R := fun s p q => AnlzSection.At false d p s q)
    (C := fun s p => AnlzSection.AsWritten false d p s) (fun x p q => section_at_rewrite_wrap)
    (fun x p q q' => section_end_unique) AnlzSection.row_nil AnlzSection.row_cons h3
  rw [encAll_ok fun _ _ => rfl] at e
  injection e with e
  have he : a.encWrap = a.header.enc ++ (a.headerData ++ bs) := by
    unfold AnlzFile.encWrap
    rw [← e]
  have hsplit : HasAt d p (a.header.enc ++ (a.headerData ++ bs)) ↔ HasAt d (p + 12 + a.headerData.length) bs := by
    rw [HasAt.append_iff, HasAt.append_iff, Header.enc_length]
    exact ⟨fun x => x.2.2, fun x => ⟨h1, h2, x⟩⟩
  rw [← k1, he, hsplit]
  refine ⟨fun x => x.1, fun x => ⟨x, ?_⟩⟩
  rw [k2 x]
  simp only [List.length_append, Header.enc_length]
  omega

/-! ## Concrete cases -/

/-- With comments as the writer stores them, the file is written back byte for byte. -/
example : AnlzFile.readWrap (cueFile 4 3 72 [0, 0x61, 0, 0]) 0 = .ok (cueFileValue 260 3 72, 260) ∧
    (cueFileValue 260 3 72).encWrap = cueFile 4 3 72 [0, 0x61, 0, 0] := by
  decide +kernel

/-- C89: without overflow checks, too, a section is lost without notice if the comments have no terminator. -/
theorem anlz_release_rewrite_drops_section :
    AnlzFile.readWrap (cueFile 208 6 72 [0, 0x61]) 0 = .ok (cueFileValue 464 6 72, 464) ∧
    ∃ a, AnlzFile.readWrap (cueFileValue 464 6 72).encWrap 0 = .ok (a, 464) ∧
      (cueFileValue 464 6 72).sections.length = 2 ∧ a.sections.length = 1 :=
  ⟨by decide +kernel,
    { cueFileValue 464 6 72 with sections := (cueFileValue 464 6 72).sections.take 1 }, by decide +kernel, rfl, rfl⟩

end Rekordcrate.Anlz
