import Verif.Spec.AnlzPanicLong
import Verif.Props.AnlzAt

/-! # C47: exactly which analysis files of any size make the parser panic -/

namespace Rekordcrate.Anlz
open Rd

theorem Path.panic_full {h : Header} {d : Bytes} {p : Nat} :
    Path.read h d (p + 12) = .panic ↔ BadPath d p h := by
  unfold Path.read BadPath
  rw [u32_panic_iff]
  simp only [lift_panic_iff, require_panic_iff, Header.contentSize_panic, Header.contentSize_ok, beq_iff_eq]
  have hlen : ∀ us : List UInt16, Path.lenPath ⟨us⟩ = .panic ↔ 2 ^ 32 ≤ 2 * (us.length % 2 ^ 32 + 1) := by
    intro us
    unfold Path.lenPath
    simp only
    split
    · split
      · simp only [reduceCtorEq, false_iff]; omega
      · simp only [true_iff]; omega
    · simp only [true_iff]; omega
  constructor
  · rintro ⟨n, hn, hs⟩
    refine ⟨u32_there.1 ⟨n, hn⟩, ?_⟩
    rcases hs with hs | ⟨k, hk, hnk, hp⟩
    · exact .inl hs
    obtain ⟨us, q, hus, hp⟩ := panic_skip readWideUnits_np hp
    obtain ⟨h1, h2, rfl⟩ := wideUnits_read_iff.1 hus
    right
    rw [toNat_ofNat32 hn.lt] at hnk
    subst hnk
    refine ⟨n, hn, hk, us, h1, h2, ?_⟩
    simp only [lift_panic_iff, require_panic_iff, Header.contentSize_panic, Header.contentSize_ok] at hp
    rcases hp with hp | ⟨_, _, _, hp | ⟨_, _, _, hp⟩⟩
    · omega
    · exact (hlen us).1 hp
    · cases hp
  · rintro ⟨hl, hs⟩
    rcases hs with hs | ⟨n, hn, hk, us, h1, h2, h3⟩
    · obtain ⟨n, hn⟩ := u32_there.2 hl
      exact ⟨n, hn, .inl hs⟩
    · refine ⟨n, hn, .inr ⟨n, hk, toNat_ofNat32 hn.lt, ?_⟩⟩
      rw [bind_of_ok (wideUnits_read_iff.2 ⟨h1, h2, rfl⟩)]
      simp only [lift_panic_iff, require_panic_iff, Header.contentSize_panic, Header.contentSize_ok]
      exact .inr ⟨n, hk, by rw [toNat_ofNat32 hn.lt]; exact beq_self_eq_true _, .inl ((hlen us).2 h3)⟩

theorem trailingLen_panic {h : Header} {s : WideString} (hs : s.byteCount ≤ 2 ^ 32) :
    ExtendedCue.trailingLen h s = .panic ↔ 2 ^ 32 ≤ 68 + s.byteCount := by
  constructor
  · intro hp
    rcases Nat.lt_or_ge (68 + s.byteCount) (2 ^ 32) with hlt | hge
    · rw [(trailingLen_iff hs).2 ⟨hlt, rfl⟩] at hp
      cases hp
    · exact hge
  · intro hge
    cases ht : ExtendedCue.trailingLen h s with
    | ok n =>
      have := ((trailingLen_iff hs).1 ht).1
      omega
    | err e =>
      exfalso
      unfold ExtendedCue.trailingLen at ht
      rcases hb : s.byteLen with n | e' | _
      · rw [hb, Res.ok_bind] at ht
        split at ht <;> cases ht
      · unfold WideString.byteLen at hb
        simp only at hb
        repeat' split at hb
        all_goals cases hb
      · rw [hb] at ht
        cases ht
    | panic => rfl

theorem ExtendedCue.panic_iff {d : Bytes} {p : Nat} : ExtendedCue.read d p = .panic ↔ LongCue d p := by
  unfold ExtendedCue.read LongCue
  constructor
  · intro h
    obtain ⟨x, _, h1, h⟩ := panic_skip Header.np h
    obtain ⟨g1, rfl⟩ := header_at_iff.1 h1
    obtain ⟨_, _, h2, h⟩ := panic_skip NP.u32be h
    obtain ⟨-, rfl⟩ := u32be_read_iff.1 h2
    obtain ⟨t, _, h3, h⟩ := panic_skip CueType.np h
    obtain ⟨g3, rfl⟩ := cueType_read_iff.1 h3
    obtain ⟨_, _, h2, h⟩ := panic_skip NP.u8 h
    obtain ⟨-, rfl⟩ := u8_read_iff.1 h2
    obtain ⟨_, _, h2, h⟩ := panic_skip NP.u16be h
    obtain ⟨-, rfl⟩ := u16be_read_iff.1 h2
    obtain ⟨_, _, h2, h⟩ := panic_skip NP.u32be h
    obtain ⟨-, rfl⟩ := u32be_read_iff.1 h2
    obtain ⟨_, _, h2, h⟩ := panic_skip NP.u32be h
    obtain ⟨-, rfl⟩ := u32be_read_iff.1 h2
    obtain ⟨c, _, h4, h⟩ := panic_skip ColorIndex.np h
    obtain ⟨g4, rfl⟩ := colorNumber_read_iff.1 h4
    obtain ⟨_, _, h2, h⟩ := panic_skip NP.u8 h
    obtain ⟨-, rfl⟩ := u8_read_iff.1 h2
    obtain ⟨_, _, h2, h⟩ := panic_skip NP.u16be h
    obtain ⟨-, rfl⟩ := u16be_read_iff.1 h2
    obtain ⟨_, _, h2, h⟩ := panic_skip NP.u32be h
    obtain ⟨-, rfl⟩ := u32be_read_iff.1 h2
    obtain ⟨_, _, h2, h⟩ := panic_skip NP.u16be h
    obtain ⟨-, rfl⟩ := u16be_read_iff.1 h2
    obtain ⟨_, _, h2, h⟩ := panic_skip NP.u16be h
    obtain ⟨-, rfl⟩ := u16be_read_iff.1 h2
    obtain ⟨s, m, h5, h⟩ := panic_skip WideString.np h
    have h5 := comment_read_iff.1 h5
    iterate 4
      obtain ⟨_, _, h2, h⟩ := panic_skip NP.u8 h
      obtain ⟨-, rfl⟩ := u8_read_iff.1 h2
    iterate 4
      obtain ⟨_, _, h2, h⟩ := panic_skip NP.u32be h
      obtain ⟨-, rfl⟩ := u32be_read_iff.1 h2
    obtain ⟨_, _, h6, h⟩ := panic_skip NP.u32be h
    obtain ⟨h7, rfl⟩ := u32be_read_iff.1 h6
    have hl := u32_there.1 ⟨_, h7⟩
    rcases panic_compute h with h | ⟨n, _, h⟩
    · exact ⟨x, g1, ⟨t, g3⟩, ⟨c, g4⟩, s, m, h5, by omega, (trailingLen_panic h5.byteCount_le).1 h⟩
    · exact no_panic (NP.bind (NP.bytes _) fun _ => NP.pure _) h
  · rintro ⟨x, h1, ⟨t, h3⟩, ⟨c, h4⟩, s, m, h5, hl, hs⟩
    have hm : p + 44 ≤ m := by
      obtain ⟨raw, -, -, -, rfl⟩ := h5
      omega
    have b8 : ∀ q, q < m + 24 → ∃ v, Rd.u8 d q = .ok (v, q + 1) := fun q hq =>
      ⟨d[q]'(by omega), u8_read_iff.2 ⟨List.getElem?_eq_getElem (by omega), rfl⟩⟩
    have b16 : ∀ q, q + 2 ≤ m + 24 → ∃ v, Rd.u16be d q = .ok (v, q + 2) := by
      intro q hq
      obtain ⟨n, hn⟩ : ∃ n, U16BeAt d q n :=
        ⟨_, _, _, List.getElem?_eq_getElem (by omega), List.getElem?_eq_getElem (by omega), rfl⟩
      exact ⟨UInt16.ofNat n, u16be_read_iff.2 ⟨by rw [toNat_ofNat16 hn.lt]; exact hn, rfl⟩⟩
    have b32 : ∀ q, q + 4 ≤ m + 24 → ∃ v, Rd.u32be d q = .ok (v, q + 4) := by
      intro q hq
      obtain ⟨n, hn⟩ := u32_there.2 (show q + 4 ≤ d.length by omega)
      exact ⟨UInt32.ofNat n, u32be_read_iff.2 ⟨by rw [toNat_ofNat32 hn.lt]; exact hn, rfl⟩⟩
    rw [bind_of_ok (header_at_iff.2 ⟨h1, rfl⟩)]
    obtain ⟨_, e⟩ := b32 (p + 12) (by omega)
    rw [bind_of_ok e, bind_of_ok (cueType_read_iff.2 ⟨h3, rfl⟩)]
    obtain ⟨_, e⟩ := b8 (p + 16 + 1) (by omega)
    rw [bind_of_ok e]
    obtain ⟨_, e⟩ := b16 (p + 16 + 1 + 1) (by omega)
    rw [bind_of_ok e]
    obtain ⟨_, e⟩ := b32 (p + 16 + 1 + 1 + 2) (by omega)
    rw [bind_of_ok e]
    obtain ⟨_, e⟩ := b32 (p + 16 + 1 + 1 + 2 + 4) (by omega)
    rw [bind_of_ok e, bind_of_ok (colorNumber_read_iff.2 ⟨h4, rfl⟩)]
    obtain ⟨_, e⟩ := b8 (p + 28 + 1) (by omega)
    rw [bind_of_ok e]
    obtain ⟨_, e⟩ := b16 (p + 28 + 1 + 1) (by omega)
    rw [bind_of_ok e]
    obtain ⟨_, e⟩ := b32 (p + 28 + 1 + 1 + 2) (by omega)
    rw [bind_of_ok e]
    obtain ⟨_, e⟩ := b16 (p + 28 + 1 + 1 + 2 + 4) (by omega)
    rw [bind_of_ok e]
    obtain ⟨_, e⟩ := b16 (p + 28 + 1 + 1 + 2 + 4 + 2) (by omega)
    rw [bind_of_ok e, bind_of_ok (comment_read_iff.2 h5)]
    obtain ⟨_, e⟩ := b8 m (by omega)
    rw [bind_of_ok e]
    obtain ⟨_, e⟩ := b8 (m + 1) (by omega)
    rw [bind_of_ok e]
    obtain ⟨_, e⟩ := b8 (m + 1 + 1) (by omega)
    rw [bind_of_ok e]
    obtain ⟨_, e⟩ := b8 (m + 1 + 1 + 1) (by omega)
    rw [bind_of_ok e]
    obtain ⟨_, e⟩ := b32 (m + 1 + 1 + 1 + 1) (by omega)
    rw [bind_of_ok e]
    obtain ⟨_, e⟩ := b32 (m + 1 + 1 + 1 + 1 + 4) (by omega)
    rw [bind_of_ok e]
    obtain ⟨_, e⟩ := b32 (m + 1 + 1 + 1 + 1 + 4 + 4) (by omega)
    rw [bind_of_ok e]
    obtain ⟨_, e⟩ := b32 (m + 1 + 1 + 1 + 1 + 4 + 4 + 4) (by omega)
    rw [bind_of_ok e]
    obtain ⟨_, e⟩ := b32 (m + 1 + 1 + 1 + 1 + 4 + 4 + 4 + 4) (by omega)
    rw [bind_of_ok e]
    exact lift_panic_iff.2 (.inl ((trailingLen_panic h5.byteCount_le).2 hs))

theorem cues_panic_iff {d : Bytes} {n p : Nat} : Rd.many ExtendedCue.read n d p = .panic ↔
    ∃ cs q, cs.length < n ∧ ExtendedCue.ListAt true d p cs q ∧ LongCue d q := by
  induction n generalizing p with
  | zero =>
    constructor
    · intro h; cases h
    · rintro ⟨cs, q, h, -⟩; cases h
  | succ n ih =>
    rw [Rd.many, bind_eq_panic]
    constructor
    · rintro (h | ⟨c, m, h1, h⟩)
      · exact ⟨[], p, Nat.succ_pos n, .nil p, ExtendedCue.panic_iff.1 h⟩
      · rcases bind_eq_panic.1 h with h | ⟨_, _, _, h⟩
        · obtain ⟨cs, q, h2, h3, h4⟩ := ih.1 h
          exact ⟨c :: cs, q, Nat.succ_lt_succ h2, .cons (extended_cue_read_iff.1 h1) h3, h4⟩
        · cases h
    · rintro ⟨cs, q, h2, h3, h4⟩
      cases h3 with
      | nil => exact .inl (ExtendedCue.panic_iff.2 h4)
      | cons h t =>
        exact .inr ⟨_, _, extended_cue_read_iff.2 h, bind_eq_panic.2 (.inl (ih.2 ⟨_, q, Nat.lt_of_succ_lt_succ h2, t, h4⟩))⟩

theorem ExtendedCueList.panic_full {d : Bytes} {p : Nat} :
    ExtendedCueList.read d (p + 12) = .panic ↔ BadCues d p := by
  unfold ExtendedCueList.read BadCues
  constructor
  · intro h
    obtain ⟨t, _, h1, h⟩ := panic_skip CueListType.np h
    obtain ⟨h5, rfl⟩ := listType_read_iff.1 h1
    obtain ⟨n, hn, h⟩ := panic_u16 h
    obtain ⟨u, hu, h⟩ := panic_u16 h
    obtain ⟨h0, h⟩ := panic_check h
    rcases bind_eq_panic.1 h with h | ⟨_, _, _, h⟩
    · obtain ⟨cs, q, h2, h3, h4⟩ := cues_panic_iff.1 h
      simp only [beq_iff_eq] at h0
      subst h0
      exact ⟨⟨t, h5⟩, hu, n.toNat, hn, cs, q, h2, h3, h4⟩
    · cases h
  · rintro ⟨⟨t, h1⟩, hu, n, hn, cs, q, h2, h3, h4⟩
    rw [bind_of_ok (listType_read_iff.2 ⟨h1, rfl⟩), u16_panic_iff]
    refine ⟨n, hn, u16_panic_iff.2 ⟨0, hu, require_panic_iff.2 ⟨rfl, bind_eq_panic.2 (.inl (cues_panic_iff.2 ?_))⟩⟩⟩
    exact ⟨cs, q, by rw [toNat_ofNat16 hn.lt]; exact h2, h3, h4⟩

theorem Header.at_iff {d : Bytes} {p : Nat} {h : Header} : HeaderAt d p h ∧ h.kind.Proper ↔ h.At d p := by
  have h1 := header_read_iff (d := d) (p := p) (q := p + 12) (h := h)
  have h2 := header_at_iff (d := d) (p := p) (q := p + 12) (x := h)
  constructor
  · rintro ⟨a, b⟩
    exact (h2.1 (h1.2 ⟨a, b, rfl⟩)).1
  · intro a
    obtain ⟨b, c, -⟩ := h1.1 (h2.2 ⟨a, rfl⟩)
    exact ⟨b, c⟩

theorem AnlzSection.lead_iff {fin : Nat} {d : Bytes} {p q : Nat} : SectionsTo fin d p q ↔ AnlzSection.Lead fin d p q := by
  constructor
  · intro h
    induction h with
    | here p => exact .here p
    | step h hs _ ih => exact .step h (anlz_section_read_iff.1 hs) ih
  · intro h
    induction h with
    | here p => exact .here p
    | step h hs _ ih => exact .step h (anlz_section_read_iff.2 hs) ih

/-- C47, exact, for sections of any size: reading the section at `p` panics exactly if there is a header at `p` and
`BadSectionAt` describes what is there. -/
theorem section_panic_iff {d : Bytes} {p : Nat} :
    AnlzSection.read d p = .panic ↔ ∃ h : Header, h.At d p ∧ BadSectionAt d p h := by
  rw [section_panic_of (Bad := BadSectionAt d p) fun h hl =>
    Content.panic_iff_of hl Path.panic_full ExtendedCueList.panic_full]
  refine exists_congr fun h => ?_
  rw [← and_assoc, Header.at_iff]

/-- C47, exact, for files of any size: reading a file panics exactly if there is a file header and either it is said
to be shorter than 12 bytes, or it is there in full and the file is said to be shorter than it, or sections lead to
a section described by `BadSectionAt`, which starts before the end of the file that the header gives. -/
theorem anlz_panic_iff {d : Bytes} {p : Nat} :
    AnlzFile.read d p = .panic ↔ ∃ x : Header, x.At d p ∧ x.kind = .file ∧
      (x.size.toNat < 12 ∨
        p + x.size.toNat ≤ d.length ∧ (x.Short ∨
          ∃ q, AnlzSection.Lead (p + x.totalSize.toNat) d (p + x.size.toNat) q ∧ q < p + x.totalSize.toNat ∧
            ∃ h : Header, h.At d q ∧ BadSectionAt d q h)) := by
  rw [anlz_panic_of fun _ => section_panic_iff]
  refine exists_congr fun x => ?_
  simp only [AnlzSection.lead_iff]
  constructor
  · rintro ⟨h1, h2, h3⟩
    exact ⟨Header.at_iff.1 ⟨h1, by rw [h2]; intro hc; cases hc⟩, h2, h3⟩
  · rintro ⟨h1, h2, h3⟩
    exact ⟨(Header.at_iff.2 h1).1, h2, h3⟩

/-- C47, a reason that only files of more than 4 GiB have: a path of `2 ^ 31` units makes the parser panic. -/
theorem long_path_panics (us : List UInt16) (h0 : (0 : UInt16) ∉ us) (hl : us.length = 2 ^ 31) :
    AnlzSection.read ([0x50, 0x50, 0x54, 0x48, 0, 0, 0, 16, 0, 0, 0, 16, 0, 0, 0, 0] ++ encWideUnits us) 0 =
      .panic := by
  have hb : ∀ bs, HasAt ([0x50, 0x50, 0x54, 0x48, 0, 0, 0, 16, 0, 0, 0, 16, 0, 0, 0, 0] ++ bs) 16 bs := by
    intro bs
    exact (HasAt.append_iff.1 (hasAt_self _)).2
  have hr := readWideUnits_rt h0 _ 16 (hb (encWideUnits us))
  obtain ⟨h1, h2, -⟩ := wideUnits_read_iff.1 hr
  refine section_panic_iff.2 ⟨⟨.path, 16, 16⟩, Header.at_iff.1 ⟨⟨?_, ⟨0, 0, 0, 16, rfl, rfl, rfl, rfl, rfl⟩,
    ⟨0, 0, 0, 16, rfl, rfl, rfl, rfl, rfl⟩⟩, (by intro hc; cases hc)⟩, ?_⟩
  · intro i hi
    match i, hi with
    | 0, _ => rfl
    | 1, _ => rfl
    | 2, _ => rfl
    | 3, _ => rfl
  · refine ⟨?_, .inr ⟨0, ⟨0, 0, 0, 0, rfl, rfl, rfl, rfl, rfl⟩, rfl, us, ?_, ?_, ?_⟩⟩
    · simp
    · simpa using h1
    · simpa using h2
    · rw [hl]; omega

/-- There are such paths. -/
example : (0 : UInt16) ∉ List.replicate (2 ^ 31) (0x61 : UInt16) ∧ (List.replicate (2 ^ 31) (0x61 : UInt16)).length = 2 ^ 31 :=
  ⟨fun h => absurd (List.eq_of_mem_replicate h) (by decide), List.length_replicate⟩

/-- An empty file with one section of kind `PVBR` that is said to be shorter than its header. -/
example : ∃ x : Header, x.At [0x50, 0x4d, 0x41, 0x49, 0, 0, 0, 12, 0, 0, 0, 28,
      0x50, 0x56, 0x42, 0x52, 0, 0, 0, 16, 0, 0, 0, 15, 0, 0, 0, 0] 0 ∧ x.kind = .file ∧
    12 ≤ x.size.toNat ∧ ¬ x.Short ∧ ∃ q, AnlzSection.Lead 28 [0x50, 0x4d, 0x41, 0x49, 0, 0, 0, 12, 0, 0, 0, 28,
      0x50, 0x56, 0x42, 0x52, 0, 0, 0, 16, 0, 0, 0, 15, 0, 0, 0, 0] 12 q ∧ ∃ h : Header, h.At [0x50, 0x4d, 0x41, 0x49,
        0, 0, 0, 12, 0, 0, 0, 28, 0x50, 0x56, 0x42, 0x52, 0, 0, 0, 16, 0, 0, 0, 15, 0, 0, 0, 0] q ∧ BadSectionAt [0x50,
        0x4d, 0x41, 0x49, 0, 0, 0, 12, 0, 0, 0, 28, 0x50, 0x56, 0x42, 0x52, 0, 0, 0, 16, 0, 0, 0, 15, 0, 0, 0, 0] q h := by
  refine ⟨⟨.file, 12, 28⟩, (header_at_iff (q := 12).1 (by decide +kernel)).1, rfl, by decide, by unfold Header.Short; decide,
    12, .here _, ⟨.vbr, 16, 15⟩, (header_at_iff (q := 24).1 (by decide +kernel)).1, ?_⟩
  show 28 ≤ _ ∧ _
  exact ⟨by decide, by unfold Header.Short; decide⟩

end Rekordcrate.Anlz
