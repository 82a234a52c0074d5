import Verif.Lemmas.AnlzAt

/-! # Which bytes are read as which content of an analysis file -/

namespace Rekordcrate.Anlz
open Rd

/-! ## Contents -/

theorem Header.leaves_true {h : Header} {n : Nat} : h.contentSize = .ok n ↔ h.Leaves true n := Header.contentSize_eq

theorem Header.leaves_false {h : Header} {n : Nat} (hn : n < 2 ^ 32) : h.contentSizeWrap = n ↔ h.Leaves false n :=
  Header.contentSizeWrap_eq hn

theorem Header.leaves_mod {h : Header} {n : Nat} : h.Leaves false (n % 2 ^ 32) ↔ h.Leaves false n := by
  unfold Header.Leaves Adds
  simp only [Bool.false_eq_true, if_false, Nat.add_mod_mod]

theorem Header.Leaves.lt {h : Header} {n : Nat} (hl : h.Leaves true n) : n < 2 ^ 32 := by
  have := h.totalSize.toNat_lt
  have hl : h.totalSize.toNat = h.size.toNat + n := hl
  omega

theorem Header.header_true {h : Header} {n : Nat} : h.remainingSize = .ok n ↔ Adds true h.size.toNat 12 n :=
  Header.remainingSize_eq

theorem Header.header_false {h : Header} {n : Nat} (hn : n < 2 ^ 32) :
    h.remainingSizeWrap = n ↔ Adds false h.size.toNat 12 n := Header.remainingSizeWrap_eq hn

theorem mulU32_iff {a b n : Nat} : mulU32 a b = .ok n ↔ n = a * b ∧ n < 2 ^ 32 := by
  unfold mulU32
  split
  · simp only [Res.ok.injEq]; omega
  · simp only [reduceCtorEq, false_iff]; omega

theorem entries_read_iff {h : Header} {e v : UInt32} {d : Bytes} {p q : Nat} :
    readEntryLens h e d p = .ok (v, q) ↔ EntriesAt true d p h e.toNat v.toNat ∧ q = p + 8 := by
  unfold readEntryLens EntriesAt
  simp only [bind_eq_ok, pure_eq_ok, u32be_read_iff, require_read_iff, lift_read_iff, beq_iff_eq, mulU32_iff,
    Header.leaves_true]
  constructor
  · rintro ⟨_, _, ⟨h1, rfl⟩, _, _, ⟨rfl, rfl⟩, _, _, ⟨h2, rfl⟩, _, _, ⟨⟨rfl, -⟩, rfl⟩, _, _, ⟨h3, rfl⟩, _, _, ⟨rfl, rfl⟩, rfl, rfl⟩
    exact ⟨⟨h1, h2, h3⟩, rfl⟩
  · rintro ⟨⟨h1, h2, h3⟩, rfl⟩
    exact ⟨_, _, ⟨h1, rfl⟩, (), _, ⟨rfl, rfl⟩, _, _, ⟨h2, rfl⟩, _, _, ⟨⟨rfl, h3.lt⟩, rfl⟩, _, _, ⟨h3, rfl⟩, (), _, ⟨rfl, rfl⟩, rfl, rfl⟩

theorem entries_release_read_iff {h : Header} {e v : UInt32} {d : Bytes} {p q : Nat} :
    readEntryLensWrap h e d p = .ok (v, q) ↔ EntriesAt false d p h e.toNat v.toNat ∧ q = p + 8 := by
  have key : ∀ n, mulWrap32 e.toNat n = h.contentSizeWrap ↔ h.Leaves false (e.toNat * n) := by
    intro n
    rw [eq_comm, mulWrap32, Header.leaves_false (Nat.mod_lt _ (by decide)), Header.leaves_mod]
  unfold readEntryLensWrap EntriesAt
  simp only [bind_eq_ok, pure_eq_ok, u32be_read_iff, require_read_iff, beq_iff_eq]
  constructor
  · rintro ⟨_, _, ⟨h1, rfl⟩, _, _, ⟨rfl, rfl⟩, _, _, ⟨h2, rfl⟩, _, _, ⟨h3, rfl⟩, rfl, rfl⟩
    exact ⟨⟨h1, h2, (key _).1 h3⟩, rfl⟩
  · rintro ⟨⟨h1, h2, h3⟩, rfl⟩
    exact ⟨_, _, ⟨h1, rfl⟩, (), _, ⟨rfl, rfl⟩, _, _, ⟨h2, rfl⟩, (), _, ⟨(key _).2 h3, rfl⟩, rfl, rfl⟩

/-- A number that stands at `p` is the value of a field. -/
theorem _root_.Rekordcrate.U32BeAt.field {d : Bytes} {p n : Nat} (h : U32BeAt d p n) :
    ∃ v : UInt32, v.toNat = n := ⟨UInt32.ofNat n, toNat_ofNat32 h.lt⟩

theorem _root_.Rekordcrate.U16BeAt.field {d : Bytes} {p n : Nat} (h : U16BeAt d p n) :
    ∃ v : UInt16, v.toNat = n := ⟨UInt16.ofNat n, toNat_ofNat16 h.lt⟩

theorem beatGrid_read_iff {d : Bytes} {p : Nat} {c : BeatGrid} {q : Nat} {h : Header} (hk : h.kind = .beatGrid)
    {checked : Bool} : BeatGrid.read d p = .ok (c, q) ↔ (Content.beatGrid c).At checked h d p q := by
  unfold BeatGrid.read Content.At
  simp only [bind_eq_ok, pure_eq_ok, u32be_read_iff, many_read_iff (fun _ _ _ => beat_read_iff)]
  constructor
  · rintro ⟨_, _, ⟨h1, rfl⟩, _, _, ⟨h2, rfl⟩, n, _, ⟨h3, rfl⟩, l, _, ⟨h4, h5, rfl⟩, rfl, rfl⟩
    exact ⟨hk, h1, h2, h4 ▸ h3, h5, by rw [h4]⟩
  · rintro ⟨-, h1, h2, h3, h4, rfl⟩
    obtain ⟨n, hn⟩ := h3.field
    exact ⟨_, _, ⟨h1, rfl⟩, _, _, ⟨h2, rfl⟩, n, _, ⟨hn ▸ h3, rfl⟩, _, _, ⟨hn.symm, h4, rfl⟩, rfl, by rw [hn]⟩

theorem cueList_read_iff {d : Bytes} {p : Nat} {c : CueList} {q : Nat} {h : Header} (hk : h.kind = .cueList)
    {checked : Bool} : CueList.read d p = .ok (c, q) ↔ (Content.cueList c).At checked h d p q := by
  unfold CueList.read Content.At
  simp only [bind_eq_ok, pure_eq_ok, u32be_read_iff, u16be_read_iff, listType_read_iff,
    many_read_iff (fun _ _ _ => cue_read_iff)]
  constructor
  · rintro ⟨_, _, ⟨h1, rfl⟩, _, _, ⟨h2, rfl⟩, n, _, ⟨h3, rfl⟩, _, _, ⟨h4, rfl⟩, l, _, ⟨h5, h6, rfl⟩, rfl, rfl⟩
    exact ⟨hk, h1, h2, h5 ▸ h3, h4, h6, by rw [h5]⟩
  · rintro ⟨-, h1, h2, h3, h4, h5, rfl⟩
    obtain ⟨n, hn⟩ := h3.field
    exact ⟨_, _, ⟨h1, rfl⟩, _, _, ⟨h2, rfl⟩, n, _, ⟨hn ▸ h3, rfl⟩, _, _, ⟨h4, rfl⟩, _, _, ⟨hn.symm, h5, rfl⟩, rfl,
      by rw [hn]⟩

theorem wideUnits_read_iff {d : Bytes} {p : Nat} {us : List UInt16} {q : Nat} :
    readWideUnits d p = .ok (us, q) ↔
      (∀ (i : Nat) u, us[i]? = some u → u ≠ 0 ∧ U16BeAt d (p + 2 * i) u.toNat) ∧ U16BeAt d (p + 2 * us.length) 0 ∧
        q = p + 2 * us.length + 2 := by
  rw [exact_of (enc := encWideUnits) (C := fun us => (0 : UInt16) ∉ us) (readWideUnits_inv.mono fun _ _ h => h.1)
    (fun _ _ _ _ h => (readWideUnits_inv _ _ _ _ h).elim fun _ h => h.2.2.2) fun a h => readWideUnits_rt h,
    encWideUnits_length, encWideUnits, HasAt.append_iff, hasAt_flatMap_iff encU16be_length, flatMap_encU16be_length,
    hasAt_u16be_iff]
  simp only [hasAt_u16be_iff]
  constructor
  · rintro ⟨h0, ⟨h1, h2⟩, rfl⟩
    refine ⟨fun i u hi => ⟨fun hu => h0 (hu ▸ List.mem_of_getElem? hi), ?_⟩, h2, by omega⟩
    rw [Nat.mul_comm]
    exact h1 i u hi
  · rintro ⟨h1, h2, rfl⟩
    refine ⟨fun h0 => ?_, ⟨fun i u hi => ?_, h2⟩, by omega⟩
    · obtain ⟨i, hi⟩ := List.getElem?_of_mem h0
      exact (h1 i 0 hi).1 rfl
    · rw [Nat.mul_comm]
      exact (h1 i u hi).2

theorem lenPath_iff {c : Path} {n : Nat} : c.lenPath = .ok n ↔ n = 2 * (c.path.length % 2 ^ 32 + 1) ∧ n < 2 ^ 32 := by
  unfold Path.lenPath
  simp only
  split
  · split
    · simp only [Res.ok.injEq]; omega
    · simp only [reduceCtorEq, false_iff]; omega
  · simp only [reduceCtorEq, false_iff]; omega

theorem path_read_iff {d : Bytes} {p : Nat} {c : Path} {q : Nat} {h : Header} (hk : h.kind = .path) :
    Path.read h d p = .ok (c, q) ↔ (Content.path c).At true h d p q := by
  unfold Path.read Content.At
  simp only [bind_eq_ok, pure_eq_ok, u32be_read_iff, lift_read_iff, require_read_iff, beq_iff_eq, wideUnits_read_iff,
    Header.leaves_true, lenPath_iff, if_true]
  constructor
  · rintro ⟨len, _, ⟨h1, rfl⟩, _, _, ⟨h2, rfl⟩, _, _, ⟨rfl, rfl⟩, us, _, ⟨h3, h4, rfl⟩, _, _, ⟨-, rfl⟩, _, _, ⟨-, rfl⟩,
      _, _, ⟨⟨h5, -⟩, rfl⟩, _, _, ⟨h6, rfl⟩, rfl, rfl⟩
    exact ⟨hk, ⟨_, h1, h2, by rw [← h6]; exact h5⟩, h3, h4, rfl⟩
  · rintro ⟨-, ⟨n, h1, h2, h5⟩, h3, h4, rfl⟩
    obtain ⟨v, rfl⟩ := h1.field
    exact ⟨v, _, ⟨h1, rfl⟩, _, _, ⟨h2, rfl⟩, (), _, ⟨rfl, rfl⟩, _, _, ⟨h3, h4, rfl⟩, _, _, ⟨h2, rfl⟩, (), _, ⟨rfl, rfl⟩,
      _, _, ⟨⟨h5, h2.lt⟩, rfl⟩, (), _, ⟨rfl, rfl⟩, rfl, rfl⟩

theorem path_release_read_iff {d : Bytes} {p : Nat} {c : Path} {q : Nat} {h : Header} (hk : h.kind = .path) :
    Path.readWrap h d p = .ok (c, q) ↔ (Content.path c).At false h d p q := by
  unfold Path.readWrap Content.At
  simp only [bind_eq_ok, pure_eq_ok, u32be_read_iff, require_read_iff, beq_iff_eq, wideUnits_read_iff,
    Path.lenPathWrap_eq, Bool.false_eq_true, if_false]
  constructor
  · rintro ⟨len, _, ⟨h1, rfl⟩, _, _, ⟨h2, rfl⟩, us, _, ⟨h3, h4, rfl⟩, _, _, ⟨-, rfl⟩, _, _, ⟨h6, rfl⟩, rfl, rfl⟩
    exact ⟨hk, ⟨_, h1, (Header.leaves_false h1.lt).1 h2.symm, h6.symm⟩, h3, h4, rfl⟩
  · rintro ⟨-, ⟨n, h1, h2, h5⟩, h3, h4, rfl⟩
    obtain ⟨v, rfl⟩ := h1.field
    have h2 := ((Header.leaves_false h1.lt).2 h2).symm
    exact ⟨v, _, ⟨h1, rfl⟩, (), _, ⟨h2, rfl⟩, _, _, ⟨h3, h4, rfl⟩, (), _, ⟨h2, rfl⟩, (), _, ⟨h5.symm, rfl⟩, rfl, rfl⟩

theorem vbr_read_iff {d : Bytes} {p : Nat} {c : Vbr} {q : Nat} {h : Header} (hk : h.kind = .vbr) :
    Vbr.read h d p = .ok (c, q) ↔ (Content.vbr c).At true h d p q := by
  unfold Vbr.read Content.At
  simp only [bind_eq_ok, pure_eq_ok, u32be_read_iff, lift_read_iff, bytes_eq_ok, Header.leaves_true]
  constructor
  · rintro ⟨_, _, ⟨h1, rfl⟩, _, _, ⟨h2, rfl⟩, _, _, ⟨rfl, h3, rfl⟩, rfl, rfl⟩
    exact ⟨hk, h1, h2.lt, h2, h3, rfl⟩
  · rintro ⟨-, h1, -, h2, h3, rfl⟩
    exact ⟨_, _, ⟨h1, rfl⟩, _, _, ⟨h2, rfl⟩, _, _, ⟨rfl, h3, rfl⟩, rfl, rfl⟩

theorem vbr_release_read_iff {d : Bytes} {p : Nat} {c : Vbr} {q : Nat} {h : Header} (hk : h.kind = .vbr) :
    Vbr.readWrap h d p = .ok (c, q) ↔ (Content.vbr c).At false h d p q := by
  unfold Vbr.readWrap Content.At
  simp only [bind_eq_ok, pure_eq_ok, u32be_read_iff, bytes_eq_ok]
  constructor
  · rintro ⟨_, _, ⟨h1, rfl⟩, _, _, ⟨h2, h3, rfl⟩, rfl, rfl⟩
    have hl := h.contentSizeWrap_lt
    rw [← h2] at hl
    exact ⟨hk, h1, hl, (Header.leaves_false hl).1 h2.symm, h3, by rw [h2]⟩
  · rintro ⟨-, h1, hl, h2, h3, rfl⟩
    have h2 := ((Header.leaves_false hl).2 h2).symm
    exact ⟨_, _, ⟨h1, rfl⟩, _, _, ⟨h2, h3, rfl⟩, rfl, by rw [h2]⟩

theorem unknown_read_iff {d : Bytes} {p : Nat} {c : Unknown} {q : Nat} {h : Header} (hk : h.kind.isUnknown = true) :
    Unknown.read h d p = .ok (c, q) ↔ (Content.unknown c).At true h d p q := by
  unfold Unknown.read Content.At
  simp only [bind_eq_ok, pure_eq_ok, lift_read_iff, bytes_eq_ok, Header.leaves_true, Header.header_true]
  constructor
  · rintro ⟨_, _, ⟨h1, rfl⟩, a, _, ⟨rfl, h2, rfl⟩, _, _, ⟨h3, rfl⟩, _, _, ⟨rfl, h4, rfl⟩, rfl, rfl⟩
    have h1' : h.size.toNat = 12 + a.length := h1
    have := h.size.toNat_lt
    exact ⟨hk, (show a.length < 2 ^ 32 by omega), h1, h3.lt, h3, h2, h4, rfl⟩
  · rintro ⟨-, -, h1, -, h3, h2, h4, rfl⟩
    exact ⟨_, _, ⟨h1, rfl⟩, _, _, ⟨rfl, h2, rfl⟩, _, _, ⟨h3, rfl⟩, _, _, ⟨rfl, h4, rfl⟩, rfl, rfl⟩

theorem unknown_release_read_iff {d : Bytes} {p : Nat} {c : Unknown} {q : Nat} {h : Header}
    (hk : h.kind.isUnknown = true) :
    Unknown.readWrap h d p = .ok (c, q) ↔ (Content.unknown c).At false h d p q := by
  unfold Content.At
  constructor
  · intro hr
    obtain ⟨bs, hb, hq, rfl, h1, h2, h3, h4⟩ := Unknown.inv_wrap h d p c q hr
    unfold Unknown.enc at hb hq
    rw [HasAt.append_iff] at hb
    rw [List.length_append, ← Nat.add_assoc] at hq
    exact ⟨hk, h1, h2, h3, h4, hb.1, hb.2, hq⟩
  · rintro ⟨-, h1, h2, h3, h4, h5, h6, rfl⟩
    have := Unknown.rt_wrap h1 h2 h3 h4 d p
    unfold Unknown.enc at this
    rw [HasAt.append_iff, List.length_append, ← Nat.add_assoc] at this
    exact this ⟨h5, h6⟩

theorem extendedCueList_read_iff {d : Bytes} {p : Nat} {c : ExtendedCueList} {q : Nat} {h : Header}
    (hk : h.kind = .extendedCueList) :
    ExtendedCueList.read d p = .ok (c, q) ↔ (Content.extendedCueList c).At true h d p q := by
  unfold ExtendedCueList.read Content.At
  simp only [bind_eq_ok, pure_eq_ok, u16be_read_iff, listType_read_iff, require_read_iff, beq_iff_eq,
    cues_iff (fun _ _ _ => extended_cue_read_iff)]
  constructor
  · rintro ⟨_, _, ⟨h1, rfl⟩, n, _, ⟨h2, rfl⟩, _, _, ⟨h3, rfl⟩, _, _, ⟨rfl, rfl⟩, l, _, ⟨h4, h5⟩, rfl, rfl⟩
    exact ⟨hk, h1, h4 ▸ h2, h3, rfl, h5⟩
  · rintro ⟨-, h1, h2, h3, h4, h5⟩
    obtain ⟨n, hn⟩ := h2.field
    refine ⟨_, _, ⟨h1, rfl⟩, n, _, ⟨hn ▸ h2, rfl⟩, 0, _, ⟨h3, rfl⟩, (), _, ⟨rfl, rfl⟩, _, _, ⟨hn.symm, h5⟩, ?_, rfl⟩
    rw [← h4]

theorem extendedCueList_release_read_iff {d : Bytes} {p : Nat} {c : ExtendedCueList} {q : Nat} {h : Header}
    (hk : h.kind = .extendedCueList) :
    ExtendedCueList.readWrap d p = .ok (c, q) ↔ (Content.extendedCueList c).At false h d p q := by
  unfold ExtendedCueList.readWrap Content.At
  simp only [bind_eq_ok, pure_eq_ok, u16be_read_iff, listType_read_iff, require_read_iff, beq_iff_eq,
    cues_iff (fun _ _ _ => extended_cue_release_read_iff)]
  constructor
  · rintro ⟨_, _, ⟨h1, rfl⟩, n, _, ⟨h2, rfl⟩, _, _, ⟨h3, rfl⟩, _, _, ⟨rfl, rfl⟩, l, _, ⟨h4, h5⟩, rfl, rfl⟩
    exact ⟨hk, h1, h4 ▸ h2, h3, rfl, h5⟩
  · rintro ⟨-, h1, h2, h3, h4, h5⟩
    obtain ⟨n, hn⟩ := h2.field
    refine ⟨_, _, ⟨h1, rfl⟩, n, _, ⟨hn ▸ h2, rfl⟩, 0, _, ⟨h3, rfl⟩, (), _, ⟨rfl, rfl⟩, _, _, ⟨hn.symm, h5⟩, ?_, rfl⟩
    rw [← h4]

theorem waveformPreview_read_iff {d : Bytes} {p : Nat} {c : WaveformPreview} {q : Nat} {h : Header}
    (hk : h.kind = .waveformPreview) :
    WaveformPreview.read h d p = .ok (c, q) ↔ (Content.waveformPreview c).At true h d p q := by
  unfold WaveformPreview.read Content.At
  simp only [bind_eq_ok, pure_eq_ok, u32be_read_iff, lift_read_iff, require_read_iff, beq_iff_eq, Header.leaves_true,
    many_read_iff (fun _ _ _ => preview_column_read_iff), Nat.one_mul]
  constructor
  · rintro ⟨n, _, ⟨h1, rfl⟩, _, _, ⟨h2, rfl⟩, _, _, ⟨rfl, rfl⟩, _, _, ⟨h3, rfl⟩, l, _, ⟨h4, h5, rfl⟩, rfl, rfl⟩
    exact ⟨hk, h4 ▸ h1, h4 ▸ h2, h3, h5, by rw [h4]⟩
  · rintro ⟨-, h1, h2, h3, h5, rfl⟩
    obtain ⟨n, hn⟩ := h1.field
    exact ⟨n, _, ⟨hn ▸ h1, rfl⟩, _, _, ⟨h2, rfl⟩, (), _, ⟨hn, rfl⟩, _, _, ⟨h3, rfl⟩, _, _, ⟨hn.symm, h5, rfl⟩, rfl,
      by rw [hn]⟩

theorem waveformPreview_release_read_iff {d : Bytes} {p : Nat} {c : WaveformPreview} {q : Nat} {h : Header}
    (hk : h.kind = .waveformPreview) :
    WaveformPreview.readWrap h d p = .ok (c, q) ↔ (Content.waveformPreview c).At false h d p q := by
  unfold WaveformPreview.readWrap Content.At
  simp only [bind_eq_ok, pure_eq_ok, u32be_read_iff, require_read_iff, beq_iff_eq,
    many_read_iff (fun _ _ _ => preview_column_read_iff), Nat.one_mul]
  constructor
  · rintro ⟨n, _, ⟨h1, rfl⟩, _, _, ⟨h2, rfl⟩, _, _, ⟨h3, rfl⟩, l, _, ⟨h4, h5, rfl⟩, rfl, rfl⟩
    exact ⟨hk, h4 ▸ h1, h4 ▸ (Header.leaves_false h1.lt).1 h2.symm, h3, h5, by rw [h4]⟩
  · rintro ⟨-, h1, h2, h3, h5, rfl⟩
    have h2 := ((Header.leaves_false h1.lt).2 h2).symm
    obtain ⟨n, hn⟩ := h1.field
    exact ⟨n, _, ⟨hn ▸ h1, rfl⟩, (), _, ⟨hn.trans h2, rfl⟩, _, _, ⟨h3, rfl⟩, _, _, ⟨hn.symm, h5, rfl⟩, rfl, by rw [hn]⟩

theorem tinyWaveformPreview_read_iff {d : Bytes} {p : Nat} {c : TinyWaveformPreview} {q : Nat} {h : Header}
    (hk : h.kind = .tinyWaveformPreview) :
    TinyWaveformPreview.read h d p = .ok (c, q) ↔ (Content.tinyWaveformPreview c).At true h d p q := by
  unfold TinyWaveformPreview.read Content.At
  simp only [bind_eq_ok, pure_eq_ok, u32be_read_iff, lift_read_iff, require_read_iff, beq_iff_eq, Header.leaves_true,
    many_read_iff (fun _ _ _ => tiny_column_read_iff), Nat.one_mul]
  constructor
  · rintro ⟨n, _, ⟨h1, rfl⟩, _, _, ⟨h2, rfl⟩, _, _, ⟨rfl, rfl⟩, _, _, ⟨h3, rfl⟩, l, _, ⟨h4, h5, rfl⟩, rfl, rfl⟩
    exact ⟨hk, h4 ▸ h1, h4 ▸ h2, h3, h5, by rw [h4]⟩
  · rintro ⟨-, h1, h2, h3, h5, rfl⟩
    obtain ⟨n, hn⟩ := h1.field
    exact ⟨n, _, ⟨hn ▸ h1, rfl⟩, _, _, ⟨h2, rfl⟩, (), _, ⟨hn, rfl⟩, _, _, ⟨h3, rfl⟩, _, _, ⟨hn.symm, h5, rfl⟩, rfl,
      by rw [hn]⟩

theorem tinyWaveformPreview_release_read_iff {d : Bytes} {p : Nat} {c : TinyWaveformPreview} {q : Nat} {h : Header}
    (hk : h.kind = .tinyWaveformPreview) :
    TinyWaveformPreview.readWrap h d p = .ok (c, q) ↔ (Content.tinyWaveformPreview c).At false h d p q := by
  unfold TinyWaveformPreview.readWrap Content.At
  simp only [bind_eq_ok, pure_eq_ok, u32be_read_iff, require_read_iff, beq_iff_eq,
    many_read_iff (fun _ _ _ => tiny_column_read_iff), Nat.one_mul]
  constructor
  · rintro ⟨n, _, ⟨h1, rfl⟩, _, _, ⟨h2, rfl⟩, _, _, ⟨h3, rfl⟩, l, _, ⟨h4, h5, rfl⟩, rfl, rfl⟩
    exact ⟨hk, h4 ▸ h1, h4 ▸ (Header.leaves_false h1.lt).1 h2.symm, h3, h5, by rw [h4]⟩
  · rintro ⟨-, h1, h2, h3, h5, rfl⟩
    have h2 := ((Header.leaves_false h1.lt).2 h2).symm
    obtain ⟨n, hn⟩ := h1.field
    exact ⟨n, _, ⟨hn ▸ h1, rfl⟩, (), _, ⟨hn.trans h2, rfl⟩, _, _, ⟨h3, rfl⟩, _, _, ⟨hn.symm, h5, rfl⟩, rfl, by rw [hn]⟩

theorem waveformDetail_read_iff {d : Bytes} {p : Nat} {c : WaveformDetail} {q : Nat} {h : Header}
    (hk : h.kind = .waveformDetail) :
    WaveformDetail.read h d p = .ok (c, q) ↔ (Content.waveformDetail c).At true h d p q := by
  unfold WaveformDetail.read Content.At
  simp only [bind_eq_ok, pure_eq_ok, u32be_read_iff, require_read_iff, beq_iff_eq, entries_read_iff,
    many_read_iff (fun _ _ _ => preview_column_read_iff), Nat.one_mul]
  constructor
  · rintro ⟨n, _, ⟨h1, rfl⟩, _, _, ⟨h2, rfl⟩, _, _, ⟨rfl, rfl⟩, l, _, ⟨h4, h5, rfl⟩, rfl, rfl⟩
    exact ⟨hk, h4 ▸ h1, h2, rfl, h5, by rw [h4]⟩
  · rintro ⟨-, h1, h2, h0, h5, rfl⟩
    obtain ⟨n, hn⟩ := h1.2.1.field
    exact ⟨n, _, ⟨hn ▸ h1, rfl⟩, (0x00960000 : UInt32), _, ⟨h2, rfl⟩, (), _, ⟨rfl, rfl⟩, _, _, ⟨hn.symm, h5, rfl⟩, by rw [← h0], by rw [hn]⟩

theorem waveformDetail_release_read_iff {d : Bytes} {p : Nat} {c : WaveformDetail} {q : Nat} {h : Header}
    (hk : h.kind = .waveformDetail) :
    WaveformDetail.readWrap h d p = .ok (c, q) ↔ (Content.waveformDetail c).At false h d p q := by
  unfold WaveformDetail.readWrap Content.At
  simp only [bind_eq_ok, pure_eq_ok, u32be_read_iff, require_read_iff, beq_iff_eq, entries_release_read_iff,
    many_read_iff (fun _ _ _ => preview_column_read_iff), Nat.one_mul]
  constructor
  · rintro ⟨n, _, ⟨h1, rfl⟩, _, _, ⟨h2, rfl⟩, _, _, ⟨rfl, rfl⟩, l, _, ⟨h4, h5, rfl⟩, rfl, rfl⟩
    exact ⟨hk, h4 ▸ h1, h2, rfl, h5, by rw [h4]⟩
  · rintro ⟨-, h1, h2, h0, h5, rfl⟩
    obtain ⟨n, hn⟩ := h1.2.1.field
    exact ⟨n, _, ⟨hn ▸ h1, rfl⟩, (0x00960000 : UInt32), _, ⟨h2, rfl⟩, (), _, ⟨rfl, rfl⟩, _, _, ⟨hn.symm, h5, rfl⟩, by rw [← h0], by rw [hn]⟩

theorem waveformColorPreview_read_iff {d : Bytes} {p : Nat} {c : WaveformColorPreview} {q : Nat} {h : Header}
    (hk : h.kind = .waveformColorPreview) :
    WaveformColorPreview.read h d p = .ok (c, q) ↔ (Content.waveformColorPreview c).At true h d p q := by
  unfold WaveformColorPreview.read Content.At
  simp only [bind_eq_ok, pure_eq_ok, u32be_read_iff, entries_read_iff,
    many_read_iff (fun _ _ _ => color_preview_column_read_iff)]
  constructor
  · rintro ⟨n, _, ⟨h1, rfl⟩, _, _, ⟨h2, rfl⟩, l, _, ⟨h4, h5, rfl⟩, rfl, rfl⟩
    exact ⟨hk, h4 ▸ h1, h2, h5, by rw [h4]⟩
  · rintro ⟨-, h1, h2, h5, rfl⟩
    obtain ⟨n, hn⟩ := h1.2.1.field
    exact ⟨n, _, ⟨hn ▸ h1, rfl⟩, _, _, ⟨h2, rfl⟩, _, _, ⟨hn.symm, h5, rfl⟩, rfl, by rw [hn]⟩

theorem waveformColorPreview_release_read_iff {d : Bytes} {p : Nat} {c : WaveformColorPreview} {q : Nat} {h : Header}
    (hk : h.kind = .waveformColorPreview) :
    WaveformColorPreview.readWrap h d p = .ok (c, q) ↔ (Content.waveformColorPreview c).At false h d p q := by
  unfold WaveformColorPreview.readWrap Content.At
  simp only [bind_eq_ok, pure_eq_ok, u32be_read_iff, entries_release_read_iff,
    many_read_iff (fun _ _ _ => color_preview_column_read_iff)]
  constructor
  · rintro ⟨n, _, ⟨h1, rfl⟩, _, _, ⟨h2, rfl⟩, l, _, ⟨h4, h5, rfl⟩, rfl, rfl⟩
    exact ⟨hk, h4 ▸ h1, h2, h5, by rw [h4]⟩
  · rintro ⟨-, h1, h2, h5, rfl⟩
    obtain ⟨n, hn⟩ := h1.2.1.field
    exact ⟨n, _, ⟨hn ▸ h1, rfl⟩, _, _, ⟨h2, rfl⟩, _, _, ⟨hn.symm, h5, rfl⟩, rfl, by rw [hn]⟩

theorem waveformColorDetail_read_iff {d : Bytes} {p : Nat} {c : WaveformColorDetail} {q : Nat} {h : Header}
    (hk : h.kind = .waveformColorDetail) :
    WaveformColorDetail.read h d p = .ok (c, q) ↔ (Content.waveformColorDetail c).At true h d p q := by
  unfold WaveformColorDetail.read Content.At
  simp only [bind_eq_ok, pure_eq_ok, u32be_read_iff, entries_read_iff,
    many_read_iff (fun _ _ _ => color_detail_column_read_iff)]
  constructor
  · rintro ⟨n, _, ⟨h1, rfl⟩, _, _, ⟨h2, rfl⟩, l, _, ⟨h4, h5, rfl⟩, rfl, rfl⟩
    exact ⟨hk, h4 ▸ h1, h2, h5, by rw [h4]⟩
  · rintro ⟨-, h1, h2, h5, rfl⟩
    obtain ⟨n, hn⟩ := h1.2.1.field
    exact ⟨n, _, ⟨hn ▸ h1, rfl⟩, _, _, ⟨h2, rfl⟩, _, _, ⟨hn.symm, h5, rfl⟩, rfl, by rw [hn]⟩

theorem waveformColorDetail_release_read_iff {d : Bytes} {p : Nat} {c : WaveformColorDetail} {q : Nat} {h : Header}
    (hk : h.kind = .waveformColorDetail) :
    WaveformColorDetail.readWrap h d p = .ok (c, q) ↔ (Content.waveformColorDetail c).At false h d p q := by
  unfold WaveformColorDetail.readWrap Content.At
  simp only [bind_eq_ok, pure_eq_ok, u32be_read_iff, entries_release_read_iff,
    many_read_iff (fun _ _ _ => color_detail_column_read_iff)]
  constructor
  · rintro ⟨n, _, ⟨h1, rfl⟩, _, _, ⟨h2, rfl⟩, l, _, ⟨h4, h5, rfl⟩, rfl, rfl⟩
    exact ⟨hk, h4 ▸ h1, h2, h5, by rw [h4]⟩
  · rintro ⟨-, h1, h2, h5, rfl⟩
    obtain ⟨n, hn⟩ := h1.2.1.field
    exact ⟨n, _, ⟨hn ▸ h1, rfl⟩, _, _, ⟨h2, rfl⟩, _, _, ⟨hn.symm, h5, rfl⟩, rfl, by rw [hn]⟩

theorem waveform3BandPreview_read_iff {d : Bytes} {p : Nat} {c : Waveform3BandPreview} {q : Nat} {h : Header}
    (hk : h.kind = .waveform3BandPreview) :
    Waveform3BandPreview.read h d p = .ok (c, q) ↔ (Content.waveform3BandPreview c).At true h d p q := by
  unfold Waveform3BandPreview.read Content.At
  simp only [bind_eq_ok, pure_eq_ok, entries_read_iff,
    many_read_iff (fun _ _ _ => three_band_preview_column_read_iff)]
  constructor
  · rintro ⟨n, _, ⟨h1, rfl⟩, l, _, ⟨h4, h5, rfl⟩, rfl, rfl⟩
    exact ⟨hk, h4 ▸ h1, h5, by rw [h4]⟩
  · rintro ⟨-, h1, h5, rfl⟩
    obtain ⟨n, hn⟩ := h1.2.1.field
    exact ⟨n, _, ⟨hn ▸ h1, rfl⟩, _, _, ⟨hn.symm, h5, rfl⟩, rfl, by rw [hn]⟩

theorem waveform3BandPreview_release_read_iff {d : Bytes} {p : Nat} {c : Waveform3BandPreview} {q : Nat} {h : Header}
    (hk : h.kind = .waveform3BandPreview) :
    Waveform3BandPreview.readWrap h d p = .ok (c, q) ↔ (Content.waveform3BandPreview c).At false h d p q := by
  unfold Waveform3BandPreview.readWrap Content.At
  simp only [bind_eq_ok, pure_eq_ok, entries_release_read_iff,
    many_read_iff (fun _ _ _ => three_band_preview_column_read_iff)]
  constructor
  · rintro ⟨n, _, ⟨h1, rfl⟩, l, _, ⟨h4, h5, rfl⟩, rfl, rfl⟩
    exact ⟨hk, h4 ▸ h1, h5, by rw [h4]⟩
  · rintro ⟨-, h1, h5, rfl⟩
    obtain ⟨n, hn⟩ := h1.2.1.field
    exact ⟨n, _, ⟨hn ▸ h1, rfl⟩, _, _, ⟨hn.symm, h5, rfl⟩, rfl, by rw [hn]⟩

theorem waveform3BandDetail_read_iff {d : Bytes} {p : Nat} {c : Waveform3BandDetail} {q : Nat} {h : Header}
    (hk : h.kind = .waveform3BandDetail) :
    Waveform3BandDetail.read h d p = .ok (c, q) ↔ (Content.waveform3BandDetail c).At true h d p q := by
  unfold Waveform3BandDetail.read Content.At
  simp only [bind_eq_ok, pure_eq_ok, u32be_read_iff, require_read_iff, beq_iff_eq, entries_read_iff,
    many_read_iff (fun _ _ _ => three_band_detail_column_read_iff)]
  constructor
  · rintro ⟨n, _, ⟨h1, rfl⟩, _, _, ⟨h2, rfl⟩, _, _, ⟨rfl, rfl⟩, l, _, ⟨h4, h5, rfl⟩, rfl, rfl⟩
    exact ⟨hk, h4 ▸ h1, h2, rfl, h5, by rw [h4]⟩
  · rintro ⟨-, h1, h2, h0, h5, rfl⟩
    obtain ⟨n, hn⟩ := h1.2.1.field
    exact ⟨n, _, ⟨hn ▸ h1, rfl⟩, (0x00960000 : UInt32), _, ⟨h2, rfl⟩, (), _, ⟨rfl, rfl⟩, _, _, ⟨hn.symm, h5, rfl⟩, by rw [← h0], by rw [hn]⟩

theorem waveform3BandDetail_release_read_iff {d : Bytes} {p : Nat} {c : Waveform3BandDetail} {q : Nat} {h : Header}
    (hk : h.kind = .waveform3BandDetail) :
    Waveform3BandDetail.readWrap h d p = .ok (c, q) ↔ (Content.waveform3BandDetail c).At false h d p q := by
  unfold Waveform3BandDetail.readWrap Content.At
  simp only [bind_eq_ok, pure_eq_ok, u32be_read_iff, require_read_iff, beq_iff_eq, entries_release_read_iff,
    many_read_iff (fun _ _ _ => three_band_detail_column_read_iff)]
  constructor
  · rintro ⟨n, _, ⟨h1, rfl⟩, _, _, ⟨h2, rfl⟩, _, _, ⟨rfl, rfl⟩, l, _, ⟨h4, h5, rfl⟩, rfl, rfl⟩
    exact ⟨hk, h4 ▸ h1, h2, rfl, h5, by rw [h4]⟩
  · rintro ⟨-, h1, h2, h0, h5, rfl⟩
    obtain ⟨n, hn⟩ := h1.2.1.field
    exact ⟨n, _, ⟨hn ▸ h1, rfl⟩, (0x00960000 : UInt32), _, ⟨h2, rfl⟩, (), _, ⟨rfl, rfl⟩, _, _, ⟨hn.symm, h5, rfl⟩, by rw [← h0], by rw [hn]⟩

end Rekordcrate.Anlz
