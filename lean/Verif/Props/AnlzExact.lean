import Verif.Props.Anlz
import Verif.Props.AnlzSong

/-! # C48, C49, C50, C67: exactly which values survive -/

namespace Rekordcrate.Anlz

theorem WideString.read_noTrailingNul {d : Bytes} {p q : Nat} {s : WideString} (h : WideString.read d p = .ok (s, q)) :
    s.NoTrailingNul := by
  obtain ⟨_, _, _, _, _, _, hr⟩ := WideString.inv _ _ _ _ h
  exact ReadsFrom.noTrailingNul hr

/-- C48: what comes back of any comment that takes less than 4 GiB: the comment without the NUL characters at its
end. -/
theorem comment_back (s : WideString) (hs : s.byteCount < 2 ^ 32) :
    ∃ bs t k, s.enc = .ok bs ∧ s.val.toList = t.val.toList ++ List.replicate k (Char.ofNat 0) ∧ t.NoTrailingNul ∧
      ∀ d p, HasAt d p bs → WideString.read d p = .ok (t, p + bs.length) := by
  obtain ⟨k, hk⟩ := trimNuls_split s.val
  have hr : (⟨trimNuls s.val⟩ : WideString).ReadsFrom s.canonical := by
    unfold WideString.ReadsFrom WideString.canonical
    by_cases he : s.val = ""
    · simp [he, trimNuls]
    · rw [if_neg he]
      refine .inr ⟨by simp, s.val ++ String.ofList [Char.ofNat 0], ?_, by rw [trimNuls_append]⟩
      rw [pairUnits_append]
      exact fromUtf16_nul s.val
  exact ⟨_, _, k, s.enc_eq hs, hk, ReadsFrom.noTrailingNul hr,
    WideString.rt hr (by rw [s.canonical_length]; exact hs)⟩

/-- C48: a comment survives exactly if it takes less than 4 GiB and does not end with
a NUL character. -/
theorem comment_roundtrip_iff (s : WideString) :
    (∃ bs, s.enc = .ok bs ∧ ∀ d p, HasAt d p bs → WideString.read d p = .ok (s, p + bs.length)) ↔
      s.byteCount < 2 ^ 32 ∧ s.NoTrailingNul := by
  constructor
  · rintro ⟨bs, he, hr⟩
    refine ⟨?_, WideString.read_noTrailingNul (hr bs 0 (hasAt_self bs))⟩
    obtain ⟨_, _, _, raw, hl, _, h⟩ := WideString.inv _ _ _ _ (hr bs 0 (hasAt_self bs))
    have := h.byteCount_le
    obtain ⟨n, hn, -⟩ := Res.bind_eq_ok.1 he
    exact WideString.byteCount_lt_of_byteLen hn (by omega)
  · rintro ⟨hs, hn⟩
    obtain ⟨bs, he, -, -, -, -, hr⟩ := comment_roundtrip_partial hn hs
    exact ⟨bs, he, hr⟩

example : ¬ ∃ bs, (⟨"Drop\x00"⟩ : WideString).enc = .ok bs ∧
    ∀ d p, HasAt d p bs → WideString.read d p = .ok (⟨"Drop\x00"⟩, p + bs.length) := by
  rw [comment_roundtrip_iff]
  rintro ⟨-, h⟩
  exact h (by decide +kernel)

/-- C49: an extended cue survives exactly if its comment does not end with a NUL character, takes less than 4 GiB
together with the fixed fields, and the total size says how many trailing bytes there are (none if it is too
small). -/
theorem extended_cue_roundtrip_iff (c : ExtendedCue) :
    (∃ bs, c.enc = .ok bs ∧ ∀ d p, HasAt d p bs → ExtendedCue.read d p = .ok (c, p + bs.length)) ↔
      c.header.kind.Proper ∧ c.comment.NoTrailingNul ∧ 68 + c.comment.byteCount < 2 ^ 32 ∧
        c.trailing.length = c.header.totalSize.toNat - (68 + c.comment.byteCount) := by
  constructor
  · rintro ⟨bs, -, hr⟩
    obtain ⟨_, _, _, hk, hs, ht, raw, _, h, _⟩ := ExtendedCue.inv _ _ _ _ (hr bs 0 (hasAt_self bs))
    exact ⟨hk, ReadsFrom.noTrailingNul h, hs, ht⟩
  · rintro ⟨hk, hn, hs, ht⟩
    exact ⟨_, c.enc_eq (by omega),
      ExtendedCue.rt hk (WideString.canonical_reads hn) (by rw [c.comment.canonical_length]; omega) hs ht⟩

example : ∃ bs, exampleCue.enc = .ok bs ∧ ∀ d p, HasAt d p bs → ExtendedCue.read d p = .ok (exampleCue, p + bs.length) :=
  (extended_cue_roundtrip_iff exampleCue).2 ⟨by decide, by unfold WideString.NoTrailingNul; decide +kernel, by decide +kernel, by decide +kernel⟩

/-- C50: a song structure (with less than 65536 phrases, as many as its format can count) survives exactly if it has
less than 65286 phrases, or 65311 if it is not encrypted. -/
theorem song_structure_roundtrip_iff {c : SongStructure} (hc : c.data.phrases.length < 65536) :
    (∃ bs, c.enc = .ok bs ∧ ∀ (h : Header) d p, h.totalSize.toNat = h.size.toNat + 24 * c.data.phrases.length →
      HasAt d p bs → SongStructure.read h d p = .ok (c, p + bs.length)) ↔
    c.data.phrases.length < if c.isEncrypted then 65286 else 65311 := by
  constructor
  · rintro ⟨bs, -, hr⟩
    have := hr ⟨.songStructure, 0, UInt32.ofNat (24 * c.data.phrases.length)⟩ bs 0
      (by simp only [UInt32.toNat_ofNat']; rw [Nat.mod_eq_of_lt (by omega)]; simp) (hasAt_self bs)
    exact (song_structure_rewrite this).1
  · intro h
    obtain ⟨bs, h1, -, -, -, -, h2⟩ := song_structure_roundtrip_partial h
    exact ⟨bs, h1, h2⟩

/-! ## C67 -/

theorem U32BeAt.unique {d : Bytes} {p m n : Nat} (h : U32BeAt d p m) (h' : U32BeAt d p n) : m = n := by
  obtain ⟨a3, a2, a1, a0, h3, h2, h1, h0, rfl⟩ := h
  obtain ⟨b3, b2, b1, b0, g3, g2, g1, g0, rfl⟩ := h'
  rw [h3] at g3
  rw [h2] at g2
  rw [h1] at g1
  rw [h0] at g0
  injection g3 with g3
  injection g2 with g2
  injection g1 with g1
  injection g0 with g0
  rw [g3, g2, g1, g0]

/-- C67: an extended cue that was read is written back byte for byte exactly if the length field of its comment is
the one that the writer gives it. -/
theorem extended_cue_rewrite_iff {d : Bytes} {p q : Nat} {c : ExtendedCue} (h : ExtendedCue.read d p = .ok (c, q)) :
    (∃ bs, c.enc = .ok bs ∧ HasAt d p bs ∧ q = p + bs.length) ↔ U32BeAt d (p + 40) c.comment.byteCount := by
  obtain ⟨bs, hb, hq, hk, hs, ht, raw, hl, hr, rfl⟩ := ExtendedCue.inv _ _ _ _ h
  have hraw : U32BeAt d (p + 40) raw.length := by
    have hb := hb
    unfold ExtendedCue.bytesWith at hb
    rw [HasAt.append_iff, HasAt.append_iff, HasAt.append_iff, ExtendedCue.front_length] at hb
    have := U32BeAt.of_hasAt hb.2.1.1
    rwa [toNat_ofNat32 hl] at this
  rw [ExtendedCue.bytesWith_length] at hq
  constructor
  · rintro ⟨bs, he, hb', hq'⟩
    rw [c.enc_eq (by omega)] at he
    injection he with he
    subst he
    rw [ExtendedCue.bytesWith_length, c.comment.canonical_length] at hq'
    have : raw.length = c.comment.byteCount := by omega
    rwa [this] at hraw
  · intro hu
    have : raw.length = c.comment.byteCount := U32BeAt.unique hraw hu
    have hc := hr.canonical this
    refine ⟨_, c.enc_eq (by omega), by rw [← hc]; exact hb, ?_⟩
    rw [ExtendedCue.bytesWith_length, c.comment.canonical_length]
    omega

/-- C67 is false in full: a cue whose comment has no terminator is written with one. -/
theorem extended_cue_rewrite_differs : ∃ d c, ExtendedCue.read d 0 = .ok (c, 70) ∧ d.length = 70 ∧ c.comment.val = "a" ∧
    ∃ bs, c.enc = .ok bs ∧ bs.length = 72 := by
  let c := { exampleCue with
      header := { exampleCue.header with totalSize := 72 }, comment := ⟨"a"⟩, trailing := [] }
  have hl : (c.bytesWith [0, 0x61]).length = 70 := by rw [ExtendedCue.bytesWith_length]; rfl
  have hr : c.comment.ReadsFrom [0, 0x61] := .inr ⟨by simp, "a", by decide +kernel, by decide +kernel⟩
  refine ⟨c.bytesWith [0, 0x61], c, ?_, hl, rfl, _, c.enc_eq (by decide +kernel), ?_⟩
  · have := ExtendedCue.rt (c := c) (raw := [0, 0x61]) (by decide) hr (by simp) (by decide +kernel) (by decide +kernel) _ 0
      (hasAt_self _)
    rw [this, hl]
  · rw [ExtendedCue.bytesWith_length, c.comment.canonical_length]
    decide +kernel

end Rekordcrate.Anlz
