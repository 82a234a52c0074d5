import Verif.Lemmas.AnlzPanic

/-! # C44, C45, C46, C48, C49, C67: analysis files, sections, comments and extended cues -/

namespace Rekordcrate.Anlz
open Rd

/-! ## Examples that meet the hypotheses -/

/-- An extended cue with a comment. -/
def exampleCue : ExtendedCue where
  header := { kind := .extendedCue, size := 16, totalSize := 80 }
  hotCue := 1
  cueType := .point
  unknown1 := 0
  unknown2 := 0x03e8
  time := 1234
  loopTime := 0xffffffff
  color := .red
  unknown3 := 0
  unknown4 := 0
  unknown5 := 0
  loopNumerator := 0
  loopDenominator := 0
  comment := ⟨"Drop"⟩
  hotCueColorIndex := 0x2a
  red := 0xff
  green := 0
  blue := 0x10
  unknown6 := 0
  unknown7 := 0
  unknown8 := 0
  unknown9 := 0
  unknown10 := 0
  trailing := [7, 7]

theorem exampleCue_consistent : exampleCue.Consistent := by
  refine ⟨?_, ?_, ?_, ?_⟩
  · decide
  · unfold WideString.NoTrailingNul exampleCue; decide
  · decide +kernel
  · decide +kernel

/-- A file with a path, an extended cue list, an encrypted song structure and an unknown section. -/
def exampleFile : AnlzFile where
  header := { kind := .file, size := 28, totalSize := 28 + 24 + 100 + 56 + 20 }
  headerData := List.replicate 16 1
  sections := [
    { header := { kind := .path, size := 16, totalSize := 24 }, content := .path ⟨[0x2f, 0x61, 0xe9]⟩ },
    { header := { kind := .extendedCueList, size := 20, totalSize := 100 },
      content := .extendedCueList { listType := .hotCues, unknown := 0, cues := [exampleCue] } },
    { header := { kind := .songStructure, size := 32, totalSize := 56 },
      content := .songStructure { isEncrypted := true, data := {
        mood := .low, unknown1 := 0, unknown2 := 0, endBeat := 64, unknown3 := 0, bank := .club1, unknown4 := 0,
        phrases := [⟨1, 1, 2, 0, 0, 0, 0, 0, 0, 4, 5, 6, 0, 0, 0, 1, 60⟩] } } },
    { header := { kind := .unknown 0x50 0x58 0x59 0x5a, size := 14, totalSize := 20 },
      content := .unknown { headerData := [1, 2], contentData := [3, 4, 5, 6, 7, 8] } }]

theorem exampleFile_consistent : exampleFile.Consistent := by
  refine ⟨rfl, rfl, ?_, by decide +kernel⟩
  intro s hs
  simp only [exampleFile, List.mem_cons, List.not_mem_nil, or_false] at hs
  rcases hs with rfl | rfl | rfl | rfl
  · exact ⟨rfl, by decide, by decide⟩
  · refine ⟨rfl, by decide, rfl, ?_⟩
    intro x hx
    simp only [List.mem_cons, List.not_mem_nil, or_false] at hx
    subst hx
    exact exampleCue_consistent
  · exact ⟨rfl, by decide, by decide⟩
  · exact ⟨rfl, by decide, by decide, by decide⟩

/-! ## C44: round trip -/

/-- C44: every consistent section is written as `byteCount` bytes, and reading them at any place of any image
gives the section back. -/
theorem section_roundtrip {s : AnlzSection} (h : s.Consistent) :
    ∃ bs, s.enc = .ok bs ∧ bs.length = s.byteCount ∧
      ∀ d p, HasAt d p bs → AnlzSection.read d p = .ok (s, p + s.byteCount) := by
  refine ⟨s.bytes, h.enc_eq, s.bytes_length, fun d p hd => ?_⟩
  rw [h.rt d p hd, AnlzSection.bytes_length]

/-- C44: every consistent analysis file is written as the number of bytes that its header says, and reading
them gives the same header and the same sections in the same order. -/
theorem anlz_roundtrip {a : AnlzFile} (h : a.Consistent) :
    ∃ bs, a.enc = .ok bs ∧ bs.length = a.header.totalSize.toNat ∧
      ∀ d p, HasAt d p bs → AnlzFile.read d p = .ok (a, p + a.header.totalSize.toNat) := by
  have hl : (a.header.enc ++ (a.headerData ++ a.sections.flatMap AnlzSection.bytes)).length =
      a.header.totalSize.toNat := by
    rw [List.length_append, List.length_append, Header.enc_length, sections_length, h.total, h.headerSize]
    omega
  refine ⟨_, h.enc_eq, hl, fun d p hd => ?_⟩
  rw [h.rt d p hd, hl]

example : ∃ bs, exampleFile.enc = .ok bs ∧ bs.length = 228 ∧ AnlzFile.read bs 0 = .ok (exampleFile, 228) := by
  obtain ⟨bs, h1, h2, h3⟩ := anlz_roundtrip exampleFile_consistent
  exact ⟨bs, h1, h2, h3 bs 0 (hasAt_self bs)⟩

/-! ## C45: progress -/

/-- C45: every section takes at least 12 bytes of the image. -/
theorem section_progress {d : Bytes} {p q : Nat} {s : AnlzSection} (h : AnlzSection.read d p = .ok (s, q)) :
    p + 12 ≤ q ∧ q ≤ d.length := by
  refine ⟨AnlzSection.read_progress h, ?_⟩
  obtain ⟨bs, hb, rfl, _, cb, _, rfl⟩ := AnlzSection.read_inv _ _ _ _ h
  refine hb.bound fun hc => ?_
  have := congrArg List.length hc
  simp at this

/-- C45: however the sizes in the image are chosen, the loop over the sections ends: a sequence of `n`
sections, each read where the one before ended, takes `12 * n` bytes of the image. -/
theorem section_chain_bounded {d : Bytes} {pos : Nat → Nat} {n : Nat}
    (h : ∀ i, i < n → ∃ s, AnlzSection.read d (pos i) = .ok (s, pos (i + 1))) :
    n = 0 ∨ pos 0 + 12 * n ≤ d.length := by
  have key : ∀ k, k ≤ n → pos 0 + 12 * k ≤ pos k := by
    intro k hk
    induction k with
    | zero => simp
    | succ k ih =>
      obtain ⟨s, hs⟩ := h k (by omega)
      have := (section_progress hs).1
      have := ih (by omega)
      omega
  cases n with
  | zero => exact .inl rfl
  | succ n =>
    right
    obtain ⟨s, hs⟩ := h n (by omega)
    have := (section_progress hs).2
    have := key (n + 1) (Nat.le_refl _)
    omega

/-- C45: there is no infinite sequence of steps of the loop. -/
theorem section_loop_terminates (d : Bytes) :
    ¬ ∃ pos : Nat → Nat, ∀ i, ∃ s, AnlzSection.read d (pos i) = .ok (s, pos (i + 1)) := by
  rintro ⟨pos, h⟩
  rcases section_chain_bounded (n := d.length + 1) fun i _ => h i with h | h <;> omega

/-- C45: the number of sections of a file is at most a twelfth of the bytes that were read, and all bytes that
the header announces were read. -/
theorem anlz_section_count {d : Bytes} {p q : Nat} {a : AnlzFile} (h : AnlzFile.read d p = .ok (a, q)) :
    p + a.header.size.toNat + 12 * a.sections.length ≤ q ∧ p + a.header.totalSize.toNat ≤ q ∧ 12 ≤ a.header.size.toNat := by
  obtain ⟨_, _, h1, m, h2, h3⟩ := AnlzFile.read_eq_ok h
  have := parseSections_progress h3
  omega

/-! ## C46: unknown sections -/

/-- C46: a section of a kind that the library does not know is read by taking exactly the bytes that its
header says, and it is written back unchanged. -/
theorem unknown_section_preserved {d : Bytes} {p q : Nat} {s : AnlzSection}
    (h : AnlzSection.read d p = .ok (s, q)) (hk : s.header.kind.isUnknown = true) :
    q = p + s.header.totalSize.toNat ∧
      ∃ bs, s.enc = .ok bs ∧ bs.length = s.header.totalSize.toNat ∧ HasAt d p bs := by
  obtain ⟨bs, hb, rfl, hp, cb, hc, rfl⟩ := AnlzSection.read_inv _ _ _ _ h
  obtain ⟨hd, c⟩ := s
  simp only at hc hk hb
  have hno : ∀ k : Kind, k.isUnknown = false → hd.kind ≠ k := by
    rintro k hk' rfl
    rw [hk'] at hk; cases hk
  cases c <;> first
    | exact absurd hc.2.1 (hno _ rfl)
    | exact absurd hc.1 (hno _ rfl)
    | skip
  obtain ⟨_, rfl, h1, h2⟩ := hc
  have hl : (hd.enc ++ Unknown.enc ‹_›).length = hd.totalSize.toNat := by
    rw [List.length_append, Header.enc_length, Unknown.enc, List.length_append]; omega
  simp only
  exact ⟨by rw [hl], _, rfl, hl, hb⟩

/-- C46: every section of an unknown kind with possible sizes is read, whatever it contains. -/
theorem unknown_section_accepted {d : Bytes} {p : Nat} {h : Header} (hk : h.kind.isUnknown = true)
    (hp : h.kind.Proper) (hd : HasAt d p h.enc) (h12 : 12 ≤ h.size.toNat)
    (hsz : h.size.toNat ≤ h.totalSize.toNat) (hl : p + h.totalSize.toNat ≤ d.length) :
    ∃ s, AnlzSection.read d p = .ok (s, p + h.totalSize.toNat) ∧ s.header = h := by
  let s : AnlzSection :=
    { header := h,
      content := .unknown { headerData := (d.drop (p + 12)).take (h.size.toNat - 12),
                            contentData := (d.drop (p + h.size.toNat)).take (h.totalSize.toNat - h.size.toNat) } }
  have hl1 : ((d.drop (p + 12)).take (h.size.toNat - 12)).length = h.size.toNat - 12 := by
    rw [List.length_take, List.length_drop]; omega
  have hl2 : ((d.drop (p + h.size.toNat)).take (h.totalSize.toNat - h.size.toNat)).length =
      h.totalSize.toNat - h.size.toNat := by
    rw [List.length_take, List.length_drop]; omega
  have hc : s.Consistent := ⟨hk, hp, by show h.size.toNat = 12 + List.length _; rw [hl1]; omega,
    by show h.totalSize.toNat = h.size.toNat + List.length _; rw [hl2]; omega⟩
  refine ⟨s, ?_, rfl⟩
  have hb : HasAt d p s.bytes := by
    unfold AnlzSection.bytes
    rw [HasAt.append_iff]
    refine ⟨hd, ?_⟩
    rw [Header.enc_length]
    show HasAt d (p + 12) (Unknown.enc _)
    unfold Unknown.enc
    rw [HasAt.append_iff, hl1]
    constructor
    · intro i hi
      rw [hl1] at hi
      rw [List.getElem?_take_of_lt hi, List.getElem?_drop]
    · intro i hi
      rw [hl2] at hi
      rw [List.getElem?_take_of_lt hi, List.getElem?_drop]
      congr 1; omega
  have hlen : s.bytes.length = h.totalSize.toNat := by
    rw [AnlzSection.bytes_length]
    show 12 + (List.length _ + List.length _) = _
    rw [hl1, hl2]; omega
  rw [hc.rt d p hb, hlen]

example : ∃ s, AnlzSection.read [0x50, 0x58, 0x59, 0x5a, 0, 0, 0, 14, 0, 0, 0, 16, 1, 2, 3, 4] 0 = .ok (s, 16) ∧
    s.header = ⟨.unknown 0x50 0x58 0x59 0x5a, 14, 16⟩ :=
  unknown_section_accepted (h := ⟨.unknown 0x50 0x58 0x59 0x5a, 14, 16⟩) rfl (by decide)
    (by intro i hi; revert i; decide) (by decide) (by decide) (by decide)

/-! ## C67: rewriting a file -/

/-- C67: a file that was read occupies bytes that hold its value: header, header data and sections one after
the other, each field in its place; only comments of extended cues can be stored in more than one way. -/
theorem anlz_read_held {d : Bytes} {p q : Nat} {a : AnlzFile} (h : AnlzFile.read d p = .ok (a, q)) :
    ∃ bs, HasAt d p bs ∧ q = p + bs.length ∧ a.HeldBy bs := by
  obtain ⟨h1, _, h2, m, h3, h4⟩ := AnlzFile.read_eq_ok h
  obtain ⟨parts, sb, hh, hb, hq, _⟩ := parseSections_inv h4
  refine ⟨a.header.enc ++ (a.headerData ++ sb), ?_, ?_, parts, sb, hh, rfl⟩
  · rw [← List.append_assoc, HasAt.append_iff]
    refine ⟨h1, ?_⟩
    rw [List.length_append, Header.enc_length, ← h2]; exact hb
  · rw [List.length_append, List.length_append, Header.enc_length]; omega

/-- C67: writing a file that was read reproduces it byte for byte, if it has no extended cue lists. -/
theorem anlz_rewrite {d : Bytes} {p q : Nat} {a : AnlzFile} (h : AnlzFile.read d p = .ok (a, q))
    (hc : ∀ s ∈ a.sections, ¬ s.HasComments) : ∃ bs, a.enc = .ok bs ∧ HasAt d p bs ∧ q = p + bs.length := by
  obtain ⟨bs, h1, h2, h3⟩ := anlz_read_held h
  exact ⟨bs, h3.enc_eq hc, h1, h2⟩

/-- C67: the same for a section. -/
theorem section_rewrite {d : Bytes} {p q : Nat} {s : AnlzSection} (h : AnlzSection.read d p = .ok (s, q))
    (hc : ¬ s.HasComments) : ∃ bs, s.enc = .ok bs ∧ HasAt d p bs ∧ q = p + bs.length := by
  obtain ⟨bs, hb, hq, _, cb, hcb, he⟩ := AnlzSection.read_inv _ _ _ _ h
  exact ⟨bs, AnlzSection.HeldBy.enc_eq ⟨cb, hcb.heldBy, he⟩ hc, hb, hq⟩

theorem ReadsFrom.noTrailingNul {s : WideString} {raw : Bytes} (h : s.ReadsFrom raw) : s.NoTrailingNul := by
  unfold WideString.NoTrailingNul
  rcases h with ⟨_, he⟩ | ⟨_, t, _, he⟩
  · rw [he]; simp
  · rw [he]; exact trimNuls_noTrailing t

/-- C67: an extended cue that occupies exactly the size that its header says is written back byte for byte.
(The comments of other cues are stored in another form than the one the writer uses.) -/
theorem extended_cue_rewrite {d : Bytes} {p q : Nat} {c : ExtendedCue} (h : ExtendedCue.read d p = .ok (c, q))
    (hfit : 68 + c.comment.byteCount ≤ c.header.totalSize.toNat) (hq : q = p + c.header.totalSize.toNat) :
    ∃ bs, c.enc = .ok bs ∧ HasAt d p bs ∧ bs.length = c.header.totalSize.toNat := by
  obtain ⟨bs, hb, hq', hk, hs, ht, raw, hl, hr, rfl⟩ := ExtendedCue.inv _ _ _ _ h
  rw [ExtendedCue.bytesWith_length] at hq'
  have hcan := hr.canonical (by omega)
  subst hcan
  refine ⟨_, c.enc_eq (by omega), hb, ?_⟩
  rw [ExtendedCue.bytesWith_length]; omega

theorem comment_section_consistent {d : Bytes} {p q : Nat} {s : AnlzSection} (h : AnlzSection.read d p = .ok (s, q))
    (hs : s.HasComments) : s.Consistent := by
  obtain ⟨bs, hb, hq, hp, cb, hc, rfl⟩ := AnlzSection.read_inv _ _ _ _ h
  obtain ⟨l, hl⟩ := hs
  unfold AnlzSection.Consistent
  rw [hl] at hc ⊢
  obtain ⟨h1, h2, h3, h4, raws, inner, ⟨hl, hall, _⟩, _⟩ := hc
  refine ⟨h1, h2, h3, fun x hx => ⟨(h4 x hx).kind, ?_, (h4 x hx).size, (h4 x hx).trailing⟩⟩
  obtain ⟨i, hi, rfl⟩ := List.mem_iff_getElem.1 hx
  have hz : (l.cues[i], raws[i]) ∈ l.cues.zip raws := by
    rw [List.mem_iff_getElem]
    exact ⟨i, by rw [List.length_zip]; omega, by simp⟩
  exact ReadsFrom.noTrailingNul (hall _ hz).1

/-- C67: every section that was read from an image of less than 8 GiB is consistent, so it can be written and
read again with the same result, whatever form its comments had. -/
theorem section_read_consistent {d : Bytes} {p q : Nat} {s : AnlzSection} (hd : d.length < 2 ^ 33)
    (h : AnlzSection.read d p = .ok (s, q)) : s.Consistent := by
  obtain ⟨bs, hb, hq, hp, cb, hc, rfl⟩ := AnlzSection.read_inv _ _ _ _ h
  unfold AnlzSection.Consistent
  obtain ⟨hd', c⟩ := s
  simp only at hc hp hb ⊢
  cases c <;> first
    | exact hc.2
    | skip
  · exact comment_section_consistent h ⟨_, rfl⟩
  · rename_i c
    obtain ⟨h1, h2, h3, n, h4, h5⟩ := hc
    refine ⟨h1, h2, ?_⟩
    have hl : c.path.length < 2 ^ 32 := by
      unfold Path.enc at h3
      rw [h4, Res.ok_bind] at h3
      injection h3 with h3
      have := hb.bound (by intro hx; have := congrArg List.length hx; simp at this)
      rw [List.length_append, ← h3, List.length_append, encWideUnits_length, encU32be_length] at this
      omega
    unfold Path.lenPath at h4
    simp only [Nat.mod_eq_of_lt hl] at h4
    split at h4
    · split at h4
      · injection h4 with h4; omega
      · cases h4
    · cases h4
  · exact ⟨hc.1, hp, hc.2.2.1, hc.2.2.2⟩

/-! ## C48: comments -/

/-- C48, what is missing in `comment_roundtrip_partial`: a comment that ends with a NUL character is read back
without it. -/
theorem comment_trailing_nul_lost : ∃ s : WideString, ∃ bs, s.enc = .ok bs ∧
    WideString.read bs 0 = .ok (⟨"a"⟩, bs.length) ∧ s.val ≠ "a" :=
  ⟨⟨"a\x00"⟩, _, rfl, by decide +kernel, by decide⟩

/-- C48, what is missing in `comment_roundtrip_partial`: writing a comment of `2 ^ 31 - 1` or more (but less
than `2 ^ 32`) units panics. -/
theorem comment_too_long_panics (s : WideString) (h1 : 2 ^ 31 - 1 ≤ (encodeUtf16 s.val).length)
    (h2 : (encodeUtf16 s.val).length < 2 ^ 32) : s.enc = .panic := by
  have he : s.val ≠ "" := by
    intro hc; rw [hc] at h1; revert h1; decide
  have : s.byteLen = .panic := by
    unfold WideString.byteLen
    rw [if_neg (by simpa using he)]
    simp only [Nat.mod_eq_of_lt h2]
    split
    · rw [if_neg (by omega)]
    · rfl
  unfold WideString.enc
  rw [this]; rfl

theorem encodeUtf16_replicate_a (n : Nat) : (encodeUtf16 (String.ofList (List.replicate n 'a'))).length = n := by
  induction n with
  | zero => rfl
  | succ n ih =>
    rw [List.replicate_succ, ← List.singleton_append, String.ofList_append, encodeUtf16_append, List.length_append,
      ih]
    show 1 + n = n + 1
    omega

example : WideString.enc ⟨String.ofList (List.replicate (2 ^ 31 - 1) 'a')⟩ = .panic :=
  comment_too_long_panics _ (by rw [encodeUtf16_replicate_a]; omega) (by rw [encodeUtf16_replicate_a]; omega)

/-- C48, partial: a comment that does not end with a NUL character and takes less than 4 GiB is written as the
number of bytes that follow (big endian), then the UTF-16 units and a terminator, or nothing at all for the
empty comment; reading gives it back.  Missing: see the two theorems above. -/
theorem comment_roundtrip_partial {s : WideString} (hn : s.NoTrailingNul) (hs : s.byteCount < 2 ^ 32) :
    ∃ bs, s.enc = .ok bs ∧ U32BeAt bs 0 (bs.length - 4) ∧ bs.length = 4 + s.byteCount ∧
      (∀ i u, (encodeUtf16 s.val)[i]? = some u → U16BeAt bs (4 + 2 * i) u.toNat) ∧
      (s.val ≠ "" → U16BeAt bs (4 + 2 * (encodeUtf16 s.val).length) 0) ∧
      ∀ d p, HasAt d p bs → WideString.read d p = .ok (s, p + bs.length) := by
  have hl := s.canonical_length
  have hlen : (encU32be (UInt32.ofNat s.canonical.length) ++ s.canonical).length = 4 + s.byteCount := by
    rw [List.length_append, encU32be_length, hl]
  have hself := hasAt_self (encU32be (UInt32.ofNat s.canonical.length) ++ s.canonical)
  rw [HasAt.append_iff] at hself
  refine ⟨_, s.enc_eq hs, ?_, hlen, ?_, ?_, fun d p hd => ?_⟩
  · have := U32BeAt.of_hasAt hself.1
    rw [toNat_ofNat32 (by omega)] at this
    rw [hlen, Nat.add_sub_cancel_left, ← hl]; exact this
  · intro i u hu
    have he : s.val ≠ "" := by
      intro hc; rw [hc] at hu; cases hu
    have h2 := hself.2
    rw [encU32be_length] at h2
    obtain ⟨hi, hu⟩ := List.getElem?_eq_some_iff.1 hu
    have hsplit : encodeUtf16 s.val = (encodeUtf16 s.val).take i ++ u :: (encodeUtf16 s.val).drop (i + 1) := by
      rw [← hu, List.getElem_cons_drop, List.take_append_drop]
    have hcan : s.canonical = (((encodeUtf16 s.val).take i).flatMap encU16be) ++ (encU16be u ++
        (((encodeUtf16 s.val).drop (i + 1)).flatMap encU16be ++ [0, 0])) := by
      unfold WideString.canonical
      rw [if_neg he]
      conv => lhs; rw [hsplit]
      simp [List.flatMap_append]
    rw [hcan, HasAt.append_iff, HasAt.append_iff, flatMap_encU16be_length, List.length_take,
      Nat.min_eq_left (by omega)] at h2
    rw [← hcan] at h2
    simpa using U16BeAt.of_hasAt h2.2.1
  · intro he
    have h2 := hself.2
    rw [encU32be_length] at h2
    have hcan : s.canonical = (encodeUtf16 s.val).flatMap encU16be ++ encU16be 0 := by
      unfold WideString.canonical; rw [if_neg he]; rfl
    rw [hcan, HasAt.append_iff, flatMap_encU16be_length] at h2
    rw [← hcan] at h2
    simpa using U16BeAt.of_hasAt h2.2
  · exact WideString.rt (WideString.canonical_reads hn) (by omega) d p hd

example : (⟨"Drop 𝄞"⟩ : WideString).NoTrailingNul ∧ (⟨"Drop 𝄞"⟩ : WideString).byteCount = 16 :=
  ⟨by unfold WideString.NoTrailingNul; decide, by decide +kernel⟩

/-! ## C49: extended cues -/

/-- C49, partial: an extended cue whose total size counts its bytes and whose comment does not end with a NUL
character occupies exactly the declared size and survives write/read.  Missing: comments that end with a NUL
character (`comment_trailing_nul_lost`). -/
theorem extended_cue_roundtrip_partial {c : ExtendedCue} (hk : c.header.kind.Proper)
    (hn : c.comment.NoTrailingNul) (hs : c.header.totalSize.toNat = 68 + c.comment.byteCount + c.trailing.length) :
    ∃ bs, c.enc = .ok bs ∧ bs.length = c.header.totalSize.toNat ∧
      ∀ d p, HasAt d p bs → ExtendedCue.read d p = .ok (c, p + c.header.totalSize.toNat) := by
  have hlt := c.header.totalSize.toNat_lt
  have hc : c.Consistent := ⟨hk, hn, by omega, by omega⟩
  have hl : (c.bytesWith c.comment.canonical).length = c.header.totalSize.toNat := by
    rw [ExtendedCue.bytesWith_length, WideString.canonical_length]; omega
  refine ⟨_, c.enc_eq (by omega), hl, fun d p hd => ?_⟩
  rw [hc.rt d p hd, hl]

example : exampleCue.header.kind.Proper ∧ exampleCue.comment.NoTrailingNul ∧
    exampleCue.header.totalSize.toNat = 68 + exampleCue.comment.byteCount + exampleCue.trailing.length :=
  ⟨exampleCue_consistent.kind, exampleCue_consistent.comment, by decide +kernel⟩

/-- C49, on the reading side: how many bytes an extended cue takes.  `raw` are the bytes that the length field
of the comment counts.  The cue takes its declared size exactly if they are as many as the writer uses. -/
theorem extended_cue_read_size {d : Bytes} {p q : Nat} {c : ExtendedCue} (h : ExtendedCue.read d p = .ok (c, q))
    (hfit : 68 + c.comment.byteCount ≤ c.header.totalSize.toNat) :
    ∃ n, U32BeAt d (p + 40) n ∧ q + c.comment.byteCount = p + c.header.totalSize.toNat + n ∧
      (q = p + c.header.totalSize.toNat ↔ n = c.comment.byteCount) := by
  obtain ⟨bs, hb, hq', hk, hs, ht, raw, hl, hr, rfl⟩ := ExtendedCue.inv _ _ _ _ h
  rw [ExtendedCue.bytesWith_length] at hq'
  refine ⟨raw.length, ?_, by omega, by omega⟩
  unfold ExtendedCue.bytesWith at hb
  rw [HasAt.append_iff, HasAt.append_iff, HasAt.append_iff, ExtendedCue.front_length] at hb
  have := U32BeAt.of_hasAt hb.2.1.1
  rwa [toNat_ofNat32 hl] at this

/-- C49, on the reading side: a cue of 70 bytes whose comment has the length 2 and consists of the terminator
only.  The reader takes 72 bytes, two of them from what follows. -/
theorem extended_cue_overread : ∃ d : Bytes, ∃ c : ExtendedCue, ExtendedCue.read d 0 = .ok (c, 72) ∧
    c.header.totalSize = 70 ∧ c.comment.val = "" ∧ c.trailing = [0xAA, 0xBB] := by
  let c := { exampleCue with
      header := { exampleCue.header with totalSize := 70 }, comment := ⟨""⟩, trailing := [0xAA, 0xBB] }
  refine ⟨c.bytesWith [0, 0], c, ?_, rfl, rfl, rfl⟩
  have hr : c.comment.ReadsFrom [0, 0] := .inr ⟨by simp, String.ofList [Char.ofNat 0], by decide +kernel, by decide +kernel⟩
  have := ExtendedCue.rt (c := c) (raw := [0, 0]) (by decide) hr (by simp) (by decide +kernel) (by decide +kernel) _ 0
    (hasAt_self _)
  rw [this, ExtendedCue.bytesWith_length]
  rfl

end Rekordcrate.Anlz
