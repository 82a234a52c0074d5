import Verif.Lemmas.WrapRewrite
import Verif.Props.Wrap

/-! # C89: what builds without overflow checks read, they write back -/

namespace Rekordcrate
open Rd

/-! ## Sections -/

namespace Anlz

/-- C89 (exact): without overflow checks, a section other than an extended cue list is read from some bytes
exactly if they are the bytes that the writer produces for it and its sizes match modulo `2 ^ 32`. -/
theorem section_release_read_iff {s : AnlzSection} (hc : ¬ s.HasComments) (d : Bytes) (p q : Nat) :
    AnlzSection.readWrap d p = .ok (s, q) ↔
      s.MatchesModulo ∧ HasAt d p s.encWrap ∧ q = p + s.encWrap.length := by
  constructor
  · intro h
    obtain ⟨bs, hb, hq, hh, hm⟩ := AnlzSection.inv_wrap _ _ _ _ h
    rw [hh.encWrap_eq hc] at hb hq
    exact ⟨hm, hb, hq⟩
  · rintro ⟨hm, hb, rfl⟩
    exact hm.rt hc d p hb

/-- C89: without overflow checks, every file that is read holds, from the position of the reader on, what the
writer produces for it; only the comments of extended cues may be stored in other ways. -/
theorem anlz_release_read_held {d : Bytes} {p q : Nat} {a : AnlzFile} (h : AnlzFile.readWrap d p = .ok (a, q)) :
    ∃ bs, HasAt d p bs ∧ q = p + bs.length ∧ a.HeldByWrap bs := by
  obtain ⟨-, -, -, -, bs, h1, h2, h3, -⟩ := AnlzFile.readWrap_eq_ok h
  exact ⟨bs, h2, h3, h1⟩

/-- C89: without overflow checks, writing a file that was read reproduces it byte for byte, if it has no extended
cue lists. -/
theorem anlz_release_rewrite {d : Bytes} {p q : Nat} {a : AnlzFile} (h : AnlzFile.readWrap d p = .ok (a, q))
    (hc : ∀ s ∈ a.sections, ¬ s.HasComments) : HasAt d p a.encWrap ∧ q = p + a.encWrap.length := by
  obtain ⟨bs, h1, h2, parts, sb, h3, rfl⟩ := anlz_release_read_held h
  rw [h3.eq hc] at h1 h2
  exact ⟨h1, h2⟩

/-- C89: without overflow checks, the two sizes in the header of a file that is read are right, if the file has less
than `2 ^ 32 - 12` bytes: the first counts the header, and the sections reach at least up to the second. -/
theorem anlz_release_file_sizes {d : Bytes} {p q : Nat} {a : AnlzFile} (h : AnlzFile.readWrap d p = .ok (a, q))
    (hd : d.length < 2 ^ 32 - 12) : a.header.size.toNat = 12 + a.headerData.length ∧
      a.header.size.toNat ≤ a.header.totalSize.toNat ∧ p + a.header.totalSize.toNat ≤ q := by
  obtain ⟨hk, hl, hs, -, bs, ⟨parts, sb, -, rfl⟩, h2, h3, h4⟩ := AnlzFile.readWrap_eq_ok h
  have hlen := h2.bound (by
    intro hc
    have := congrArg List.length hc
    rw [List.length_append, Header.enc_length] at this
    simp only [List.length_nil] at this
    omega)
  rw [List.length_append, List.length_append, Header.enc_length] at hlen h3 h4
  have := a.header.size.toNat_lt
  have := a.header.totalSize.toNat_lt
  have hsz : a.header.size.toNat = 12 + a.headerData.length := by omega
  unfold Header.contentSizeWrap subWrap32 at h4
  omega

/-- C89: the same for sections of a kind that the code does not know, in files of less than `2 ^ 31` bytes. -/
theorem unknown_section_release_sizes {d : Bytes} {p q : Nat} {s : AnlzSection} {c : Unknown}
    (h : AnlzSection.readWrap d p = .ok (s, q)) (hc : s.content = .unknown c) (hd : d.length < 2 ^ 31) :
    s.header.size.toNat = 12 + c.headerData.length ∧
      s.header.totalSize.toNat = s.header.size.toNat + c.contentData.length ∧
      q = p + s.header.totalSize.toNat := by
  obtain ⟨header, content⟩ := s
  simp only at hc
  subst hc
  obtain ⟨hm, hb, hq⟩ := (section_release_read_iff (by rintro ⟨c, hc⟩; cases hc) _ _ _).1 h
  obtain ⟨hk, hp, h1, h2, h3, h4⟩ := hm
  have hl : (AnlzSection.encWrap ⟨header, .unknown c⟩).length = 12 + c.headerData.length + c.contentData.length := by
    unfold AnlzSection.encWrap Content.encWrap Unknown.enc
    rw [List.length_append, List.length_append, Header.enc_length]
    omega
  have hlen := hb.bound (by intro hc; rw [hc] at hl; simp only [List.length_nil] at hl; omega)
  unfold Header.LeavesModulo at h4
  simp only at h2 h4 ⊢
  have := header.size.toNat_lt
  have := header.totalSize.toNat_lt
  omega

/-- C89: for sections of the other kinds the sizes in the header can be wrong: this preview is said to have a header of
`2 ^ 32 - 1` bytes and no bytes in total.  With overflow checks the same section panics. -/
theorem section_release_wrong_sizes : ∃ d s, d.length = 21 ∧ AnlzSection.readWrap d 0 = .ok (s, 21) ∧
    s.header.totalSize = 0 ∧ s.encWrap = d ∧ AnlzSection.read d 0 = .panic := by
  refine ⟨[80, 87, 65, 86, 255, 255, 255, 255, 0, 0, 0, 0, 0, 0, 0, 1, 0, 0, 0, 0, 0x25],
    ⟨⟨.waveformPreview, 0xFFFFFFFF, 0⟩, .waveformPreview ⟨0, [⟨5, 1⟩]⟩⟩, rfl, ?_, rfl, ?_, ?_⟩ <;> decide +kernel

end Anlz

/-! ## Strings -/

theorem DString.readShortWrap_inv : Inv DString.readShortWrap (fun v bs => v.encWrap = .ok bs) := by
  unfold DString.readShortWrap
  refine Inv.bind Inv.u8 ?_
  rintro f _ rfl
  refine Inv.bind (Inv.require _ _) ?_
  rintro _ _ ⟨hf, rfl⟩
  refine (Inv.bind_pure (Inv.bytes _)).mono ?_
  rintro v bs ⟨c, rfl, rfl, hl⟩
  unfold DString.encWrap
  simp only
  rw [hl]
  have hlt := f.toNat_lt
  have hf' : f.toNat % 2 = 1 := by simpa using hf
  have : UInt8.ofNat (((subWrap64 (f.toNat / 2) 1 + 1) * 2 + 1) % 256) = f := by
    apply UInt8.toNat_inj.1
    rw [UInt8.toNat_ofNat']
    unfold subWrap64
    omega
  rw [this]
  rfl

theorem DString.readLongWrap_inv : Inv DString.readLongWrap (fun v bs => ¬ v.IsIsrc → v.encWrap = .ok bs) := by
  unfold DString.readLongWrap
  refine Inv.bind Inv.u8 ?_
  rintro f _ rfl
  refine Inv.bind (Inv.require _ _) ?_
  rintro _ _ ⟨hf, rfl⟩
  refine Inv.bind Inv.u16 ?_
  rintro l _ rfl
  refine Inv.bind (Inv.magic _) ?_
  rintro _ _ rfl
  refine (Inv.bind_pure (LongBody.read_inv _ _)).mono ?_
  rintro v bs ⟨b, rfl, rfl, rfl, h0, hl⟩ hi
  have hlt := l.toNat_lt
  have hn : b.enc.length = subWrap16 l.toNat 4 := hl (fun c hc => hi (by rw [hc]; trivial))
  have hb : b.byteCount = .ok (subWrap16 l.toNat 4) := by
    rw [LongBody.byteCount_ok (by rw [hn]; unfold subWrap16; omega), hn]
  have hl' : UInt16.ofNat (addWrap16 (subWrap16 l.toNat 4) 4) = l := by
    apply UInt16.toNat_inj.1
    rw [UInt16.toNat_ofNat']
    unfold addWrap16 subWrap16
    omega
  unfold DString.encWrap
  simp only
  rw [hb]
  simp only
  rw [hl']
  rfl

/-- C89: without overflow checks, writing a string that was read reproduces it byte for byte, unless it is an ISRC:
also a string of impossible length. -/
theorem string_release_rewrite {d : Bytes} {p q : Nat} {v : DString} (h : DString.readWrap d p = .ok (v, q))
    (hi : ¬ v.IsIsrc) : ∃ bs, v.encWrap = .ok bs ∧ HasAt d p bs ∧ q = p + bs.length := by
  obtain ⟨bs, hb, hq, he⟩ := (Inv.orElse (DString.readShortWrap_inv.mono fun _ _ h _ => h) DString.readLongWrap_inv :
    Inv DString.readWrap fun v bs => ¬ v.IsIsrc → v.encWrap = .ok bs) _ _ _ _ h
  exact ⟨bs, he hi, hb, hq⟩

/-! ## Concrete cases -/

/-- A section with right sizes. -/
example : ∃ q, Anlz.AnlzSection.readWrap [80, 86, 66, 82, 0, 0, 0, 16, 0, 0, 0, 18, 0, 0, 0, 7, 1, 2] 0 =
    .ok (⟨⟨.vbr, 16, 18⟩, .vbr ⟨7, [1, 2]⟩⟩, q) :=
  ⟨_, (Anlz.section_release_read_iff (by rintro ⟨c, hc⟩; cases hc) _ _ _).2
    ⟨⟨rfl, by decide, by unfold Anlz.Header.LeavesModulo; decide⟩,
      by unfold HasAt; decide +kernel, rfl⟩⟩

/-- A file with this section is written back. -/
example : ∃ a, Anlz.AnlzFile.readWrap [80, 77, 65, 73, 0, 0, 0, 12, 0, 0, 0, 30,
      80, 86, 66, 82, 0, 0, 0, 16, 0, 0, 0, 18, 0, 0, 0, 7, 1, 2] 0 = .ok (a, 30) ∧
    (∀ s ∈ a.sections, ¬ s.HasComments) ∧ a.sections.length = 1 := by
  refine ⟨⟨⟨.file, 12, 30⟩, [], [⟨⟨.vbr, 16, 18⟩, .vbr ⟨7, [1, 2]⟩⟩]⟩, by decide +kernel, ?_, rfl⟩
  intro s hs
  simp only [List.mem_cons, List.not_mem_nil, or_false] at hs
  rintro ⟨c, hc⟩
  rw [hs] at hc
  cases hc

/-- An unknown section. -/
example : ∃ s c, Anlz.AnlzSection.readWrap [80, 88, 89, 90, 0, 0, 0, 13, 0, 0, 0, 15, 1, 2, 3] 0 = .ok (s, 15) ∧
    s.content = .unknown c :=
  ⟨⟨⟨.unknown 80 88 89 90, 13, 15⟩, .unknown ⟨[1], [2, 3]⟩⟩, ⟨[1], [2, 3]⟩, by decide +kernel, rfl⟩

/-- A short string. -/
example : DString.readWrap [7, 65, 66] 0 = .ok (.short [65, 66], 3) ∧ ¬ (DString.short [65, 66]).IsIsrc :=
  ⟨by decide +kernel, fun h => h⟩

end Rekordcrate
