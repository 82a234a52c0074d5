import Verif.Props.AnlzRewrite
import Verif.Spec.AnlzEdited

/-! # C105: which analysis files can be read back after they were changed -/

namespace Rekordcrate.Anlz
open Rd

/-! ## Sections -/

theorem read_consistent {d : Bytes} {p q : Nat} {s : AnlzSection} (hl : ¬ s.LongPath)
    (h : AnlzSection.read d p = .ok (s, q)) : s.Consistent := by
  obtain ⟨bs, hb, hq, hp, cb, hc, rfl⟩ := AnlzSection.read_inv _ _ _ _ h
  unfold AnlzSection.Consistent
  obtain ⟨hd', c⟩ := s
  simp only at hc hp hb ⊢
  cases c <;> first
    | exact hc.2
    | skip
  · exact comment_section_consistent h ⟨_, rfl⟩
  · rename_i c
    obtain ⟨h1, h2, h3, n, h4, h5⟩ := hc
    refine ⟨h1, h2, ?_⟩
    have hl : c.path.length < 2 ^ 32 := by
      rcases Nat.lt_or_ge c.path.length (2 ^ 32) with h | h
      · exact h
      · exact absurd ⟨c, rfl, h⟩ hl
    unfold Path.lenPath at h4
    simp only [Nat.mod_eq_of_lt hl] at h4
    split at h4
    · split at h4
      · injection h4 with h4; omega
      · cases h4
    · cases h4
  · exact ⟨hc.1, hp, hc.2.2.1, hc.2.2.2⟩

/-- C105: a section without a path of 8 GiB can be written and is read back as it was exactly if it is consistent. -/
theorem section_roundtrip_iff {s : AnlzSection} (hl : ¬ s.LongPath) :
    (∃ bs, s.enc = .ok bs ∧ ∀ d p, HasAt d p bs → AnlzSection.read d p = .ok (s, p + bs.length)) ↔
      s.Consistent := by
  constructor
  · rintro ⟨bs, -, hr⟩
    exact read_consistent hl (hr bs 0 (hasAt_self bs))
  · exact fun h => ⟨_, h.enc_eq, h.rt⟩

/-! ## Files -/

theorem row_mem {ck : Bool} {d : Bytes} {p : Nat} {ss : List AnlzSection} {q : Nat} (h : AnlzSection.Row ck d p ss q) :
    ∀ s ∈ ss, ∃ m n, s.At ck d m n := by
  induction ss generalizing p with
  | nil => exact fun s hs => absurd hs (by simp)
  | cons x ss ih =>
    obtain ⟨m, h1, h2⟩ := (AnlzSection.row_cons _ _ _ _).1 h
    intro s hs
    rcases List.mem_cons.1 hs with rfl | hs
    · exact ⟨_, _, h1⟩
    · exact ih h2 s hs

theorem row_of_consistent {d : Bytes} {p : Nat} {ss : List AnlzSection} (hc : ∀ s ∈ ss, s.Consistent)
    (h : HasAt d p (ss.flatMap AnlzSection.bytes)) :
    AnlzSection.Row true d p ss (p + (ss.map AnlzSection.byteCount).sum) := by
  induction ss generalizing p with
  | nil => exact (AnlzSection.row_nil _ _).2 rfl
  | cons s ss ih =>
    rw [List.flatMap_cons, HasAt.append_iff] at h
    have h1 := anlz_section_read_iff.1 ((hc s (by simp)).rt d p h.1)
    have h2 := ih (fun x hx => hc x (by simp [hx])) h.2
    rw [List.map_cons, List.sum_cons, ← Nat.add_assoc]
    rw [AnlzSection.bytes_length] at h1 h2
    exact (AnlzSection.row_cons _ _ _ _).2 ⟨_, h1, h2⟩

/-- C105, exact: a file without paths of 8 GiB can be written and is read back as it was exactly if it is marked as a
file, the size in its header counts the header, every section is consistent, and the total size in the header is not
more than the sections have, not less than the header, and behind the beginning of the last section.  The total size
need not be the number of bytes. -/
theorem anlz_roundtrip_iff {a : AnlzFile} (hl : ∀ s ∈ a.sections, ¬ s.LongPath) :
    (∃ bs, a.enc = .ok bs ∧ ∀ d p, HasAt d p bs → AnlzFile.read d p = .ok (a, p + bs.length)) ↔
      a.header.kind = .file ∧ a.header.size.toNat = 12 + a.headerData.length ∧
      (∀ s ∈ a.sections, s.Consistent) ∧ a.header.size.toNat ≤ a.header.totalSize.toNat ∧
      a.header.totalSize.toNat ≤ a.header.size.toNat + (a.sections.map AnlzSection.byteCount).sum ∧
      ∀ before s, a.sections = before ++ [s] →
        a.header.size.toNat + (before.map AnlzSection.byteCount).sum < a.header.totalSize.toNat := by
  have henc : (∀ s ∈ a.sections, s.Consistent) →
      a.enc = .ok (a.header.enc ++ (a.headerData ++ a.sections.flatMap AnlzSection.bytes)) := by
    intro h
    unfold AnlzFile.enc
    rw [encAll_ok fun s hs => (h s hs).enc_eq]
    rfl
  have hlen : (a.header.enc ++ (a.headerData ++ a.sections.flatMap AnlzSection.bytes)).length =
      12 + a.headerData.length + (a.sections.map AnlzSection.byteCount).sum := by
    rw [List.length_append, List.length_append, Header.enc_length, sections_length]
    omega
  constructor
  · rintro ⟨bs, e, hr⟩
    have h0 := hr bs 0 (hasAt_self bs)
    have h1 := anlz_read_iff.1 h0
    obtain ⟨_, _, h3⟩ := h1.row
    obtain ⟨_, g2, _, g4, _, n, _, g7, _⟩ := h1
    have g4' : a.header.size.toNat = 12 + a.headerData.length := g4
    have g7' : a.header.totalSize.toNat = a.header.size.toNat + n := g7
    have hc : ∀ s ∈ a.sections, s.Consistent := by
      intro s hs
      obtain ⟨m, n, hm⟩ := row_mem h3 s hs
      exact read_consistent (hl s hs) (anlz_section_read_iff.2 hm)
    obtain ⟨bs', e', k⟩ := anlz_rewrite_stable_iff h0
    rw [e] at e'
    injection e' with e'
    subst e'
    obtain ⟨k1, k2⟩ := k.1 hr
    rw [henc hc] at e
    injection e with e
    rw [← e, hlen] at k1 k2
    refine ⟨g2, g4', hc, by omega, by omega, fun before s hb => ?_⟩
    have hs : s.Consistent := hc s (by rw [hb]; simp)
    have := k2 before s _ hb hs.enc_eq
    rw [AnlzSection.bytes_length, hb, List.map_append, List.sum_append] at this
    simp only [List.map_cons, List.map_nil, List.sum_cons, List.sum_nil] at this
    omega
  · rintro ⟨h1, h2, h3, h4, h5, h6⟩
    refine ⟨_, henc h3, fun d p hb => ?_⟩
    rw [hlen]
    rw [HasAt.append_iff, HasAt.append_iff, Header.enc_length] at hb
    obtain ⟨b1, b2, b3⟩ := hb
    have hh : a.header.At d p := (header_at_iff.1 (Header.rt (by rw [h1]; decide) d p b1)).1
    have htot := a.header.totalSize.toNat_lt
    have hsz := a.header.size.toNat_lt
    refine anlz_read_iff.2 ⟨hh, h1, by omega, h2, b2, a.header.totalSize.toNat - a.header.size.toNat, by omega,
      (by omega : a.header.totalSize.toNat = a.header.size.toNat + _), AnlzSection.listAt_row_iff.2 ⟨?_, ?_, ?_⟩⟩
    · rw [← Nat.add_assoc, ← Nat.add_assoc]
      exact row_of_consistent h3 b3
    · omega
    · intro before s hs m hm
      have := h6 before s hs
      have hc : ∀ x ∈ before, x.Consistent := fun x hx => h3 x (by rw [hs]; simp [hx])
      rw [hs, List.flatMap_append, HasAt.append_iff] at b3
      have := (row_of_consistent hc b3.1).unique hm
      omega

/-- The example has consistent sections, so both sides hold. -/
example : ∃ bs, exampleFile.enc = .ok bs ∧ ∀ d p, HasAt d p bs → AnlzFile.read d p = .ok (exampleFile, p + bs.length) := by
  obtain ⟨bs, h1, h2, h3⟩ := anlz_roundtrip exampleFile_consistent
  exact ⟨bs, h1, h2 ▸ h3⟩

/-! ## What happens if only the contents are changed -/

/-- C105: for the kinds whose reader compares the content with the sizes in the header, two consistent sections with
the same header have the same number of bytes; so entries cannot be added or removed without changing the header. -/
theorem consistent_same_size {s s' : AnlzSection} (h : s.Consistent) (h' : s'.Consistent)
    (hk : s.header.kind.usesContentSize = true) (he : s'.header = s.header) : s'.byteCount = s.byteCount := by
  obtain ⟨hd, c⟩ := s
  obtain ⟨hd', c'⟩ := s'
  cases he
  have key : ∀ c : Content, c.Consistent hd → c.byteCount = hd.totalSize.toNat - hd.size.toNat + c.headCount ∧
      (hd.kind.isUnknown = true → c.headCount = hd.size.toNat - 12) ∧
      (hd.kind.isUnknown = false → c.kind? = some hd.kind) := by
    intro c hc
    cases c <;>
      simp only [Content.Consistent, Content.byteCount, Content.headCount, Content.kind?] at hc ⊢
    case beatGrid => rw [hc.1] at hk; cases hk
    case cueList => rw [hc.1] at hk; cases hk
    case extendedCueList => rw [hc.1] at hk; cases hk
    case unknown => exact ⟨by omega, fun _ => by omega, fun h => absurd h (by rw [hc.1]; decide)⟩
    all_goals exact ⟨by omega, fun h => (by rw [hc.1] at h; cases h), fun _ => by rw [hc.1]⟩
  obtain ⟨a1, a2, a3⟩ := key c h
  obtain ⟨b1, b2, b3⟩ := key c' h'
  show 12 + c'.byteCount = 12 + c.byteCount
  cases hu : hd.kind.isUnknown with
  | true => rw [a1, b1, a2 hu, b2 hu]
  | false =>
    have hh : c'.headCount = c.headCount := by
      have := (a3 hu).trans (b3 hu).symm
      cases c <;> cases c' <;> first | rfl | cases (a3 hu) | simp [Content.kind?] at this
    rw [a1, b1, hh]

/-- C105: a section that is added at the end of a file without changing the total size in the header is written but
not read back: the file is read as it was before, without notice. -/
theorem appended_section_lost {a : AnlzFile} {s : AnlzSection} (ha : a.Consistent) (hs : s.Consistent) :
    ∃ bs, ({ a with sections := a.sections ++ [s] } : AnlzFile).enc = .ok bs ∧
      bs.length = a.header.totalSize.toNat + s.byteCount ∧
      ∀ d p, HasAt d p bs → AnlzFile.read d p = .ok (a, p + a.header.totalSize.toNat) := by
  obtain ⟨bs, h1, h2, h3⟩ := anlz_roundtrip ha
  have h4 : ({ a with sections := a.sections ++ [s] } : AnlzFile).enc = .ok (bs ++ s.bytes) := by
    have := h1
    rw [ha.enc_eq] at this
    injection this with this
    unfold AnlzFile.enc
    rw [encAll_ok (g := AnlzSection.bytes)]
    · rw [Res.ok_bind, List.flatMap_append, ← this]
      simp
    · intro x hx
      rcases List.mem_append.1 hx with hx | hx
      · exact (ha.sections x hx).enc_eq
      · rw [List.mem_singleton.1 hx]; exact hs.enc_eq
  refine ⟨_, h4, by rw [List.length_append, h2, AnlzSection.bytes_length], fun d p hd => ?_⟩
  rw [HasAt.append_iff] at hd
  exact h3 d p hd.1

example : exampleFile.Consistent ∧ ∀ s ∈ exampleFile.sections, s.Consistent :=
  ⟨exampleFile_consistent, exampleFile_consistent.sections⟩

/-- C105: a file that is written with fewer bytes than its header says, for example since a section was removed, is
not a file any more. -/
theorem shrunk_file_unreadable {a : AnlzFile} {bs : Bytes} (h : a.enc = .ok bs) (hk : a.header.kind = .file)
    (hs : bs.length < a.header.totalSize.toNat) : ∀ x, AnlzFile.read bs 0 ≠ .ok x := by
  rintro ⟨x, q⟩ hx
  obtain ⟨ss, hss, rfl⟩ : ∃ ss, encAll AnlzSection.enc a.sections = .ok ss ∧ a.header.enc ++ (a.headerData ++ ss) = bs := by
    unfold AnlzFile.enc at h
    cases he : encAll AnlzSection.enc a.sections with
    | ok ss =>
      rw [he, Res.ok_bind] at h
      injection h with h
      exact ⟨ss, rfl, h⟩
    | err _ => rw [he] at h; cases h
    | panic => rw [he] at h; cases h
  have h1 := hasAt_self (a.header.enc ++ (a.headerData ++ ss))
  rw [HasAt.append_iff] at h1
  have h2 := Header.rt (h := a.header) (by rw [hk]; decide) _ _ h1.1
  have h3 := anlz_read_iff.1 hx
  have h4 := header_at_iff.2 ⟨h3.1, rfl⟩
  rw [h2] at h4
  injection h4 with h4
  have h5 : a.header = x.header := (Prod.mk.inj h4).1
  obtain ⟨_, h6, _⟩ := anlz_section_count hx
  obtain ⟨ys, h7, h8, _⟩ := anlz_read_held hx
  have h9 := h7.bound (by rintro rfl; simp at h8; rw [← h5] at h6; omega)
  rw [← h5] at h6
  omega

/-- A consistent file from which a section is removed is such a file. -/
theorem removed_section_unreadable {a : AnlzFile} {before after : List AnlzSection} {s : AnlzSection}
    (ha : a.Consistent) (hs : a.sections = before ++ s :: after) :
    ∃ bs, ({ a with sections := before ++ after } : AnlzFile).enc = .ok bs ∧ ∀ x, AnlzFile.read bs 0 ≠ .ok x := by
  have hc : ∀ x ∈ before ++ after, x.Consistent := by
    intro x hx
    refine ha.sections x ?_
    rw [hs]
    rcases List.mem_append.1 hx with hx | hx <;> simp [hx]
  have he : ({ a with sections := before ++ after } : AnlzFile).enc =
      .ok (a.header.enc ++ (a.headerData ++ (before ++ after).flatMap AnlzSection.bytes)) := by
    unfold AnlzFile.enc
    rw [encAll_ok fun x hx => (hc x hx).enc_eq]
    rfl
  refine ⟨_, he, shrunk_file_unreadable he ha.kind ?_⟩
  have h1 := ha.total
  have h2 := ha.headerSize
  rw [hs] at h1
  simp only [List.length_append, Header.enc_length, sections_length, List.map_append, List.sum_append, List.map_cons,
    List.sum_cons] at h1 ⊢
  have : s.byteCount = 12 + s.content.byteCount := rfl
  omega

/-! ## What makes every change readable -/

theorem resized_section_consistent {s : AnlzSection} (hf : s.content.Fits s.header.kind) (hb : s.byteCount < 2 ^ 32) :
    s.resized.Consistent := by
  obtain ⟨hd, c⟩ := s
  have hh : c.headCount ≤ c.byteCount := by
    cases c <;> simp only [Content.headCount, Content.byteCount] <;> omega
  have hb' : 12 + c.byteCount < 2 ^ 32 := hb
  have e1 : (UInt32.ofNat (12 + c.headCount)).toNat = 12 + c.headCount := by
    rw [UInt32.toNat_ofNat']; exact Nat.mod_eq_of_lt (by omega)
  have e2 : (UInt32.ofNat (12 + c.byteCount)).toNat = 12 + c.byteCount := by
    rw [UInt32.toNat_ofNat']; exact Nat.mod_eq_of_lt hb'
  show Content.Consistent ⟨hd.kind, UInt32.ofNat (12 + c.headCount), UInt32.ofNat (12 + c.byteCount)⟩ c
  simp only at hf
  cases c <;> simp only [Content.Fits, Content.Consistent, Content.headCount, Content.byteCount] at hf hb' e1 e2 ⊢
  case beatGrid => exact ⟨hf, by omega⟩
  case cueList => exact hf
  case extendedCueList => exact hf
  case unknown => exact ⟨hf.1, hf.2, e1, by omega⟩
  case songStructure => exact ⟨hf.1, by omega, hf.2⟩
  case path => exact ⟨hf.1, hf.2, by omega⟩
  case waveformDetail => exact ⟨hf.1, hf.2, by omega⟩
  case waveform3BandDetail => exact ⟨hf.1, hf.2, by omega⟩
  all_goals exact ⟨hf, by omega⟩

/-- C105: whatever was done to the contents of a file, if counts fit in their fields and constants are as they should
be, it suffices to set the sizes in the headers to what is there (less than 4 GiB): then the file can be written, has
as many bytes as its header says, and is read back as it was. -/
theorem resized_roundtrip {a : AnlzFile} (hk : a.header.kind = .file)
    (hf : ∀ s ∈ a.sections, s.content.Fits s.header.kind)
    (hb : 12 + a.headerData.length + (a.sections.map AnlzSection.byteCount).sum < 2 ^ 32) :
    ∃ bs, a.resized.enc = .ok bs ∧
      bs.length = 12 + a.headerData.length + (a.sections.map AnlzSection.byteCount).sum ∧
      ∀ d p, HasAt d p bs → AnlzFile.read d p = .ok (a.resized, p + bs.length) := by
  have e2 : a.resized.header.totalSize.toNat =
      12 + a.headerData.length + (a.sections.map AnlzSection.byteCount).sum := by
    show (UInt32.ofNat _).toNat = _
    rw [UInt32.toNat_ofNat']; exact Nat.mod_eq_of_lt hb
  have e1 : a.resized.header.size.toNat = 12 + a.headerData.length := by
    show (UInt32.ofNat _).toNat = _
    rw [UInt32.toNat_ofNat']; exact Nat.mod_eq_of_lt (by omega)
  have hsum : a.resized.sections.map AnlzSection.byteCount = a.sections.map AnlzSection.byteCount := by
    show (a.sections.map AnlzSection.resized).map _ = _
    rw [List.map_map]
    rfl
  have hle : ∀ l : List AnlzSection, ∀ s ∈ l, s.byteCount ≤ (l.map AnlzSection.byteCount).sum := by
    intro l
    induction l with
    | nil => exact fun s hs => absurd hs (by simp)
    | cons x l ih =>
      intro s hs
      rw [List.map_cons, List.sum_cons]
      rcases List.mem_cons.1 hs with rfl | hs
      · omega
      · have := ih s hs; omega
  have hc : a.resized.Consistent := by
    refine ⟨hk, e1, fun s hs => ?_, by rw [hsum, e1, e2]⟩
    obtain ⟨x, hx, rfl⟩ := List.mem_map.1 (show s ∈ a.sections.map AnlzSection.resized from hs)
    exact resized_section_consistent (hf x hx) (by have := hle _ x hx; omega)
  obtain ⟨bs, h1, h2, h3⟩ := anlz_roundtrip hc
  refine ⟨bs, h1, by rw [h2, e2], ?_⟩
  rw [h2]
  exact h3

/-! ## Concrete cases -/

/-- A file with a beat grid of `n` beats, whose header says `size` bytes, and a path, in `total` bytes. -/
def beatFile (n : Nat) (size total : UInt32) : AnlzFile where
  header := ⟨.file, 28, total⟩
  headerData := List.replicate 16 1
  sections := [
    { header := ⟨.beatGrid, 24, size⟩, content := .beatGrid ⟨0, 0x80000, List.replicate n ⟨1, 12800, 25⟩⟩ },
    { header := ⟨.path, 16, 24⟩, content := .path ⟨[0x2f, 0x61, 0xe9]⟩ }]

/-- With the sizes that are there the file is read back. -/
example : ∃ bs, (beatFile 2 40 92).enc = .ok bs ∧ AnlzFile.read bs 0 = .ok (beatFile 2 40 92, 92) := by
  exact ⟨_, rfl, by decide +kernel⟩

/-- C105 is false as it stands: a program that adds three beats to this file and writes it gets a file without the
path section, without notice; if it adds two beats, everything is read back; if it removes one, nothing. -/
theorem beats_changed :
    (∃ bs, (beatFile 5 40 92).enc = .ok bs ∧
      AnlzFile.read bs 0 = .ok ({ beatFile 5 40 92 with sections := (beatFile 5 40 92).sections.take 1 }, 92)) ∧
    (∃ bs, (beatFile 4 40 92).enc = .ok bs ∧ AnlzFile.read bs 0 = .ok (beatFile 4 40 92, 108)) ∧
    (∃ bs, (beatFile 1 40 92).enc = .ok bs ∧ ∀ x, AnlzFile.read bs 0 ≠ .ok x) := by
  refine ⟨⟨_, rfl, by decide +kernel⟩, ⟨_, rfl, by decide +kernel⟩, ⟨_, rfl, ?_⟩⟩
  exact shrunk_file_unreadable (a := beatFile 1 40 92) rfl rfl (by decide +kernel)

/-- With `resized` all of them are read back, with whatever sizes there were. -/
example (n : Nat) (hn : n < 1000) (size total : UInt32) :
    ∃ bs, (beatFile n size total).resized.enc = .ok bs ∧
      ∀ d p, HasAt d p bs → AnlzFile.read d p = .ok ((beatFile n size total).resized, p + bs.length) := by
  obtain ⟨bs, h1, _, h3⟩ := resized_roundtrip (a := beatFile n size total) rfl
    (by
      intro s hs
      simp only [beatFile, List.mem_cons, List.not_mem_nil, or_false] at hs
      rcases hs with rfl | rfl
      · rfl
      · exact ⟨rfl, by decide⟩)
    (by
      simp [beatFile, AnlzSection.byteCount, Content.byteCount]
      omega)
  exact ⟨bs, h1, h3⟩

end Rekordcrate.Anlz
