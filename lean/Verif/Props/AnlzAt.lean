import Verif.Lemmas.AnlzFileAt

/-! # C96: exactly the bytes of an analysis file are read as that file

`AnlzFile.At` and the descriptions of the parts (`Verif/Spec/AnlzAt.lean`) say where each field stands; they do not
mention the readers. -/

namespace Rekordcrate.Anlz

/-- C96: a file is read exactly if it stands there. -/
theorem anlz_read_iff {d : Bytes} {p : Nat} {a : AnlzFile} {q : Nat} :
    AnlzFile.read d p = .ok (a, q) ↔ a.At true d p q := file_at_iff

/-- C96, without overflow checks. -/
theorem anlz_release_read_iff {d : Bytes} {p : Nat} {a : AnlzFile} {q : Nat} :
    AnlzFile.readWrap d p = .ok (a, q) ↔ a.At false d p q := file_at_release_iff

/-- C96: a section is read exactly if it stands there. -/
theorem anlz_section_read_iff {d : Bytes} {p : Nat} {s : AnlzSection} {q : Nat} :
    AnlzSection.read d p = .ok (s, q) ↔ s.At true d p q := section_at_iff

/-- C96, without overflow checks. -/
theorem anlz_section_release_read_iff {d : Bytes} {p : Nat} {s : AnlzSection} {q : Nat} :
    AnlzSection.readWrap d p = .ok (s, q) ↔ s.At false d p q := section_at_release_iff

/-- C96: the content of a section is read exactly if it stands there and the header fits. -/
theorem anlz_content_read_iff {h : Header} {d : Bytes} {p : Nat} {c : Content} {q : Nat} :
    Content.read h d p = .ok (c, q) ↔ c.At true h d p q := content_at_iff

/-- C96, without overflow checks. -/
theorem anlz_content_release_read_iff {h : Header} {d : Bytes} {p : Nat} {c : Content} {q : Nat} :
    Content.readWrap h d p = .ok (c, q) ↔ c.At false h d p q := content_at_release_iff

/-- C96: no bytes are two files. -/
theorem anlz_unambiguous {checked : Bool} {d : Bytes} {p : Nat} {a b : AnlzFile} {q r : Nat}
    (ha : a.At checked d p q) (hb : b.At checked d p r) : a = b ∧ q = r := by
  cases checked
  · have := (anlz_release_read_iff.2 ha).symm.trans (anlz_release_read_iff.2 hb)
    injection this with this
    injection this with h1 h2
    exact ⟨h1, h2⟩
  · have := (anlz_read_iff.2 ha).symm.trans (anlz_read_iff.2 hb)
    injection this with this
    injection this with h1 h2
    exact ⟨h1, h2⟩

/-- C96: no bytes are two sections; in particular the data of a song structure is never both plain and encrypted. -/
theorem anlz_section_unambiguous {checked : Bool} {d : Bytes} {p : Nat} {a b : AnlzSection} {q r : Nat}
    (ha : a.At checked d p q) (hb : b.At checked d p r) : a = b ∧ q = r := by
  cases checked
  · have := (anlz_section_release_read_iff.2 ha).symm.trans (anlz_section_release_read_iff.2 hb)
    injection this with this
    injection this with h1 h2
    exact ⟨h1, h2⟩
  · have := (anlz_section_read_iff.2 ha).symm.trans (anlz_section_read_iff.2 hb)
    injection this with this
    injection this with h1 h2
    exact ⟨h1, h2⟩

/-- C96: what stands there for a build with overflow checks also does for one without. -/
theorem anlz_at_release {d : Bytes} {p : Nat} {a : AnlzFile} {q : Nat} (h : a.At true d p q) : a.At false d p q := by
  have h := anlz_read_iff.2 h
  rw [← anlz_release_read_iff, AnlzFile.read_agree d p (by rw [h]; exact fun h => (by cases h)), h]

/-! ## Concrete cases -/

/-- The file of C43 with a path, extended cues, a song structure and an unknown section stands in its bytes. -/
example : ∃ bs, exampleFile.enc = .ok bs ∧ exampleFile.At true bs 0 228 ∧ exampleFile.At false bs 0 228 := by
  obtain ⟨bs, h1, _, h3⟩ := anlz_roundtrip exampleFile_consistent
  have := anlz_read_iff.1 (h3 bs 0 (hasAt_self bs))
  exact ⟨bs, h1, this, anlz_at_release this⟩

/-- A beat grid with one beat, byte by byte: nothing but the description. -/
example : AnlzSection.At true [0x50, 0x51, 0x54, 0x5a, 0, 0, 0, 24, 0, 0, 0, 32, 0, 0, 0, 0, 0, 8, 0, 0, 0, 0, 0, 1,
      0, 4, 0x2e, 0xe0, 0, 0, 0x12, 0x34] 0
    { header := ⟨.beatGrid, 24, 32⟩, content := .beatGrid { unknown1 := 0, unknown2 := 0x80000, beats := [⟨4, 12000, 0x1234⟩] } }
    32 := by
  rw [← anlz_section_read_iff]
  decide +kernel

/-- With the number of beats changed it does not stand there. -/
example (s : AnlzSection) (q : Nat) : ¬ AnlzSection.At true [0x50, 0x51, 0x54, 0x5a, 0, 0, 0, 24, 0, 0, 0, 32,
      0, 0, 0, 0, 0, 8, 0, 0, 0, 0, 0, 2, 0, 4, 0x2e, 0xe0, 0, 0, 0x12, 0x34] 0 s q := by
  rw [← anlz_section_read_iff]
  have : ∃ e, AnlzSection.read [0x50, 0x51, 0x54, 0x5a, 0, 0, 0, 24, 0, 0, 0, 32,
      0, 0, 0, 0, 0, 8, 0, 0, 0, 0, 0, 2, 0, 4, 0x2e, 0xe0, 0, 0, 0x12, 0x34] 0 = .err e := by
    refine ⟨.assertFail, ?_⟩
    decide +kernel
  obtain ⟨e, he⟩ := this
  rw [he]
  exact fun h => (by cases h)

/-- 65311 phrases: only a build without overflow checks reads them. -/
example : ∃ bs, (Content.songStructure (exampleSong false 65311)).At false ⟨.songStructure, 32, 32 + 24 * 65311⟩ bs 0
      (20 + 24 * 65311) ∧
    ¬ (Content.songStructure (exampleSong false 65311)).At true ⟨.songStructure, 32, 32 + 24 * 65311⟩ bs 0
      (20 + 24 * 65311) := by
  have hl : (exampleSong false 65311).data.phrases.length = 65311 := exampleSong_length _ _
  refine ⟨(exampleSong false 65311).encWrap, ?_, ?_⟩
  · rw [← songStructure_release_read_iff rfl]
    have := SongStructure.rt_wrap (h := ⟨.songStructure, 32, 32 + 24 * 65311⟩) (c := exampleSong false 65311)
      (by rw [hl]; decide) (by rw [hl]; unfold Header.LeavesModulo; decide) _ 0 (hasAt_self _)
    rw [this, SongStructure.encWrap_eq, song_bytes_length, hl, Nat.zero_add]
  · intro h
    have := h.2.2.2.2.1 rfl
    rw [hl] at this
    exact absurd this (by decide)

end Rekordcrate.Anlz
