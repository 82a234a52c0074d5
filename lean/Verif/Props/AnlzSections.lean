import Verif.Lemmas.AnlzLocal
import Verif.Props.AnlzAt
import Verif.Props.Isolation

/-! # C97: the sections of an analysis file are independent of one another -/

namespace Rekordcrate.Anlz
open Rd

/-- A section stands in its own bytes, and in the same bytes anywhere else. -/
theorem AnlzSection.At.own {ck : Bool} {d : Bytes} {p : Nat} {s : AnlzSection} {q : Nat} (h : s.At ck d p q) :
    ∃ bs, HasAt d p bs ∧ q = p + bs.length ∧ ∀ d' p', HasAt d' p' bs → s.At ck d' p' (p' + bs.length) := by
  cases ck
  · obtain ⟨bs, h1, h2, h3⟩ := AnlzSection.ownWrap _ _ _ _ (anlz_section_release_read_iff.2 h)
    exact ⟨bs, h1, h2, fun d' p' hb => anlz_section_release_read_iff.1 (h3 d' p' hb)⟩
  · obtain ⟨bs, h1, h2, h3⟩ := AnlzSection.own _ _ _ _ (anlz_section_read_iff.2 h)
    exact ⟨bs, h1, h2, fun d' p' hb => anlz_section_read_iff.1 (h3 d' p' hb)⟩

theorem AnlzSection.At.progress {ck : Bool} {d : Bytes} {p : Nat} {s : AnlzSection} {q : Nat} (h : s.At ck d p q) :
    p + 12 ≤ q := by
  cases ck
  · exact AnlzSection.readWrap_progress (anlz_section_release_read_iff.2 h)
  · exact AnlzSection.read_progress (anlz_section_read_iff.2 h)

theorem AnlzSection.at_alone_iff {ck : Bool} {d : Bytes} {p : Nat} {s : AnlzSection} {q : Nat} :
    s.At ck d p q ↔ ∃ bs, HasAt d p bs ∧ q = p + bs.length ∧ s.At ck bs 0 bs.length := by
  constructor
  · intro h
    obtain ⟨bs, h1, h2, h3⟩ := h.own
    refine ⟨bs, h1, h2, ?_⟩
    have := h3 bs 0 (hasAt_self bs)
    rwa [Nat.zero_add] at this
  · rintro ⟨bs, h1, rfl, h2⟩
    obtain ⟨bs', h3, h4, h5⟩ := h2.own
    rw [Nat.zero_add] at h4
    have : bs' = bs := (h3.eq_of_length (hasAt_self bs) h4.symm)
    rw [← this] at h1 ⊢
    exact h5 d p h1

/-- C97: a section is read from a file exactly if it is read from its own bytes alone. -/
theorem anlz_section_alone_iff {d : Bytes} {p : Nat} {s : AnlzSection} {q : Nat} :
    AnlzSection.read d p = .ok (s, q) ↔
      ∃ bs, HasAt d p bs ∧ q = p + bs.length ∧ AnlzSection.read bs 0 = .ok (s, bs.length) := by
  simp only [anlz_section_read_iff]
  exact AnlzSection.at_alone_iff

/-- C97, without overflow checks. -/
theorem anlz_section_release_alone_iff {d : Bytes} {p : Nat} {s : AnlzSection} {q : Nat} :
    AnlzSection.readWrap d p = .ok (s, q) ↔
      ∃ bs, HasAt d p bs ∧ q = p + bs.length ∧ AnlzSection.readWrap bs 0 = .ok (s, bs.length) := by
  simp only [anlz_section_release_read_iff]
  exact AnlzSection.at_alone_iff

/-! ## A file is its sections -/

theorem AnlzSection.listAt_iff {ck : Bool} {d : Bytes} {fin p : Nat} {ss : List AnlzSection} {q : Nat} :
    AnlzSection.ListAt ck d fin p ss q ↔ ∃ parts : List (AnlzSection × Bytes), parts.map (·.1) = ss ∧
      (∀ x ∈ parts, x.1.At ck x.2 0 x.2.length) ∧ HasAt d p (parts.flatMap (·.2)) ∧
      q = p + (parts.flatMap (·.2)).length ∧ fin ≤ q ∧
      ∀ l x r, parts = l ++ x :: r → p + (l.flatMap (·.2)).length < fin := by
  constructor
  · intro h
    induction h with
    | nil hp => exact ⟨[], rfl, by simp, HasAt.nil _ _, rfl, hp, by simp⟩
    | @cons p m q s ss hp hs _ ih =>
      obtain ⟨parts, h1, h2, h3, h4, h5, h6⟩ := ih
      obtain ⟨bs, g1, g2, g3⟩ := AnlzSection.at_alone_iff.1 hs
      subst g2
      refine ⟨(s, bs) :: parts, by rw [List.map_cons, h1], ?_, ?_, ?_, h5, ?_⟩
      · intro x hx
        rcases List.mem_cons.1 hx with rfl | hx
        · exact g3
        · exact h2 x hx
      · rw [List.flatMap_cons, HasAt.append_iff]
        exact ⟨g1, h3⟩
      · rw [List.flatMap_cons, List.length_append, h4, Nat.add_assoc]
      · intro l x r hl
        cases l with
        | nil => exact hp
        | cons y l =>
          rw [List.cons_append] at hl
          injection hl with e1 e2
          have := h6 l x r e2
          rw [← e1, List.flatMap_cons, List.length_append, ← Nat.add_assoc]
          exact this
  · rintro ⟨parts, rfl, h2, h3, rfl, h5, h6⟩
    induction parts generalizing p with
    | nil => exact .nil h5
    | cons x parts ih =>
      rw [List.flatMap_cons, HasAt.append_iff] at h3
      rw [List.flatMap_cons, List.length_append, ← Nat.add_assoc] at h5 ⊢
      refine .cons (h6 [] x parts rfl) (AnlzSection.at_alone_iff.2 ⟨x.2, h3.1, rfl, h2 x (by simp)⟩)
        (ih (fun y hy => h2 y (by simp [hy])) h3.2 h5 fun l y r hl => ?_)
      have := h6 (x :: l) y r (by rw [hl, List.cons_append])
      rw [List.flatMap_cons, List.length_append, ← Nat.add_assoc] at this
      exact this

/-- C97: a file is read exactly if it consists of its header and of sections, each of which can be read from its own
bytes alone; every section begins before the declared end of the file, and together they reach it. -/
theorem anlz_read_sections_iff {d : Bytes} {p : Nat} {a : AnlzFile} {q : Nat} :
    AnlzFile.read d p = .ok (a, q) ↔
      a.header.At d p ∧ a.header.kind = .file ∧ a.header.size.toNat = 12 + a.headerData.length ∧
      HasAt d (p + 12) a.headerData ∧
      ∃ parts : List (AnlzSection × Bytes), parts.map (·.1) = a.sections ∧
        (∀ x ∈ parts, AnlzSection.read x.2 0 = .ok (x.1, x.2.length)) ∧
        HasAt d (p + 12 + a.headerData.length) (parts.flatMap (·.2)) ∧
        q = p + 12 + a.headerData.length + (parts.flatMap (·.2)).length ∧
        a.header.size.toNat ≤ a.header.totalSize.toNat ∧
        a.header.totalSize.toNat ≤ 12 + a.headerData.length + (parts.flatMap (·.2)).length ∧
        ∀ l x r, parts = l ++ x :: r →
          12 + a.headerData.length + (l.flatMap (·.2)).length < a.header.totalSize.toNat := by
  rw [anlz_read_iff, AnlzFile.At]
  simp only [anlz_section_read_iff, AnlzSection.listAt_iff]
  constructor
  · rintro ⟨h1, h2, h3, h4, h5, n, h6, h7, parts, g1, g2, g3, rfl, g5, g6⟩
    have h4 : a.header.size.toNat = 12 + a.headerData.length := h4
    have h7 : a.header.totalSize.toNat = a.header.size.toNat + n := h7
    refine ⟨h1, h2, h4, h5, parts, g1, g2, g3, rfl, by omega, by omega, fun l x r hl => ?_⟩
    have := g6 l x r hl
    omega
  · rintro ⟨h1, h2, h4, h5, parts, g1, g2, g3, rfl, g4, g5, g6⟩
    have l1 := a.header.size.toNat_lt
    have l2 := a.header.totalSize.toNat_lt
    refine ⟨h1, h2, (show _ < 2 ^ 32 by omega), h4, h5, a.header.totalSize.toNat - a.header.size.toNat,
      (show _ < 2 ^ 32 by omega), ?_, parts, g1, g2, g3, rfl, by omega, fun l x r hl => ?_⟩
    · show a.header.totalSize.toNat = a.header.size.toNat + _
      omega
    · have := g6 l x r hl
      omega

/-- C97: sections that can be read can be put together in any order and number: behind a header that counts their
bytes, they are a file. -/
theorem anlz_compose {d : Bytes} {p : Nat} {h : Header} {hd : Bytes} {parts : List (AnlzSection × Bytes)}
    (hh : h.At d p) (hk : h.kind = .file) (hs : h.size.toNat = 12 + hd.length)
    (ht : h.totalSize.toNat = 12 + hd.length + (parts.flatMap (·.2)).length)
    (hd1 : HasAt d (p + 12) hd) (hd2 : HasAt d (p + 12 + hd.length) (parts.flatMap (·.2)))
    (hparts : ∀ x ∈ parts, AnlzSection.read x.2 0 = .ok (x.1, x.2.length)) :
    AnlzFile.read d p = .ok (⟨h, hd, parts.map (·.1)⟩, p + h.totalSize.toNat) := by
  refine anlz_read_sections_iff.2 ⟨hh, hk, hs, hd1, parts, rfl, hparts, hd2, ?_, ?_, ?_, ?_⟩
  · show _ = p + 12 + hd.length + _
    rw [ht]
    omega
  · show h.size.toNat ≤ h.totalSize.toNat
    rw [hs, ht]
    omega
  · exact Nat.le_of_eq ht
  · rintro l x r rfl
    have := AnlzSection.read_progress (hparts x (by simp))
    show 12 + hd.length + _ < h.totalSize.toNat
    rw [ht]
    simp only [List.flatMap_append, List.flatMap_cons, List.length_append]
    omega

/-! ## Damage -/

theorem AnlzSection.At.of_same {ck : Bool} {d d' : Bytes} {p : Nat} {s : AnlzSection} {q : Nat} (h : s.At ck d p q)
    (hd : ∀ j, p ≤ j → j < q → d'[j]? = d[j]?) : s.At ck d' p q := by
  obtain ⟨bs, h1, rfl, h3⟩ := h.own
  exact h3 d' p (h1.of_agree fun j hj hj' => (hd j hj hj').symm)

theorem AnlzSection.ListAt.of_same {ck : Bool} {d d' : Bytes} {fin p : Nat} {ss : List AnlzSection} {q : Nat}
    (h : AnlzSection.ListAt ck d fin p ss q) (hd : ∀ j, p ≤ j → d'[j]? = d[j]?) :
    AnlzSection.ListAt ck d' fin p ss q := by
  induction h with
  | nil hp => exact .nil hp
  | cons hp hs _ ih =>
    exact .cons hp (hs.of_same fun j hj _ => hd j hj) (ih fun j hj => hd j (by have := hs.progress; omega))

/-- The bytes of `d'` are those of `d` except between `m` and `n`. -/
def SameOutside (d d' : Bytes) (m n : Nat) : Prop := ∀ j, j < m ∨ n ≤ j → d'[j]? = d[j]?

theorem AnlzSection.ListAt.damaged {ck : Bool} {d : Bytes} {fin p : Nat} {ss : List AnlzSection} {q : Nat}
    (h : AnlzSection.ListAt ck d fin p ss q) (i : Nat) (s : AnlzSection) (hi : ss[i]? = some s) :
    ∃ m n, p ≤ m ∧ m + 12 ≤ n ∧ n ≤ q ∧ s.At ck d m n ∧
      ∀ d', SameOutside d d' m n →
        (∀ s', s'.At ck d' m n → AnlzSection.ListAt ck d' fin p (ss.set i s') q) ∧
        ∀ ss' q', AnlzSection.ListAt ck d' fin p ss' q' →
          ss'.take i = ss.take i ∧ ∃ s' n', ss'[i]? = some s' ∧ s'.At ck d' m n' := by
  induction h generalizing i with
  | nil hp => simp at hi
  | @cons p m q s0 ss hp hs ht ih =>
    have hpm := hs.progress
    cases i with
    | zero =>
      rw [List.getElem?_cons_zero] at hi
      injection hi with hi
      subst hi
      refine ⟨p, m, Nat.le_refl _, hpm, ?_, hs, fun d' hd => ⟨fun s' h' => ?_, fun ss' q' h' => ?_⟩⟩
      · clear ih
        have : ∀ {a b l}, AnlzSection.ListAt ck d fin a l b → a ≤ b := by
          intro a b l hl
          induction hl with
          | nil => exact Nat.le_refl _
          | cons _ h _ ih => have := h.progress; omega
        exact this ht
      · exact .cons hp h' (ht.of_same fun j hj => hd j (Or.inr hj))
      · refine ⟨rfl, ?_⟩
        cases h' with
        | nil h0 => omega
        | cons _ hs' _ => exact ⟨_, _, rfl, hs'⟩
    | succ i =>
      rw [List.getElem?_cons_succ] at hi
      obtain ⟨m1, n1, g1, g2, g3, g4, g5⟩ := ih i hi
      refine ⟨m1, n1, by omega, g2, g3, g4, fun d' hd => ⟨fun s' h' => ?_, fun ss' q' h' => ?_⟩⟩
      · exact .cons hp (hs.of_same fun j _ hj => hd j (Or.inl (by omega))) ((g5 d' hd).1 s' h')
      · have hs' : s0.At ck d' p m := hs.of_same fun j _ hj => hd j (Or.inl (by omega))
        cases h' with
        | nil h0 => omega
        | cons _ hs1 ht1 =>
          obtain ⟨rfl, rfl⟩ := anlz_section_unambiguous hs' hs1
          obtain ⟨k1, s', n', k2, k3⟩ := (g5 d' hd).2 _ _ ht1
          exact ⟨by rw [List.take_succ_cons, List.take_succ_cons, k1], s', n', k2, k3⟩

theorem Header.At.of_same {d d' : Bytes} {p : Nat} {h : Header} (hh : h.At d p)
    (hd : ∀ j, j < p + 12 → d'[j]? = d[j]?) : h.At d' p := by
  obtain ⟨bs, h1, h2, h3⟩ := Header.own _ _ _ _ (header_at_iff.2 ⟨hh, rfl⟩)
  refine (header_at_iff.1 (h3 d' p (h1.of_agree fun j _ hj' => (hd j ?_).symm))).1
  omega

theorem Header.At.unique {d : Bytes} {p : Nat} {h h' : Header} (hh : h.At d p) (hh' : h'.At d p) : h = h' := by
  have := (header_at_iff.2 ⟨hh, rfl⟩).symm.trans (header_at_iff.2 ⟨hh', rfl⟩)
  injection this with this
  injection this with this

theorem Adds.unique {ck : Bool} {t a b b' : Nat} (hb : b < 2 ^ 32) (hb' : b' < 2 ^ 32) (h : Adds ck t a b)
    (h' : Adds ck t a b') : b = b' := by
  cases ck <;> simp only [Adds, if_true, Bool.false_eq_true, if_false] at h h' <;> omega

theorem AnlzFile.At.damaged {ck : Bool} {d : Bytes} {p : Nat} {a : AnlzFile} {q : Nat} (h : a.At ck d p q) (i : Nat)
    (s : AnlzSection) (hi : a.sections[i]? = some s) :
    ∃ m n, p + 12 + a.headerData.length ≤ m ∧ m + 12 ≤ n ∧ n ≤ q ∧ s.At ck d m n ∧
      ∀ d', SameOutside d d' m n →
        (∀ s', s'.At ck d' m n → AnlzFile.At ck d' p { a with sections := a.sections.set i s' } q) ∧
        ∀ a' q', AnlzFile.At ck d' p a' q' →
          a'.header = a.header ∧ a'.headerData = a.headerData ∧ a'.sections.take i = a.sections.take i ∧
            ∃ s' n', a'.sections[i]? = some s' ∧ s'.At ck d' m n' := by
  obtain ⟨h1, h2, h3, h4, h5, n0, h6, h7, h8⟩ := h
  obtain ⟨m, n, g1, g2, g3, g4, g5⟩ := h8.damaged i s hi
  refine ⟨m, n, g1, g2, g3, g4, fun d' hd => ?_⟩
  have k1 : a.header.At d' p := h1.of_same fun j hj => hd j (Or.inl (by omega))
  have k2 : HasAt d' (p + 12) a.headerData := h5.of_agree fun j _ hj => (hd j (Or.inl (by omega))).symm
  refine ⟨fun s' h' => ⟨k1, h2, h3, h4, k2, n0, h6, h7, (g5 d' hd).1 s' h'⟩, fun a' q' h' => ?_⟩
  obtain ⟨a1, a2, a3, a4, a5, n1, a6, a7, a8⟩ := h'
  have e := a1.unique k1
  rw [e] at a4 a7
  have e2 := Adds.unique a3 h3 a4 h4
  have e3 := Adds.unique a6 h6 a7 h7
  have e4 := a5.eq_of_length k2 e2
  rw [e4, e3] at a8
  exact ⟨e, e4, (g5 d' hd).2 _ _ a8⟩

/-- C97: for every section of a file that can be read there is a place, such that whatever happens to the bytes there
and nowhere else: if a section of the same length can be read there, then the file is read with all its other sections
unchanged; and if anything is read at all, then the header and all sections before are unchanged, and this section is
what can be read at its place. -/
theorem anlz_section_damaged_partial {d : Bytes} {p : Nat} {a : AnlzFile} {q : Nat} (h : AnlzFile.read d p = .ok (a, q))
    (i : Nat) (s : AnlzSection) (hi : a.sections[i]? = some s) :
    ∃ m n, p + 12 + a.headerData.length ≤ m ∧ m + 12 ≤ n ∧ n ≤ q ∧ AnlzSection.read d m = .ok (s, n) ∧
      ∀ d', SameOutside d d' m n →
        (∀ s', AnlzSection.read d' m = .ok (s', n) →
          AnlzFile.read d' p = .ok ({ a with sections := a.sections.set i s' }, q)) ∧
        ∀ a' q', AnlzFile.read d' p = .ok (a', q') →
          a'.header = a.header ∧ a'.headerData = a.headerData ∧ a'.sections.take i = a.sections.take i ∧
            ∃ s' n', a'.sections[i]? = some s' ∧ AnlzSection.read d' m = .ok (s', n') := by
  simp only [anlz_read_iff, anlz_section_read_iff] at h ⊢
  exact h.damaged i s hi

/-- C97, without overflow checks. -/
theorem anlz_section_damaged_release_partial {d : Bytes} {p : Nat} {a : AnlzFile} {q : Nat}
    (h : AnlzFile.readWrap d p = .ok (a, q)) (i : Nat) (s : AnlzSection) (hi : a.sections[i]? = some s) :
    ∃ m n, p + 12 + a.headerData.length ≤ m ∧ m + 12 ≤ n ∧ n ≤ q ∧ AnlzSection.readWrap d m = .ok (s, n) ∧
      ∀ d', SameOutside d d' m n →
        (∀ s', AnlzSection.readWrap d' m = .ok (s', n) →
          AnlzFile.readWrap d' p = .ok ({ a with sections := a.sections.set i s' }, q)) ∧
        ∀ a' q', AnlzFile.readWrap d' p = .ok (a', q') →
          a'.header = a.header ∧ a'.headerData = a.headerData ∧ a'.sections.take i = a.sections.take i ∧
            ∃ s' n', a'.sections[i]? = some s' ∧ AnlzSection.readWrap d' m = .ok (s', n') := by
  simp only [anlz_release_read_iff, anlz_section_release_read_iff] at h ⊢
  exact h.damaged i s hi

/-- C97 is false: one section that can no longer be read takes the whole file with it, wherever it is and whatever the
other sections are. -/
theorem anlz_section_lost {d : Bytes} {p : Nat} {a : AnlzFile} {q : Nat} (h : AnlzFile.read d p = .ok (a, q))
    (i : Nat) (s : AnlzSection) (hi : a.sections[i]? = some s) :
    ∃ m n, p + 12 + a.headerData.length ≤ m ∧ m + 12 ≤ n ∧ n ≤ q ∧ AnlzSection.read d m = .ok (s, n) ∧
      ∀ d', SameOutside d d' m n → (∀ x, AnlzSection.read d' m ≠ .ok x) → ∀ x, AnlzFile.read d' p ≠ .ok x := by
  obtain ⟨m, n, h1, h2, h3, h4, h5⟩ := anlz_section_damaged_partial h i s hi
  refine ⟨m, n, h1, h2, h3, h4, fun d' hd hn x hx => ?_⟩
  obtain ⟨_, _, _, s', n', _, h'⟩ := (h5 d' hd).2 x.1 x.2 hx
  exact hn _ h'

/-! ## Concrete cases -/

/-- Two sections, a vbr of 4 bytes and a beat grid with one beat, behind a header of 12 bytes. -/
def twoSections (beats : UInt8) (vbr : UInt8) : Bytes :=
  [0x50, 0x4d, 0x41, 0x49, 0, 0, 0, 12, 0, 0, 0, 64] ++
  [0x50, 0x56, 0x42, 0x52, 0, 0, 0, 16, 0, 0, 0, 20, 0, 0, 0, 0, vbr, 2, 3, 4] ++
  [0x50, 0x51, 0x54, 0x5a, 0, 0, 0, 24, 0, 0, 0, 32, 0, 0, 0, 0, 0, 8, 0, 0, 0, 0, 0, beats,
      0, 4, 0x2e, 0xe0, 0, 0, 0x12, 0x34]

/-- The file is read with both sections. -/
example : AnlzFile.read (twoSections 1 1) 0 = .ok ({ header := ⟨.file, 12, 64⟩, headerData := [], sections := [
    { header := ⟨.vbr, 16, 20⟩, content := .vbr ⟨0, [1, 2, 3, 4]⟩ },
    { header := ⟨.beatGrid, 24, 32⟩, content := .beatGrid ⟨0, 0x80000, [⟨4, 12000, 0x1234⟩]⟩ }] }, 64) := by
  decide +kernel

/-- With a byte of the vbr changed it is still read, and the beat grid is the same. -/
example : AnlzFile.read (twoSections 1 9) 0 = .ok ({ header := ⟨.file, 12, 64⟩, headerData := [], sections := [
    { header := ⟨.vbr, 16, 20⟩, content := .vbr ⟨0, [9, 2, 3, 4]⟩ },
    { header := ⟨.beatGrid, 24, 32⟩, content := .beatGrid ⟨0, 0x80000, [⟨4, 12000, 0x1234⟩]⟩ }] }, 64) := by
  decide +kernel

/-- C97 is false: with the number of beats changed the file is rejected, though the section before is intact, and
though the header of the beat grid still says where it ends. -/
theorem anlz_section_damage_not_contained :
    SameOutside (twoSections 1 1) (twoSections 2 1) 32 64 ∧
      (∃ a, AnlzFile.read (twoSections 1 1) 0 = .ok (a, 64) ∧ a.sections.length = 2) ∧
      (∃ s, AnlzSection.read (twoSections 1 1) 12 = .ok (s, 32) ∧ AnlzSection.read (twoSections 2 1) 12 = .ok (s, 32)) ∧
      (∃ t, AnlzSection.read (twoSections 1 1) 32 = .ok (t, 64) ∧ t.header.At (twoSections 2 1) 32) ∧
      ∀ x, AnlzFile.read (twoSections 2 1) 0 ≠ .ok x := by
  refine ⟨fun j hj => ?_, ⟨{ header := ⟨.file, 12, 64⟩, headerData := [], sections := [
    { header := ⟨.vbr, 16, 20⟩, content := .vbr ⟨0, [1, 2, 3, 4]⟩ },
    { header := ⟨.beatGrid, 24, 32⟩, content := .beatGrid ⟨0, 0x80000, [⟨4, 12000, 0x1234⟩]⟩ }] },
      by decide +kernel, rfl⟩,
    ⟨{ header := ⟨.vbr, 16, 20⟩, content := .vbr ⟨0, [1, 2, 3, 4]⟩ }, by decide +kernel, by decide +kernel⟩,
    ⟨{ header := ⟨.beatGrid, 24, 32⟩, content := .beatGrid ⟨0, 0x80000, [⟨4, 12000, 0x1234⟩]⟩ }, by decide +kernel,
      (header_at_iff.1 (show Header.read (twoSections 2 1) 32 = .ok (⟨.beatGrid, 24, 32⟩, 44) by decide +kernel)).1⟩, ?_⟩
  · have : twoSections 2 1 = (twoSections 1 1).set 55 2 := by decide +kernel
    rw [this, List.getElem?_set_ne (by omega)]
  · intro x hx
    have : AnlzFile.read (twoSections 2 1) 0 = .err .assertFail := by decide +kernel
    rw [this] at hx
    cases hx

/-- The two sections of the example the other way round, and the beat grid twice: still a file. -/
example (g v : Bytes) (sg sv : AnlzSection) (hg : AnlzSection.read g 0 = .ok (sg, g.length)) (h1 : g.length = 32)
    (hv : AnlzSection.read v 0 = .ok (sv, v.length)) (h2 : v.length = 20) :
    AnlzFile.read ([0x50, 0x4d, 0x41, 0x49, 0, 0, 0, 12, 0, 0, 0, 96] ++ (g ++ (v ++ g))) 0 =
      .ok (⟨⟨.file, 12, 96⟩, [], [sg, sv, sg]⟩, 96) := by
  have := anlz_compose (d := [0x50, 0x4d, 0x41, 0x49, 0, 0, 0, 12, 0, 0, 0, 96] ++ (g ++ (v ++ g))) (p := 0)
    (h := ⟨.file, 12, 96⟩) (hd := []) (parts := [(sg, g), (sv, v), (sg, g)])
    (header_at_iff.1 (Header.rt (h := ⟨.file, 12, 96⟩) (by decide) _ 0 (HasAt.append_iff.1 (hasAt_self _)).1)).1
    rfl rfl (by simp [h1, h2]) (HasAt.nil _ _) ?_ ?_
  · exact this
  · have := hasAt_self ([0x50, 0x4d, 0x41, 0x49, 0, 0, 0, 12, 0, 0, 0, 96] ++ (g ++ (v ++ g)))
    rw [HasAt.append_iff] at this
    simpa using this.2
  · intro x hx
    simp only [List.mem_cons, List.not_mem_nil, or_false] at hx
    rcases hx with rfl | rfl | rfl
    · exact hg
    · exact hv
    · exact hg

end Rekordcrate.Anlz
