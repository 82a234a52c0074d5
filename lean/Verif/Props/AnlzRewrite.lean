import Verif.Props.AnlzExact
import Verif.Props.AnlzSections

/-! # C67: which analysis files are written back as they were -/

namespace Rekordcrate.Anlz
open Rd

/-! ## Specification -/

/-- These sections stand one behind the other from `p` to `q`, for a build with (`checked = true`) or without overflow
checks. -/
def AnlzSection.Row (checked : Bool) (d : Bytes) (p : Nat) (ss : List AnlzSection) (q : Nat) : Prop :=
  AnlzSection.ListAt checked d q p ss q

/-- If the section at `p` is a list of extended cues, then the length field of every comment in it is the one that the
writer gives it: nothing for the empty comment, otherwise two bytes for every unit of UTF-16 and two for a
terminator. -/
def AnlzSection.AsWritten (checked : Bool) (d : Bytes) (p : Nat) (s : AnlzSection) : Prop :=
  ∀ c, s.content = .extendedCueList c → ∀ before x after m, c.cues = before ++ x :: after →
    ExtendedCue.ListAt checked d (p + 20) before m → U32BeAt d (m + 40) x.comment.byteCount

/-! ## Lists of things that stand one behind the other -/

theorem list_rewrite {α : Type} {d : Bytes} {enc : α → Res Bytes} {R : α → Nat → Nat → Prop}
    {L : Nat → List α → Nat → Prop} {C : α → Nat → Prop}
    (hR : ∀ x p q, R x p q → ∃ bs, enc x = .ok bs ∧ (HasAt d p bs ↔ C x p) ∧ (C x p → q = p + bs.length))
    (hU : ∀ x p q q', R x p q → R x p q' → q = q')
    (hnil : ∀ p q, L p [] q ↔ q = p) (hcons : ∀ p x xs q, L p (x :: xs) q ↔ ∃ m, R x p m ∧ L m xs q)
    {p : Nat} {l : List α} {q : Nat} (h : L p l q) :
    ∃ bs, encAll enc l = .ok bs ∧
      (HasAt d p bs ↔ ∀ before x after m, l = before ++ x :: after → L p before m → C x m) ∧
      (HasAt d p bs → q = p + bs.length) := by
  induction l generalizing p with
  | nil => exact ⟨[], rfl, by simp [HasAt.nil], fun _ => (hnil _ _).1 h⟩
  | cons x l ih =>
    obtain ⟨m, hx, ht⟩ := (hcons _ _ _ _).1 h
    obtain ⟨xb, e1, c1, c2⟩ := hR _ _ _ hx
    obtain ⟨yb, e2, c3, c4⟩ := ih ht
    refine ⟨xb ++ yb, ?_, ?_, ?_⟩
    · unfold encAll
      rw [e1, e2]
      rfl
    · rw [HasAt.append_iff]
      constructor
      · rintro ⟨k1, k2⟩
        have k3 := c1.1 k1
        rw [← c2 k3] at k2
        intro before y after n hl hb
        cases before with
        | nil =>
          rw [List.nil_append] at hl
          injection hl with e
          rw [(hnil _ _).1 hb, ← e]
          exact k3
        | cons z before =>
          rw [List.cons_append] at hl
          injection hl with e e'
          obtain ⟨m', hx', hb'⟩ := (hcons _ _ _ _).1 hb
          rw [← e] at hx'
          rw [← hU _ _ _ _ hx hx'] at hb'
          exact c3.1 k2 before y after n e' hb'
      · intro k
        have k3 : C x p := k [] x l p rfl ((hnil _ _).2 rfl)
        refine ⟨c1.2 k3, ?_⟩
        rw [← c2 k3]
        refine c3.2 fun before y after n hl hb => k (x :: before) y after n (by rw [hl]; rfl) ?_
        exact (hcons _ _ _ _).2 ⟨m, hx, hb⟩
    · rw [HasAt.append_iff]
      rintro ⟨k1, k2⟩
      have k3 := c2 (c1.1 k1)
      rw [← k3] at k2
      rw [c4 k2, k3, List.length_append, Nat.add_assoc]

/-! ## Extended cues -/

theorem extended_cue_at_rewrite {d : Bytes} {c : ExtendedCue} {p q : Nat} (h : c.At true d p q) :
    ∃ bs, c.enc = .ok bs ∧ (HasAt d p bs ↔ U32BeAt d (p + 40) c.comment.byteCount) ∧
      (U32BeAt d (p + 40) c.comment.byteCount → q = p + bs.length) := by
  have hr := extended_cue_read_iff.2 h
  obtain ⟨_, _, _, _, hs, _⟩ := ExtendedCue.inv _ _ _ _ hr
  have he := c.enc_eq (by omega)
  have key := extended_cue_rewrite_iff hr
  refine ⟨_, he, ⟨fun hb => ?_, fun hu => ?_⟩, fun hu => ?_⟩
  · obtain ⟨_, _, _, _, _, _, _, _, _, _, _, _, _, _, _, n, rfl, hn, _⟩ := extended_cue_layout he (by omega) hb
    exact hn
  · obtain ⟨bs, e, hb, _⟩ := key.2 hu
    rw [he] at e
    injection e with e
    rwa [e]
  · obtain ⟨bs, e, _, hq⟩ := key.2 hu
    rw [he] at e
    injection e with e
    rwa [e]

theorem extended_cue_end_unique {d : Bytes} {c : ExtendedCue} {p q q' : Nat} (h : c.At true d p q)
    (h' : c.At true d p q') : q = q' := by
  have := (extended_cue_read_iff.2 h).symm.trans (extended_cue_read_iff.2 h')
  injection this with this
  injection this

theorem extended_cues_cons {ck : Bool} {d : Bytes} (p : Nat) (x : ExtendedCue) (xs : List ExtendedCue) (q : Nat) :
    ExtendedCue.ListAt ck d p (x :: xs) q ↔ ∃ m, x.At ck d p m ∧ ExtendedCue.ListAt ck d m xs q :=
  ⟨fun h => by cases h with | cons h t => exact ⟨_, h, t⟩, fun ⟨_, h, t⟩ => .cons h t⟩

theorem extended_cues_nil {ck : Bool} {d : Bytes} (p q : Nat) : ExtendedCue.ListAt ck d p [] q ↔ q = p :=
  ⟨fun h => by cases h; rfl, fun h => by subst h; exact .nil _⟩

/-! ## Sections -/

theorem section_at_rewrite {d : Bytes} {s : AnlzSection} {p q : Nat} (h : s.At true d p q) :
    ∃ bs, s.enc = .ok bs ∧ (HasAt d p bs ↔ s.AsWritten true d p) ∧ (s.AsWritten true d p → q = p + bs.length) := by
  rcases Classical.em s.HasComments with ⟨c, hc⟩ | hn
  · obtain ⟨_, hb, _, _, cb, hcb, rfl⟩ := AnlzSection.read_inv _ _ _ _ (anlz_section_read_iff.2 h)
    obtain ⟨h1, h2⟩ := h
    rw [hc] at h2 hcb
    obtain ⟨_, _, _, _, raws, inner, _, rfl⟩ := hcb
    obtain ⟨_, _, _, _, _, g6⟩ := h2
    obtain ⟨bs, e, k1, k2⟩ := list_rewrite (R := fun x p q => ExtendedCue.At true d p x q)
      (C := fun x p => U32BeAt d (p + 40) x.comment.byteCount) (fun x p q => extended_cue_at_rewrite)
      (fun x p q q' => extended_cue_end_unique) extended_cues_nil extended_cues_cons g6
    have hw : s.AsWritten true d p ↔ HasAt d (p + 20) bs := by
      rw [k1]
      exact ⟨fun hw => hw c hc, fun hw c' hc' => by
        rw [hc] at hc'
        injection hc' with hc'
        rw [← hc']
        exact hw⟩
    have hsplit : ∀ xs : Bytes, HasAt d p (s.header.enc ++ c.bytesWith xs) ↔
        (HasAt d p s.header.enc ∧ HasAt d (p + 12) c.listType.enc ∧
          HasAt d (p + 16) (encU16be (UInt16.ofNat c.cues.length)) ∧ HasAt d (p + 18) (encU16be c.unknown)) ∧
          HasAt d (p + 20) xs := by
      intro xs
      unfold ExtendedCueList.bytesWith
      simp only [HasAt.append_iff, Header.enc_length, CueListType.enc_length, encU16be_length, Nat.add_assoc,
        Nat.reduceAdd, and_assoc]
    refine ⟨s.header.enc ++ c.bytesWith bs, ?_, ?_, ?_⟩
    · unfold AnlzSection.enc Content.enc
      rw [hc]
      simp only [ExtendedCueList.enc]
      rw [e]
      rfl
    · rw [hw, hsplit]
      exact ⟨fun x => x.2, fun x => ⟨((hsplit inner).1 hb).1, x⟩⟩
    · intro x
      rw [k2 (hw.1 x), ExtendedCueList.bytesWith]
      simp only [List.length_append, Header.enc_length, CueListType.enc_length, encU16be_length]
      omega
  · obtain ⟨bs, h1, h2, h3⟩ := section_rewrite (anlz_section_read_iff.2 h) hn
    have hw : s.AsWritten true d p := fun c hc => absurd ⟨c, hc⟩ hn
    exact ⟨bs, h1, ⟨fun _ => hw, fun _ => h2⟩, fun _ => h3⟩

/-- C67, exact: a section that was read is written back byte for byte exactly if every comment of an extended cue in it
has the length field that the writer gives it. -/
theorem section_rewrite_iff {d : Bytes} {p q : Nat} {s : AnlzSection} (h : AnlzSection.read d p = .ok (s, q)) :
    (∃ bs, s.enc = .ok bs ∧ HasAt d p bs ∧ q = p + bs.length) ↔ s.AsWritten true d p := by
  obtain ⟨bs, e, h1, h2⟩ := section_at_rewrite (anlz_section_read_iff.1 h)
  rw [← h1] at h2 ⊢
  constructor
  · rintro ⟨bs', e', hb, _⟩
    rw [e] at e'
    injection e' with e'
    rwa [e']
  · exact fun hb => ⟨bs, e, hb, h2 hb⟩

/-- C67: writing a section that was read succeeds, and reading the result gives the same section. -/
theorem section_rewrite_stable {d : Bytes} {p q : Nat} {s : AnlzSection} (h : AnlzSection.read d p = .ok (s, q)) :
    ∃ bs, s.enc = .ok bs ∧ ∀ d' p', HasAt d' p' bs → AnlzSection.read d' p' = .ok (s, p' + bs.length) := by
  rcases Classical.em s.HasComments with hc | hn
  · obtain ⟨bs, h1, h2, h3⟩ := section_roundtrip (comment_section_consistent h hc)
    exact ⟨bs, h1, by rw [h2]; exact h3⟩
  · obtain ⟨bs, h1, h2, h3⟩ := section_rewrite h hn
    obtain ⟨bs', g1, g2, g3⟩ := AnlzSection.own _ _ _ _ h
    have : bs' = bs := g1.eq_of_length h2 (by omega)
    rw [this] at g3
    exact ⟨bs, h1, g3⟩

/-! ## Files -/

theorem AnlzSection.ListAt.le {ck : Bool} {d : Bytes} {fin p : Nat} {ss : List AnlzSection} {q : Nat}
    (h : AnlzSection.ListAt ck d fin p ss q) : p ≤ q := by
  induction h with
  | nil => exact Nat.le_refl _
  | cons _ h _ ih => have := h.progress; omega

theorem AnlzSection.row_nil {ck : Bool} {d : Bytes} (p q : Nat) : AnlzSection.Row ck d p [] q ↔ q = p :=
  ⟨fun h => by cases h; rfl, fun h => by subst h; exact .nil (Nat.le_refl _)⟩

theorem AnlzSection.row_cons {ck : Bool} {d : Bytes} (p : Nat) (s : AnlzSection) (ss : List AnlzSection) (q : Nat) :
    AnlzSection.Row ck d p (s :: ss) q ↔ ∃ m, s.At ck d p m ∧ AnlzSection.Row ck d m ss q := by
  constructor
  · intro h
    cases h with
    | cons _ h t => exact ⟨_, h, t⟩
  · rintro ⟨m, h, t⟩
    exact .cons (by have := h.progress; have := t.le; omega) h t

theorem section_end_unique {ck : Bool} {d : Bytes} {s : AnlzSection} {p q q' : Nat} (h : s.At ck d p q) (h' : s.At ck d p q') :
    q = q' := (anlz_section_unambiguous h h').2

theorem AnlzSection.Row.unique {ck : Bool} {d : Bytes} {p : Nat} {ss : List AnlzSection} {q q' : Nat} (h : AnlzSection.Row ck d p ss q)
    (h' : AnlzSection.Row ck d p ss q') : q = q' := by
  induction ss generalizing p with
  | nil => rw [(AnlzSection.row_nil _ _).1 h, (AnlzSection.row_nil _ _).1 h']
  | cons s ss ih =>
    obtain ⟨m, h1, h2⟩ := (AnlzSection.row_cons _ _ _ _).1 h
    obtain ⟨m', h1', h2'⟩ := (AnlzSection.row_cons _ _ _ _).1 h'
    rw [section_end_unique h1' h1] at h2'
    exact ih h2 h2'

/-- The sections of a file stand one behind the other; the last begins before the declared end and the end is
reached. -/
theorem AnlzSection.listAt_row_iff {ck : Bool} {d : Bytes} {fin p : Nat} {ss : List AnlzSection} {q : Nat} :
    AnlzSection.ListAt ck d fin p ss q ↔ AnlzSection.Row ck d p ss q ∧ fin ≤ q ∧
      ∀ before s, ss = before ++ [s] → ∀ m, AnlzSection.Row ck d p before m → m < fin := by
  induction ss generalizing p with
  | nil =>
    constructor
    · intro h
      cases h with
      | nil h => exact ⟨.nil (Nat.le_refl _), h, by simp⟩
    · rintro ⟨h1, h2, _⟩
      rw [(AnlzSection.row_nil _ _).1 h1] at h2 ⊢
      exact .nil h2
  | cons s ss ih =>
    rw [AnlzSection.row_cons]
    constructor
    · intro h
      cases h with
      | @cons _ m _ _ _ hp hs ht =>
        obtain ⟨g1, g2, g3⟩ := ih.1 ht
        refine ⟨⟨m, hs, g1⟩, g2, fun before s' hl n hn => ?_⟩
        cases before with
        | nil =>
          rw [(AnlzSection.row_nil _ _).1 hn]
          exact hp
        | cons y before =>
          rw [List.cons_append] at hl
          injection hl with e1 e2
          obtain ⟨m', k1, k2⟩ := (AnlzSection.row_cons _ _ _ _).1 hn
          rw [← e1] at k1
          rw [section_end_unique k1 hs] at k2
          exact g3 before s' e2 n k2
    · rintro ⟨⟨m, hs, g1⟩, g2, g3⟩
      have ht : AnlzSection.ListAt ck d fin m ss q :=
        ih.2 ⟨g1, g2, fun before s' hl n hn => g3 (s :: before) s' (by rw [hl]; rfl) n
          ((AnlzSection.row_cons _ _ _ _).2 ⟨m, hs, hn⟩)⟩
      refine .cons ?_ hs ht
      have := hs.progress
      cases ss with
      | nil => exact g3 [] s rfl p ((AnlzSection.row_nil _ _).2 rfl)
      | cons s' ss =>
        cases ht with
        | cons hp _ _ => omega

theorem AnlzFile.At.row {ck : Bool} {d : Bytes} {p : Nat} {a : AnlzFile} {q : Nat} (h : a.At ck d p q) :
    HasAt d p a.header.enc ∧ HasAt d (p + 12) a.headerData ∧
      AnlzSection.Row ck d (p + 12 + a.headerData.length) a.sections q := by
  obtain ⟨h1, _, _, _, h5, n, _, _, h8⟩ := h
  refine ⟨?_, h5, (AnlzSection.listAt_row_iff.1 h8).1⟩
  obtain ⟨bs, b1, _, b3⟩ := Header.inv _ _ _ _ (header_at_iff.2 ⟨h1, rfl⟩)
  rwa [b3.1] at b1

/-- C67, exact: a file that was read is written back byte for byte exactly if every comment of an extended cue in it has
the length field that the writer gives it. -/
theorem anlz_rewrite_iff {d : Bytes} {p q : Nat} {a : AnlzFile} (h : AnlzFile.read d p = .ok (a, q)) :
    (∃ bs, a.enc = .ok bs ∧ HasAt d p bs ∧ q = p + bs.length) ↔
      ∀ before s after m, a.sections = before ++ s :: after →
        AnlzSection.Row true d (p + 12 + a.headerData.length) before m → s.AsWritten true d m := by
  obtain ⟨h1, h2, h3⟩ := (anlz_read_iff.1 h).row
  obtain ⟨bs, e, k1, k2⟩ := list_rewrite (R := fun s p q => AnlzSection.At true d p s q)
    (C := fun s p => AnlzSection.AsWritten true d p s) (fun x p q => section_at_rewrite)
    (fun x p q q' => section_end_unique) AnlzSection.row_nil AnlzSection.row_cons h3
  have he : a.enc = .ok (a.header.enc ++ (a.headerData ++ bs)) := by
    unfold AnlzFile.enc
    rw [e, Res.ok_bind]
  have hsplit : HasAt d p (a.header.enc ++ (a.headerData ++ bs)) ↔ HasAt d (p + 12 + a.headerData.length) bs := by
    rw [HasAt.append_iff, HasAt.append_iff, Header.enc_length]
    exact ⟨fun x => x.2.2, fun x => ⟨h1, h2, x⟩⟩
  rw [← k1]
  constructor
  · rintro ⟨bs', e', hb, _⟩
    rw [he] at e'
    injection e' with e'
    rw [← e'] at hb
    exact hsplit.1 hb
  · intro hb
    refine ⟨_, he, hsplit.2 hb, ?_⟩
    rw [k2 hb]
    simp only [List.length_append, Header.enc_length]
    omega

/-- Sections that were read, written one behind the other. -/
theorem sections_written {d : Bytes} {p : Nat} {ss : List AnlzSection} {q : Nat} (h : AnlzSection.Row true d p ss q) :
    ∃ bs, encAll AnlzSection.enc ss = .ok bs ∧
      ∀ d' p', HasAt d' p' bs → AnlzSection.Row true d' p' ss (p' + bs.length) := by
  induction ss generalizing p with
  | nil => exact ⟨[], rfl, fun d' p' _ => (AnlzSection.row_nil _ _).2 rfl⟩
  | cons s ss ih =>
    obtain ⟨m, h1, h2⟩ := (AnlzSection.row_cons _ _ _ _).1 h
    obtain ⟨xb, e1, k1⟩ := section_rewrite_stable (anlz_section_read_iff.2 h1)
    obtain ⟨yb, e2, k2⟩ := ih h2
    refine ⟨xb ++ yb, ?_, fun d' p' hb => ?_⟩
    · unfold encAll
      rw [e1, e2]
      rfl
    · rw [HasAt.append_iff] at hb
      rw [List.length_append, ← Nat.add_assoc]
      exact (AnlzSection.row_cons _ _ _ _).2 ⟨_, anlz_section_read_iff.1 (k1 d' p' hb.1), k2 _ _ hb.2⟩

theorem AnlzSection.Row.init {ck : Bool} {d : Bytes} {p : Nat} {before : List AnlzSection} {s : AnlzSection} {q : Nat}
    (h : AnlzSection.Row ck d p (before ++ [s]) q) :
    ∃ m, AnlzSection.Row ck d p before m ∧ s.At ck d m q := by
  induction before generalizing p with
  | nil =>
    obtain ⟨m, h1, h2⟩ := (AnlzSection.row_cons _ _ _ _).1 h
    rw [(AnlzSection.row_nil _ _).1 h2]
    exact ⟨p, (AnlzSection.row_nil _ _).2 rfl, h1⟩
  | cons x before ih =>
    obtain ⟨m, h1, h2⟩ := (AnlzSection.row_cons _ _ _ _).1 h
    obtain ⟨n, g1, g2⟩ := ih h2
    exact ⟨n, (AnlzSection.row_cons _ _ _ _).2 ⟨m, h1, g1⟩, g2⟩

/-- C67, exact: writing a file that was read succeeds.  Reading the result gives the same file exactly if it has at
least as many bytes as the header says, and its last section begins before the end that the header says. -/
theorem anlz_rewrite_stable_iff {d : Bytes} {p q : Nat} {a : AnlzFile} (h : AnlzFile.read d p = .ok (a, q)) :
    ∃ bs, a.enc = .ok bs ∧
      ((∀ d' p', HasAt d' p' bs → AnlzFile.read d' p' = .ok (a, p' + bs.length)) ↔
        a.header.totalSize.toNat ≤ bs.length ∧
        ∀ before s sb, a.sections = before ++ [s] → s.enc = .ok sb → bs.length < a.header.totalSize.toNat + sb.length) := by
  have h0 := anlz_read_iff.1 h
  obtain ⟨_, _, h3⟩ := h0.row
  obtain ⟨g1, g2, g3, g4, g5, n, g6, g7, g8⟩ := h0
  obtain ⟨bs, e, k⟩ := sections_written h3
  have he : a.enc = .ok (a.header.enc ++ (a.headerData ++ bs)) := by
    unfold AnlzFile.enc
    rw [e, Res.ok_bind]
  have hlen : (a.header.enc ++ (a.headerData ++ bs)).length = 12 + a.headerData.length + bs.length := by
    simp only [List.length_append, Header.enc_length]
    omega
  have g4' : a.header.size.toNat = 12 + a.headerData.length := g4
  have g7' : a.header.totalSize.toNat = a.header.size.toNat + n := g7
  have key : ∀ d' p', HasAt d' p' (a.header.enc ++ (a.headerData ++ bs)) →
      (AnlzFile.read d' p' = .ok (a, p' + (12 + a.headerData.length + bs.length)) ↔
        a.header.totalSize.toNat ≤ 12 + a.headerData.length + bs.length ∧
        ∀ before s sb, a.sections = before ++ [s] → s.enc = .ok sb →
          12 + a.headerData.length + bs.length < a.header.totalSize.toNat + sb.length) := by
    intro d' p' hb
    rw [HasAt.append_iff, HasAt.append_iff, Header.enc_length] at hb
    obtain ⟨b1, b2, b3⟩ := hb
    have hh : a.header.At d' p' := by
      obtain ⟨xs, x1, x2, x3⟩ := Header.own _ _ _ _ (header_at_iff.2 ⟨g1, rfl⟩)
      obtain ⟨ys, y1, y2, y3⟩ := Header.inv _ _ _ _ (header_at_iff.2 ⟨g1, rfl⟩)
      have : xs = ys := x1.eq_of_length y1 (by omega)
      rw [this, y3.1] at x3
      exact (header_at_iff.1 (x3 d' p' b1)).1
    have hrow := k d' _ b3
    have hq : p' + 12 + a.headerData.length + bs.length = p' + (12 + a.headerData.length + bs.length) := by omega
    rw [hq] at hrow
    have hlast : ∀ before s sb, a.sections = before ++ [s] → s.enc = .ok sb →
        ∀ m, AnlzSection.Row true d' (p' + 12 + a.headerData.length) before m →
          m + sb.length = p' + (12 + a.headerData.length + bs.length) := by
      intro before s sb hl hs m hm
      rw [hl] at hrow h3 e
      obtain ⟨m1, r1, r2⟩ := hrow.init
      rw [r1.unique hm] at r2
      obtain ⟨m2, r3, r4⟩ := h3.init
      obtain ⟨sb', z1, z2⟩ := section_rewrite_stable (anlz_section_read_iff.2 r4)
      rw [hs] at z1
      injection z1 with z1
      subst z1
      obtain ⟨yb, y1, y2⟩ := sections_written r3
      have hcat : bs = yb ++ sb := by
        have : ∀ l : List AnlzSection, ∀ yb, encAll AnlzSection.enc l = .ok yb →
            encAll AnlzSection.enc (l ++ [s]) = .ok (yb ++ sb) := by
          intro l
          induction l with
          | nil =>
            intro yb hy
            injection hy with hy
            rw [← hy, List.nil_append, List.nil_append]
            unfold encAll
            rw [hs]
            show Res.ok (sb ++ []) = _
            rw [List.append_nil]
          | cons x l ih =>
            intro yb hy
            rw [List.cons_append]
            unfold encAll at hy ⊢
            cases hx : x.enc with
            | err _ => rw [hx] at hy; cases hy
            | panic => rw [hx] at hy; cases hy
            | ok xb =>
              rw [hx, Res.ok_bind] at hy
              cases hl' : encAll AnlzSection.enc l with
              | err _ => rw [hl'] at hy; cases hy
              | panic => rw [hl'] at hy; cases hy
              | ok lb =>
                rw [hl', Res.ok_bind] at hy
                injection hy with hy
                rw [ih lb hl', Res.ok_bind, Res.ok_bind, ← hy, List.append_assoc]
        have := (this before yb y1).symm.trans e
        injection this with this
        exact this.symm
      rw [hcat, HasAt.append_iff] at b3
      have := (y2 d' _ b3.1).unique hm
      rw [hcat, List.length_append]
      omega
    rw [anlz_read_iff, AnlzFile.At]
    constructor
    · rintro ⟨_, _, _, _, _, n', q6, q7, q8⟩
      have q7' : a.header.totalSize.toNat = a.header.size.toNat + n' := q7
      obtain ⟨w1, w2, w3⟩ := AnlzSection.listAt_row_iff.1 q8
      refine ⟨by omega, fun before s sb hl hs => ?_⟩
      rw [hl] at w1
      obtain ⟨m, r1, r2⟩ := w1.init
      have := w3 before s hl m r1
      have := hlast before s sb hl hs m r1
      omega
    · rintro ⟨q1, q2⟩
      refine ⟨hh, g2, g3, g4, b2, n, g6, g7, AnlzSection.listAt_row_iff.2 ⟨hrow, by omega, fun before s hl m hm => ?_⟩⟩
      have hs : ∃ sb, s.enc = .ok sb := by
        rw [hl] at h3
        obtain ⟨m2, r3, r4⟩ := h3.init
        obtain ⟨sb', z1, _⟩ := section_rewrite_stable (anlz_section_read_iff.2 r4)
        exact ⟨sb', z1⟩
      obtain ⟨sb, hs⟩ := hs
      have := hlast before s sb hl hs m hm
      have := q2 before s sb hl hs
      omega
  refine ⟨_, he, ?_⟩
  rw [hlen]
  constructor
  · intro hr
    exact (key _ 0 (hasAt_self _)).1 (hr _ 0 (hasAt_self _))
  · exact fun hc d' p' hb => (key d' p' hb).2 hc

/-! ## Concrete cases -/

/-- A file with one list of extended cues and behind it an unknown section of 12 bytes: the header declares `total`
bytes, there are `n` cues that declare `size` bytes, and the comment of each is stored as `raw`. -/
def cueFile (total : UInt8) (n size : UInt8) (raw : Bytes) : Bytes :=
  [0x50, 0x4d, 0x41, 0x49, 0, 0, 0, 12, 0, 0, 1, total] ++
  [0x50, 0x43, 0x4f, 0x32, 0, 0, 0, 20, 0, 0, 0, 20, 0, 0, 0, 1, 0, n, 0, 0] ++
  (List.replicate n.toNat ([0x50, 0x43, 0x50, 0x32, 0, 0, 0, 16, 0, 0, 0, size, 0, 0, 0, 1, 1, 0, 3, 0xe8,
    0, 0, 4, 0xd2, 0, 0, 0, 0, 1, 0, 0, 0, 0, 0, 0, 0, 0, 0, 0, 0, 0, 0, 0, UInt8.ofNat raw.length] ++ raw ++
    [0x2a, 0xff, 0, 0x10] ++ List.replicate 20 0)).flatten ++
  [0x50, 0x58, 0x59, 0x5a, 0, 0, 0, 12, 0, 0, 0, 12]

/-- What is read from such a file. -/
def cueFileValue (total : UInt32) (n : Nat) (size : UInt32) : AnlzFile where
  header := ⟨.file, 12, total⟩
  headerData := []
  sections := [
    { header := ⟨.extendedCueList, 20, 20⟩,
      content := .extendedCueList { listType := .hotCues, unknown := 0, cues := List.replicate n { exampleCue with
        header := ⟨.extendedCue, 16, size⟩, loopTime := 0, color := .pink, comment := ⟨"a"⟩, trailing := [] } } },
    { header := ⟨.unknown 0x50 0x58 0x59 0x5a, 12, 12⟩, content := .unknown ⟨[], []⟩ }]

/-- With comments as the writer stores them, the file is written back byte for byte. -/
example : AnlzFile.read (cueFile 4 3 72 [0, 0x61, 0, 0]) 0 = .ok (cueFileValue 260 3 72, 260) ∧
    (cueFileValue 260 3 72).enc = .ok (cueFile 4 3 72 [0, 0x61, 0, 0]) := by
  decide +kernel

/-- C67 is false for files: if comments have two terminators, what is written is shorter than the header says, and is
not a file any more. -/
theorem anlz_rewrite_unreadable :
    AnlzFile.read (cueFile 10 3 72 [0, 0x61, 0, 0, 0, 0]) 0 = .ok (cueFileValue 266 3 72, 266) ∧
    ∃ bs, (cueFileValue 266 3 72).enc = .ok bs ∧ ∀ x, AnlzFile.read bs 0 ≠ .ok x := by
  refine ⟨by decide +kernel, cueFile 10 3 72 [0, 0x61, 0, 0], by decide +kernel, ?_⟩
  have h : AnlzFile.read (cueFile 10 3 72 [0, 0x61, 0, 0]) 0 = .err .eof := by decide +kernel
  intro x hx
  rw [h] at hx
  cases hx

/-- C67 is false for files: if comments have no terminator, what is written is longer than the header says, and the
last section is lost without notice when it is read again. -/
theorem anlz_rewrite_drops_section :
    AnlzFile.read (cueFile 208 6 72 [0, 0x61]) 0 = .ok (cueFileValue 464 6 72, 464) ∧
    ∃ bs a, (cueFileValue 464 6 72).enc = .ok bs ∧ AnlzFile.read bs 0 = .ok (a, 464) ∧
      (cueFileValue 464 6 72).sections.length = 2 ∧ a.sections.length = 1 :=
  ⟨by decide +kernel, cueFile 208 6 72 [0, 0x61, 0, 0],
    { cueFileValue 464 6 72 with sections := (cueFileValue 464 6 72).sections.take 1 }, by decide +kernel, by decide +kernel,
    rfl, rfl⟩

end Rekordcrate.Anlz
