import Verif.Spec.AnlzFile

/-! # Lemmas on analysis files -/

namespace Rekordcrate.Anlz
open Rd

/-! ## The loop -/

theorem parseSections_done {fin : Nat} {d : Bytes} {p : Nat} (h : ¬ p < fin) :
    AnlzFile.parseSections fin d p = .ok ([], p) := by
  rw [AnlzFile.parseSections.eq_def, dif_neg h]

theorem parseSections_step {fin : Nat} {d : Bytes} {p : Nat} {s : AnlzSection} {q : Nat} (h : p < fin)
    (hs : AnlzSection.read d p = .ok (s, q)) :
    AnlzFile.parseSections fin d p =
      match AnlzFile.parseSections fin d q with
      | .ok (ss, r) => .ok (s :: ss, r)
      | .err e => .err e
      | .panic => .panic := by
  rw [AnlzFile.parseSections.eq_def, dif_pos h]
  split
  · rename_i s' q' hs'
    rw [hs] at hs'
    injection hs' with hs'
    injection hs' with h1 h2
    subst h1 h2
    rfl
  · rename_i e hs'; rw [hs] at hs'; cases hs'
  · rename_i hs'; rw [hs] at hs'; cases hs'

theorem parseSections_eq_ok {fin : Nat} {d : Bytes} {p : Nat} {ss : List AnlzSection} {r : Nat}
    (h : AnlzFile.parseSections fin d p = .ok (ss, r)) :
    (¬ p < fin ∧ ss = [] ∧ r = p) ∨
    (p < fin ∧ ∃ s q ss', AnlzSection.read d p = .ok (s, q) ∧
      AnlzFile.parseSections fin d q = .ok (ss', r) ∧ ss = s :: ss') := by
  by_cases hp : p < fin
  · right
    refine ⟨hp, ?_⟩
    rw [AnlzFile.parseSections.eq_def, dif_pos hp] at h
    split at h
    · rename_i s q hs
      cases hr : AnlzFile.parseSections fin d q with
      | ok x =>
        obtain ⟨ss', r'⟩ := x
        rw [hr] at h
        injection h with h
        injection h with h1 h2
        subst h1 h2
        exact ⟨s, q, ss', hs, hr, rfl⟩
      | err e => rw [hr] at h; cases h
      | panic => rw [hr] at h; cases h
    · cases h
    · cases h
  · left
    rw [parseSections_done hp] at h
    injection h with h
    injection h with h1 h2
    exact ⟨hp, h1.symm, h2.symm⟩

theorem parseSections_eq_panic {fin : Nat} {d : Bytes} {p : Nat}
    (h : AnlzFile.parseSections fin d p = .panic) : ∃ p', p ≤ p' ∧ AnlzSection.read d p' = .panic := by
  by_cases hp : p < fin
  · rw [AnlzFile.parseSections.eq_def, dif_pos hp] at h
    split at h
    · rename_i s q hs
      have hq := AnlzSection.read_progress hs
      cases hr : AnlzFile.parseSections fin d q with
      | ok x => rw [hr] at h; cases h
      | err e => rw [hr] at h; cases h
      | panic =>
        obtain ⟨p', h1, h2⟩ := parseSections_eq_panic hr
        exact ⟨p', by omega, h2⟩
    · cases h
    · rename_i hs; exact ⟨p, Nat.le_refl _, hs⟩
  · rw [parseSections_done hp] at h; cases h
termination_by fin - p

theorem parseSections_rt {ss : List AnlzSection} (h : ∀ s ∈ ss, s.Consistent) (d : Bytes) (p : Nat)
    (hd : HasAt d p (ss.flatMap AnlzSection.bytes)) :
    AnlzFile.parseSections (p + (ss.map AnlzSection.byteCount).sum) d p =
      .ok (ss, p + (ss.map AnlzSection.byteCount).sum) := by
  induction ss generalizing p with
  | nil => exact parseSections_done (by simp)
  | cons s ss ih =>
    rw [List.flatMap_cons, HasAt.append_iff] at hd
    have hs := (h s (by simp)).rt d p hd.1
    rw [List.map_cons, List.sum_cons, parseSections_step (by
      have : 12 ≤ s.byteCount := by unfold AnlzSection.byteCount; omega
      omega) hs]
    have := ih (fun x hx => h x (by simp [hx])) (p + s.bytes.length) hd.2
    rw [AnlzSection.bytes_length] at this ⊢
    rw [Nat.add_assoc] at this
    rw [this]

theorem parseSections_inv {fin : Nat} {d : Bytes} {p : Nat} {ss : List AnlzSection} {q : Nat}
    (h : AnlzFile.parseSections fin d p = .ok (ss, q)) :
    ∃ parts bs, AnlzSection.ListHeldBy ss parts bs ∧ HasAt d p bs ∧ q = p + bs.length ∧
      (∀ s ∈ ss, s.header.kind.Proper ∧ ∃ cb, s.content.ReadInv s.header cb) := by
  induction ss generalizing p with
  | nil =>
    rcases parseSections_eq_ok h with ⟨_, _, rfl⟩ | ⟨_, _, _, _, _, _, hc⟩
    · exact ⟨[], [], ⟨rfl, by simp, rfl⟩, HasAt.nil _ _, by simp, by simp⟩
    · cases hc
  | cons s ss ih =>
    rcases parseSections_eq_ok h with ⟨_, hc, _⟩ | ⟨_, s', q', ss', hs, hr, hc⟩
    · cases hc
    · injection hc with h1 h2
      subst h1 h2
      obtain ⟨parts, bs, ⟨h1, h2, h3⟩, hb, hq, hall⟩ := ih hr
      obtain ⟨b0, hb0, hq0, hk, cb, hcb, he⟩ := AnlzSection.read_inv _ _ _ _ hs
      refine ⟨b0 :: parts, b0 ++ bs, ⟨by simp [h1], ?_, by simp [h3]⟩, ?_, ?_, ?_⟩
      · intro x hx
        simp only [List.zip_cons_cons, List.mem_cons] at hx
        rcases hx with rfl | hx
        · exact ⟨cb, hcb.heldBy, he⟩
        · exact h2 x hx
      · rw [HasAt.append_iff]; exact ⟨hb0, hq0 ▸ hb⟩
      · rw [List.length_append]; omega
      · intro x hx
        rcases List.mem_cons.1 hx with rfl | hx
        · exact ⟨hk, cb, hcb⟩
        · exact hall x hx

theorem parseSections_progress {fin : Nat} {d : Bytes} {p : Nat} {ss : List AnlzSection} {q : Nat}
    (h : AnlzFile.parseSections fin d p = .ok (ss, q)) : p + 12 * ss.length ≤ q ∧ fin ≤ max p q := by
  induction ss generalizing p with
  | nil =>
    rcases parseSections_eq_ok h with ⟨_, _, rfl⟩ | ⟨_, _, _, _, _, _, hc⟩
    · simp; omega
    · cases hc
  | cons s ss ih =>
    rcases parseSections_eq_ok h with ⟨_, hc, _⟩ | ⟨_, s', q', ss', hs, hr, hc⟩
    · cases hc
    · injection hc with h1 h2
      subst h1 h2
      have := ih hr
      have := AnlzSection.read_progress hs
      rw [List.length_cons]; omega

/-! ## Files -/

theorem AnlzFile.Consistent.enc_eq {a : AnlzFile} (h : a.Consistent) :
    a.enc = .ok (a.header.enc ++ (a.headerData ++ a.sections.flatMap AnlzSection.bytes)) := by
  unfold AnlzFile.enc
  rw [encAll_ok fun s hs => (h.sections s hs).enc_eq]
  rfl

theorem sections_length (ss : List AnlzSection) :
    (ss.flatMap AnlzSection.bytes).length = (ss.map AnlzSection.byteCount).sum :=
  sum_map_length_flatMap _ _ _ fun s _ => s.bytes_length

theorem AnlzFile.Consistent.rt {a : AnlzFile} (h : a.Consistent) :
    RT AnlzFile.read (a.header.enc ++ (a.headerData ++ a.sections.flatMap AnlzSection.bytes)) a := by
  unfold AnlzFile.read
  refine RT.bind (Header.rt (by intro hu; rw [h.kind] at hu; cases hu)) (RT.check (by rw [h.kind]; rfl) ?_)
  refine RT.compute (Header.remainingSize_eq.2 h.headerSize) (RT.bind (RT.bytes _) ?_)
  refine RT.compute (Header.contentSize_eq.2 h.total) (RT.bind_pure ?_)
  intro d p hd
  unfold AnlzFile.readSections
  rw [parseSections_rt h.sections d p hd, sections_length]

theorem AnlzFile.read_eq_ok {d : Bytes} {p : Nat} {a : AnlzFile} {q : Nat}
    (h : AnlzFile.read d p = .ok (a, q)) :
    HasAt d p (a.header.enc ++ a.headerData) ∧ a.header.kind = .file ∧
    a.header.size.toNat = 12 + a.headerData.length ∧
    ∃ m, a.header.totalSize.toNat = a.header.size.toNat + m ∧
      AnlzFile.parseSections (p + a.header.size.toNat + m) d (p + a.header.size.toNat) = .ok (a.sections, q) := by
  unfold AnlzFile.read at h
  obtain ⟨hd, q1, h1, h⟩ := bind_eq_ok.1 h
  obtain ⟨bs, hb, hq1, rfl, hk⟩ := Header.inv _ _ _ _ h1
  obtain ⟨_, q2, h2, h⟩ := bind_eq_ok.1 h
  obtain ⟨bs, _, hq2, hkf, rfl⟩ := Inv.require _ _ _ _ _ _ h2
  obtain ⟨n, q3, h3, h⟩ := bind_eq_ok.1 h
  obtain ⟨bs, _, hq3, hn, rfl⟩ := Inv.lift _ _ _ _ _ h3
  obtain ⟨hdat, q4, h4, h⟩ := bind_eq_ok.1 h
  obtain ⟨hl, hb4, hq4⟩ := bytes_eq_ok.1 h4
  obtain ⟨m, q5, h5, h⟩ := bind_eq_ok.1 h
  obtain ⟨bs, _, hq5, hm, rfl⟩ := Inv.lift _ _ _ _ _ h5
  obtain ⟨ss, q6, h6, h⟩ := bind_eq_ok.1 h
  rw [pure_eq_ok] at h
  obtain ⟨rfl, rfl⟩ := h
  simp only [List.length_nil, Nat.add_zero, Header.enc_length] at hq1 hq2 hq3 hq4 hq5
  have hn' := Header.remainingSize_eq.1 hn
  have hpos : q5 = p + hd.size.toNat := by omega
  refine ⟨?_, by simpa using hkf, by simp only; omega, m, Header.contentSize_eq.1 hm, ?_⟩
  · rw [HasAt.append_iff, Header.enc_length]
    refine ⟨hb, ?_⟩
    have : q3 = p + 12 := by omega
    rw [← this]; exact hb4
  · unfold AnlzFile.readSections at h6
    rw [hpos] at h6
    exact h6

/-! ## Rewriting -/

theorem Content.HeldBy.enc_eq {c : Content} {bs : Bytes} (h : c.HeldBy bs) (hc : ∀ l, c ≠ .extendedCueList l) :
    c.enc = .ok bs := by
  cases c <;> first
    | exact h
    | exact absurd rfl (hc _)

theorem AnlzSection.HeldBy.enc_eq {s : AnlzSection} {bs : Bytes} (h : s.HeldBy bs) (hc : ¬ s.HasComments) :
    s.enc = .ok bs := by
  obtain ⟨cb, h1, rfl⟩ := h
  unfold AnlzSection.enc
  rw [h1.enc_eq fun l hl => hc ⟨l, hl⟩, Res.ok_bind]

theorem AnlzSection.ListHeldBy.encAll_eq {ss : List AnlzSection} {parts : List Bytes} {bs : Bytes}
    (h : AnlzSection.ListHeldBy ss parts bs) (hc : ∀ x ∈ ss.zip parts, x.1.enc = .ok x.2) :
    encAll AnlzSection.enc ss = .ok bs := by
  obtain ⟨hl, hh, rfl⟩ := h
  clear hh
  induction ss generalizing parts with
  | nil => cases parts with
    | nil => rfl
    | cons _ _ => simp at hl
  | cons s ss ih =>
    cases parts with
    | nil => simp at hl
    | cons b parts =>
      unfold encAll
      rw [hc (s, b) (by simp), ih (parts := parts) (fun x hx => hc x (by simp [hx])) (by simpa using hl)]
      rfl

theorem AnlzFile.HeldBy.enc_eq {a : AnlzFile} {bs : Bytes} (h : a.HeldBy bs)
    (hc : ∀ s ∈ a.sections, ¬ s.HasComments) : a.enc = .ok bs := by
  obtain ⟨parts, sb, hh, rfl⟩ := h
  unfold AnlzFile.enc
  rw [hh.encAll_eq fun x hx => (hh.2.1 x hx).enc_eq (hc _ (List.of_mem_zip hx).1), Res.ok_bind]

/-! ## Comments in canonical form -/

theorem pairUnits_inj {a b : Bytes} (hl : a.length = b.length) (he : a.length % 2 = 0)
    (h : pairUnits a = pairUnits b) : a = b := by
  match a, b with
  | [], [] => rfl
  | [], _ :: _ => simp at hl
  | _ :: _, [] => simp at hl
  | [_], _ => simp at he
  | _ :: _ :: _, [_] => simp at hl
  | x :: y :: a, x' :: y' :: b =>
    simp only [pairUnits, List.cons.injEq] at h
    have h1 := congrArg encU16be h.1
    rw [encU16be_beDec, encU16be_beDec] at h1
    simp only [List.cons.injEq, and_true] at h1
    simp only [List.length_cons, Nat.add_right_cancel_iff] at hl
    simp only [List.length_cons] at he
    rw [h1.1, h1.2, pairUnits_inj hl (by omega) h.2]

theorem mem_takeWhile_imp {α : Type} {p : α → Bool} {l : List α} {a : α} (h : a ∈ l.takeWhile p) : p a = true := by
  induction l with
  | nil => simp at h
  | cons x l ih =>
    rw [List.takeWhile_cons] at h
    split at h
    · rcases List.mem_cons.1 h with rfl | h
      · assumption
      · exact ih h
    · simp at h

theorem trimNuls_split (t : String) : ∃ k, t.toList = (trimNuls t).toList ++ List.replicate k (Char.ofNat 0) := by
  refine ⟨(t.toList.reverse.takeWhile (· == Char.ofNat 0)).length, ?_⟩
  have h : t.toList = (t.toList.reverse.dropWhile (· == Char.ofNat 0)).reverse ++
      (t.toList.reverse.takeWhile (· == Char.ofNat 0)).reverse := by
    rw [← List.reverse_append, List.takeWhile_append_dropWhile, List.reverse_reverse]
  conv => lhs; rw [h]
  unfold trimNuls
  rw [String.toList_ofList]
  congr 1
  rw [List.eq_replicate_iff]
  refine ⟨by simp, ?_⟩
  intro c hc
  rw [List.mem_reverse] at hc
  have := mem_takeWhile_imp hc
  simpa using this

theorem encodeUtf16_replicate (k : Nat) :
    encodeUtf16 (String.ofList (List.replicate k (Char.ofNat 0))) = List.replicate k 0 := by
  induction k with
  | zero => rfl
  | succ k ih =>
    rw [List.replicate_succ, List.replicate_succ, ← List.singleton_append, String.ofList_append,
      encodeUtf16_append, ih]
    rfl

/-- A comment of the length that the writer gives it is in the form that the writer gives it. -/
theorem WideString.ReadsFrom.canonical {s : WideString} {raw : Bytes} (h : s.ReadsFrom raw)
    (hl : raw.length = s.byteCount) : raw = s.canonical := by
  have hb : s.byteCount % 2 = 0 := by unfold WideString.byteCount; split <;> omega
  rcases h with ⟨rfl, he⟩ | ⟨hne, t, ht, he⟩
  · simp [WideString.canonical, he]
  · have hs : s.val ≠ "" := by
      intro hc
      rw [WideString.byteCount, if_pos hc] at hl
      exact hne (List.length_eq_zero_iff.1 hl)
    refine pairUnits_inj (by rw [hl, s.canonical_length]) (by omega) ?_
    have hu := encodeUtf16_of_fromUtf16 ht
    obtain ⟨k, hk⟩ := trimNuls_split t
    rw [← he] at hk
    have ht' : t = s.val ++ String.ofList (List.replicate k (Char.ofNat 0)) := by
      rw [← String.toList_inj, String.toList_append, String.toList_ofList, hk]
    have hu2 : pairUnits raw = encodeUtf16 s.val ++ List.replicate k 0 := by
      rw [← hu, ht', encodeUtf16_append, encodeUtf16_replicate]
    have hk1 : k = 1 := by
      have := congrArg List.length hu2
      rw [pairUnits_length, hl, WideString.byteCount, if_neg hs, List.length_append, List.length_replicate] at this
      omega
    rw [hu2, hk1, WideString.canonical, if_neg hs, pairUnits_append]
    rfl

end Rekordcrate.Anlz
