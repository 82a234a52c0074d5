import Verif.Lemmas.AnlzBase

/-! # Lemmas on the contents of analysis sections -/

namespace Rekordcrate.Anlz
open Rd

/-! ## Comments -/

theorem beDec_encU16be (u : UInt16) (a b : UInt8) (h : encU16be u = [a, b]) : UInt16.ofNat (beDec [a, b]) = u := by
  rw [← h, encU16be, beDec_beEnc]
  apply UInt16.toNat_inj.1
  have := u.toNat_lt
  rw [UInt16.toNat_ofNat']; omega

theorem encU16be_eq (u : UInt16) : ∃ a b, encU16be u = [a, b] := by
  have := encU16be_length u
  match h : encU16be u, this with
  | [a, b], _ => exact ⟨a, b, rfl⟩

theorem pairUnits_append (us : List UInt16) (bs : Bytes) :
    pairUnits (us.flatMap encU16be ++ bs) = us ++ pairUnits bs := by
  induction us with
  | nil => rfl
  | cons u us ih =>
    obtain ⟨a, b, h⟩ := encU16be_eq u
    rw [List.flatMap_cons, h]
    simp only [List.cons_append, List.nil_append, pairUnits, ih]
    rw [beDec_encU16be u a b h]

theorem encodeUtf16_append (s t : String) : encodeUtf16 (s ++ t) = encodeUtf16 s ++ encodeUtf16 t := by
  simp [encodeUtf16, String.toList_append]

theorem fromUtf16_nul (s : String) : fromUtf16 (encodeUtf16 s ++ [0]) = some (s ++ String.ofList [Char.ofNat 0]) := by
  have : encodeUtf16 s ++ [0] = encodeUtf16 (s ++ String.ofList [Char.ofNat 0]) := by
    rw [encodeUtf16_append]
    congr 1
  rw [this, fromUtf16_encodeUtf16]

theorem trimNuls_eq {s : String} (h : s.toList.getLast? ≠ some (Char.ofNat 0)) : trimNuls s = s := by
  unfold trimNuls
  have : s.toList.reverse.dropWhile (· == Char.ofNat 0) = s.toList.reverse := by
    cases hr : s.toList.reverse with
    | nil => rfl
    | cons c l =>
      have hl : s.toList.getLast? = some c := by
        rw [← List.head?_reverse, hr]; rfl
      rw [hl] at h
      simp only [List.dropWhile_cons]
      rw [if_neg]
      simp only [beq_iff_eq]
      intro hc; exact h (by rw [hc])
  rw [this, List.reverse_reverse, String.ofList_toList]

theorem trimNuls_append (s : String) : trimNuls (s ++ String.ofList [Char.ofNat 0]) = trimNuls s := by
  unfold trimNuls
  simp [String.toList_append]

theorem trimNuls_noTrailing (s : String) : (trimNuls s).toList.getLast? ≠ some (Char.ofNat 0) := by
  unfold trimNuls
  rw [String.toList_ofList, List.getLast?_reverse]
  intro h
  have := List.head?_dropWhile_not (· == Char.ofNat 0) s.toList.reverse
  rw [h] at this
  simp at this

theorem WideString.byteLen_eq (s : WideString) (h : s.byteCount < 2 ^ 32) : s.byteLen = .ok s.byteCount := by
  unfold WideString.byteCount at *
  unfold WideString.byteLen
  by_cases he : s.val = ""
  · simp [he]
  · rw [if_neg he] at h
    rw [if_neg (by simpa using he)]
    simp only [if_neg he]
    rw [Nat.mod_eq_of_lt (by omega), if_pos (by omega), if_pos (by omega)]
    congr 1
    omega

theorem WideString.byteLen_panic (s : WideString) (h : s.byteLen = .panic) : 2 ^ 32 ≤ s.byteCount := by
  refine Classical.byContradiction fun hn => ?_
  rw [s.byteLen_eq (by omega)] at h
  cases h

theorem flatMap_encU16be_length (us : List UInt16) : (us.flatMap encU16be).length = 2 * us.length := by
  induction us with
  | nil => rfl
  | cons u us ih => rw [List.flatMap_cons, List.length_append, ih, encU16be_length]; simp; omega

theorem WideString.canonical_length (s : WideString) : s.canonical.length = s.byteCount := by
  unfold WideString.canonical WideString.byteCount
  split
  · rfl
  · rw [List.length_append, flatMap_encU16be_length]; simp; omega

theorem WideString.enc_eq (s : WideString) (h : s.byteCount < 2 ^ 32) :
    s.enc = .ok (encU32be (UInt32.ofNat s.canonical.length) ++ s.canonical) := by
  unfold WideString.enc
  rw [s.byteLen_eq h, Res.ok_bind, s.canonical_length]
  unfold WideString.byteCount WideString.canonical
  split
  · simp
  · rw [if_pos (by omega)]

theorem WideString.canonical_reads {s : WideString} (h : s.NoTrailingNul) : s.ReadsFrom s.canonical := by
  unfold WideString.ReadsFrom WideString.canonical
  by_cases he : s.val = ""
  · simp [he]
  · rw [if_neg he]
    right
    refine ⟨by simp, s.val ++ String.ofList [Char.ofNat 0], ?_, ?_⟩
    · rw [pairUnits_append]
      exact fromUtf16_nul s.val
    · rw [trimNuls_append, trimNuls_eq h]

theorem pairUnits_length (bs : Bytes) : (pairUnits bs).length = bs.length / 2 := by
  fun_induction pairUnits bs with
  | case1 a b rest ih => simp only [List.length_cons, ih]; omega
  | case2 bs h =>
    match bs, h with
    | [], _ => rfl
    | [_], _ => simp
    | a :: b :: r, h => exact absurd rfl (h a b r)

theorem encodeUtf16_trimNuls_length (t : String) :
    (encodeUtf16 (trimNuls t)).length ≤ (encodeUtf16 t).length := by
  unfold trimNuls
  have h : t.toList = (t.toList.reverse.dropWhile (· == Char.ofNat 0)).reverse ++
      (t.toList.reverse.takeWhile (· == Char.ofNat 0)).reverse := by
    rw [← List.reverse_append, List.takeWhile_append_dropWhile, List.reverse_reverse]
  have ht : t = String.ofList (t.toList.reverse.dropWhile (· == Char.ofNat 0)).reverse ++
      String.ofList (t.toList.reverse.takeWhile (· == Char.ofNat 0)).reverse := by
    rw [← String.ofList_append, ← h, String.ofList_toList]
  conv => rhs; rw [ht, encodeUtf16_append]
  rw [List.length_append]; omega

/-- The comment that is read is at most two bytes longer than the bytes it is read from. -/
theorem WideString.ReadsFrom.byteCount_le {s : WideString} {raw : Bytes} (h : s.ReadsFrom raw) :
    s.byteCount ≤ 2 * (raw.length / 2) + 2 := by
  unfold WideString.byteCount
  rcases h with ⟨rfl, he⟩ | ⟨hne, t, ht, he⟩
  · simp [he]
  · split
    · omega
    · have h1 := encodeUtf16_trimNuls_length t
      rw [encodeUtf16_of_fromUtf16 ht, pairUnits_length] at h1
      rw [he]; omega

/-- A comment with at most `2 ^ 31` units whose length can be computed takes less than 4 GiB. -/
theorem WideString.byteCount_lt_of_byteLen {s : WideString} {n : Nat} (h : s.byteLen = .ok n)
    (hs : s.byteCount ≤ 2 ^ 32) : s.byteCount < 2 ^ 32 := by
  unfold WideString.byteCount at *
  unfold WideString.byteLen at h
  by_cases he : s.val = ""
  · simp [he]
  · rw [if_neg he] at hs ⊢
    rw [if_neg (by simpa using he)] at h
    simp only at h
    split at h
    · split at h
      · rw [Nat.mod_eq_of_lt (by omega)] at *; omega
      · cases h
    · cases h

theorem WideString.rt {s : WideString} {raw : Bytes} (h : s.ReadsFrom raw) (hl : raw.length < 2 ^ 32) :
    RT WideString.read (encU32be (UInt32.ofNat raw.length) ++ raw) s := by
  intro d p hd
  rw [HasAt.append_iff] at hd
  unfold WideString.read
  rw [bind_of_ok (RT.u32be _ d p hd.1)]
  have hn : (UInt32.ofNat raw.length).toNat = raw.length := by
    rw [UInt32.toNat_ofNat', Nat.mod_eq_of_lt (by simpa using hl)]
  rcases h with ⟨rfl, he⟩ | ⟨hne, t, ht, he⟩
  · cases s; simp only at he; subst he; rfl
  · rw [if_neg]
    · rw [bind_of_ok (RT.bytes' hn.symm d _ hd.2), ht]
      simp only [pure_def, List.length_append]
      cases s; simp only at he; subst he
      rw [Nat.add_assoc]
    · intro h0
      have := congrArg UInt32.toNat h0
      rw [hn] at this
      exact hne (List.length_eq_zero_iff.1 this)

theorem WideString.inv : Inv WideString.read (fun s bs =>
    ∃ raw, raw.length < 2 ^ 32 ∧ bs = encU32be (UInt32.ofNat raw.length) ++ raw ∧ s.ReadsFrom raw) := by
  unfold WideString.read
  refine Inv.bind Inv.u32be ?_
  rintro len _ rfl
  split
  · rename_i h
    subst h
    refine (Inv.pure _).mono ?_
    rintro _ _ ⟨rfl, rfl⟩
    exact ⟨[], by simp, rfl, .inl ⟨rfl, rfl⟩⟩
  · rename_i h
    refine Inv.bind (Inv.bytes _) ?_
    rintro _ raw ⟨rfl, hl⟩
    split
    · rename_i t ht
      refine (Inv.pure _).mono ?_
      rintro _ _ ⟨rfl, rfl⟩
      have hlt := len.toNat_lt
      refine ⟨raw, by omega, ?_, .inr ⟨?_, t, ht, rfl⟩⟩
      · rw [hl, UInt32.ofNat_toNat, List.append_nil]
      · rintro rfl
        apply h
        apply UInt32.toNat_inj.1
        rw [← hl]; rfl
    · exact Inv.fail _ _

theorem WideString.np : NP WideString.read := by
  refine NP.bind NP.u32be fun len => ?_
  split
  · exact NP.pure _
  · refine NP.bind (NP.bytes _) fun bs => ?_
    split
    · exact NP.pure _
    · exact NP.fail _

/-! ## Extended cues -/

theorem ExtendedCue.front_length (c : ExtendedCue) : c.front.length = 40 := by simp [ExtendedCue.front]
theorem ExtendedCue.back_length (c : ExtendedCue) : c.back.length = 24 + c.trailing.length := by
  simp [ExtendedCue.back]; omega

theorem ExtendedCue.enc_eq (c : ExtendedCue) (h : c.comment.byteCount < 2 ^ 32) :
    c.enc = .ok (c.bytesWith c.comment.canonical) := by
  unfold ExtendedCue.enc ExtendedCue.bytesWith
  rw [c.comment.enc_eq h]; rfl

theorem ExtendedCue.bytesWith_length (c : ExtendedCue) (raw : Bytes) :
    (c.bytesWith raw).length = 68 + raw.length + c.trailing.length := by
  simp [ExtendedCue.bytesWith, front_length, back_length]; omega

theorem ExtendedCue.trailingLen_eq {h : Header} {s : WideString} (hs : 68 + s.byteCount < 2 ^ 32) :
    trailingLen h s = .ok (h.totalSize.toNat - (68 + s.byteCount)) := by
  unfold trailingLen
  rw [s.byteLen_eq (by omega), Res.ok_bind, if_pos hs]

theorem RT.lift {α : Type} {r : Res α} {a : α} (h : r = .ok a) : RT (Rd.lift r) [] a := by
  intro d p _; subst h; rfl

theorem ExtendedCue.rt {c : ExtendedCue} {raw : Bytes} (hk : c.header.kind.Proper)
    (hraw : c.comment.ReadsFrom raw) (hl : raw.length < 2 ^ 32) (hs : 68 + c.comment.byteCount < 2 ^ 32)
    (ht : c.trailing.length = c.header.totalSize.toNat - (68 + c.comment.byteCount)) :
    RT ExtendedCue.read (c.bytesWith raw) c := by
  unfold ExtendedCue.bytesWith ExtendedCue.front ExtendedCue.back ExtendedCue.read
  simp only [List.append_assoc]
  refine RT.bind (Header.rt hk) ?_
  rt_run
  rw [← List.append_assoc (encU32be (UInt32.ofNat raw.length))]
  refine RT.bind (WideString.rt hraw hl) ?_
  rt_run
  exact RT.congr_bytes (RT.bind (bs := []) (RT.lift (ExtendedCue.trailingLen_eq hs)) (RT.bind_pure (RT.bytes' ht))) rfl

theorem Inv.lift {α : Type} (r : Res α) : Inv (Rd.lift r) (fun a bs => r = .ok a ∧ bs = []) := by
  intro d p a q h
  unfold Rd.lift at h
  cases r with
  | ok x =>
    injection h with h
    injection h with h1 h2
    exact ⟨[], HasAt.nil _ _, by simp [h2], by rw [h1], rfl⟩
  | err e => cases h
  | panic => cases h

theorem ExtendedCue.inv : Inv ExtendedCue.read (fun c bs => c.header.kind.Proper ∧
    68 + c.comment.byteCount < 2 ^ 32 ∧
    c.trailing.length = c.header.totalSize.toNat - (68 + c.comment.byteCount) ∧
    ∃ raw, raw.length < 2 ^ 32 ∧ c.comment.ReadsFrom raw ∧ bs = c.bytesWith raw) := by
  unfold ExtendedCue.read
  refine Inv.bind Header.inv ?_
  rintro hd _ ⟨rfl, hk⟩
  inv_run
  refine Inv.bind WideString.inv ?_
  rintro s _ ⟨raw, hl, rfl, hr⟩
  inv_run
  refine Inv.bind (Inv.lift _) ?_
  rintro n _ ⟨hn, rfl⟩
  refine Inv.bind (Inv.bytes _) ?_
  rintro _ tr ⟨rfl, ht⟩
  refine (Inv.pure _).mono ?_
  rintro _ _ ⟨rfl, rfl⟩
  have hs : 68 + s.byteCount < 2 ^ 32 := by
    refine Classical.byContradiction fun hc => ?_
    unfold trailingLen at hn
    obtain ⟨bl, h1, h2⟩ := Res.bind_eq_ok.1 hn
    have hb := WideString.byteCount_lt_of_byteLen h1 (by have := hr.byteCount_le; omega)
    rw [s.byteLen_eq hb] at h1
    injection h1 with h1
    subst h1
    rw [if_neg hc] at h2; cases h2
  rw [ExtendedCue.trailingLen_eq hs] at hn
  injection hn with hn
  refine ⟨hk, hs, by rw [ht, hn], raw, hl, hr, ?_⟩
  simp [ExtendedCue.bytesWith, ExtendedCue.front, ExtendedCue.back]

/-! ## Sizes -/

theorem Header.contentSize_eq {h : Header} {n : Nat} : h.contentSize = .ok n ↔ h.totalSize.toNat = h.size.toNat + n := by
  unfold Header.contentSize subU
  split
  · simp only [Res.ok.injEq]; omega
  · simp only [reduceCtorEq, false_iff]; omega

theorem Header.remainingSize_eq {h : Header} {n : Nat} : h.remainingSize = .ok n ↔ h.size.toNat = 12 + n := by
  unfold Header.remainingSize subU
  split
  · simp only [Res.ok.injEq]; omega
  · simp only [reduceCtorEq, false_iff]; omega

theorem toNat_ofNat32 {n : Nat} (h : n < 2 ^ 32) : (UInt32.ofNat n).toNat = n := by
  rw [UInt32.toNat_ofNat', Nat.mod_eq_of_lt (by simpa using h)]

theorem toNat_ofNat16 {n : Nat} (h : n < 2 ^ 16) : (UInt16.ofNat n).toNat = n := by
  rw [UInt16.toNat_ofNat', Nat.mod_eq_of_lt (by simpa using h)]

theorem flatMap_length_const {α : Type} {f : α → Bytes} {k : Nat} (h : ∀ a, (f a).length = k) (l : List α) :
    (l.flatMap f).length = k * l.length := by
  induction l with
  | nil => simp
  | cons a l ih => rw [List.flatMap_cons, List.length_append, ih, h, List.length_cons, Nat.mul_add]; omega

/-- Skip a check that holds, in a round trip. -/
theorem RT.check {α : Type} {b : Bool} {e : Err} {k : Unit → Rd α} {bs : Bytes} {a : α} (h : b = true)
    (hk : RT (k ()) bs a) : RT (Rd.require b e >>= k) bs a :=
  RT.congr_bytes (RT.bind (RT.require h) hk) rfl

/-- Skip a computation that succeeds, in a round trip. -/
theorem RT.compute {α β : Type} {r : Res β} {b : β} {k : β → Rd α} {bs : Bytes} {a : α} (h : r = .ok b)
    (hk : RT (k b) bs a) : RT (Rd.lift r >>= k) bs a :=
  RT.congr_bytes (RT.bind (RT.lift h) hk) rfl

/-- A check in an inversion. -/
theorem Inv.check {α : Type} {b : Bool} {e : Err} {k : Unit → Rd α} {φ : α → Bytes → Prop}
    (hk : b = true → Inv (k ()) φ) : Inv (Rd.require b e >>= k) φ := by
  cases b with
  | false =>
    intro d p a q h
    obtain ⟨_, _, h1, _⟩ := bind_eq_ok.1 h
    cases h1
  | true =>
    intro d p a q h
    obtain ⟨_, q1, h1, h2⟩ := bind_eq_ok.1 h
    injection h1 with h1
    injection h1 with _ h1
    subst h1
    exact hk rfl _ _ _ _ h2

/-- A computation in an inversion. -/
theorem Inv.compute {α β : Type} {r : Res β} {k : β → Rd α} {φ : α → Bytes → Prop}
    (hk : ∀ b, r = .ok b → Inv (k b) φ) : Inv (Rd.lift r >>= k) φ := by
  intro d p a q h
  obtain ⟨b, q1, h1, h2⟩ := bind_eq_ok.1 h
  cases hr : r with
  | ok x =>
    rw [hr] at h1
    injection h1 with h1
    injection h1 with h1 h3
    subst h1 h3
    exact hk _ hr _ _ _ _ h2
  | err e => rw [hr] at h1; cases h1
  | panic => rw [hr] at h1; cases h1

/-! ## Lists -/

theorem BeatGrid.rt {c : BeatGrid} (h : c.beats.length < 2 ^ 32) : RT BeatGrid.read c.enc c := by
  unfold BeatGrid.read BeatGrid.enc
  rt_run
  exact RT.bind_pure (RT.many' (toNat_ofNat32 h).symm fun a _ => a.rt)

theorem BeatGrid.inv : Inv BeatGrid.read (fun c bs => bs = c.enc ∧ c.beats.length < 2 ^ 32) := by
  unfold BeatGrid.read
  refine Inv.bind Inv.u32be ?_
  rintro a _ rfl
  refine Inv.bind Inv.u32be ?_
  rintro b _ rfl
  refine Inv.bind Inv.u32be ?_
  rintro n _ rfl
  refine Inv.bind (Inv.many Beat.inv Beat.enc (fun _ _ h => h) _) ?_
  rintro bs _ ⟨rfl, hl⟩
  refine (Inv.pure _).mono ?_
  rintro _ _ ⟨rfl, rfl⟩
  have := n.toNat_lt
  simp [BeatGrid.enc, hl]
  omega

theorem BeatGrid.np : NP BeatGrid.read := by
  unfold BeatGrid.read
  np_run
  exact NP.bind (NP.many Beat.np _) fun _ => NP.pure _

theorem CueList.rt {c : CueList} (h : c.cues.length < 2 ^ 16) (hk : ∀ x ∈ c.cues, x.header.kind.Proper) :
    RT CueList.read c.enc c := by
  unfold CueList.read CueList.enc
  rt_run
  exact RT.bind_pure (RT.many' (toNat_ofNat16 h).symm fun a ha => Cue.rt (hk a ha))

theorem Inv.many_all {α : Type} {r : Rd α} {φ : α → Bytes → Prop} {P : α → Prop} (h : Inv r φ) (enc : α → Bytes)
    (he : ∀ a bs, φ a bs → bs = enc a ∧ P a) (n : Nat) :
    Inv (Rd.many r n) (fun as bs => bs = as.flatMap enc ∧ as.length = n ∧ ∀ a ∈ as, P a) := by
  intro d p as q hr
  obtain ⟨bs, hb, hq, h1, h2⟩ := Inv.many h enc (fun a b hab => (he a b hab).1) n d p as q hr
  refine ⟨bs, hb, hq, h1, h2, many_read_all (fun d p a p' ha => ?_) hr⟩
  obtain ⟨bs, _, _, hp⟩ := h d p a p' ha
  exact (he _ _ hp).2

theorem CueList.inv : Inv CueList.read (fun c bs => bs = c.enc ∧ c.cues.length < 2 ^ 16 ∧
    ∀ x ∈ c.cues, x.header.kind.Proper) := by
  unfold CueList.read
  refine Inv.bind CueListType.inv ?_
  rintro a _ rfl
  refine Inv.bind Inv.u16be ?_
  rintro b _ rfl
  refine Inv.bind Inv.u16be ?_
  rintro n _ rfl
  refine Inv.bind Inv.u32be ?_
  rintro m _ rfl
  refine Inv.bind (Inv.many_all Cue.inv Cue.enc (fun _ _ h => h) _) ?_
  rintro bs _ ⟨rfl, hl, hall⟩
  refine (Inv.pure _).mono ?_
  rintro _ _ ⟨rfl, rfl⟩
  have := n.toNat_lt
  refine ⟨by simp [CueList.enc, hl], by simp only; omega, hall⟩

theorem CueList.np : NP CueList.read := by
  unfold CueList.read
  np_run
  exact NP.bind (NP.many Cue.np _) fun _ => NP.pure _

/-! ## Extended cue lists -/

theorem encAll_ok {α : Type} {f : α → Res Bytes} {g : α → Bytes} {l : List α} (h : ∀ a ∈ l, f a = .ok (g a)) :
    encAll f l = .ok (l.flatMap g) := by
  induction l with
  | nil => rfl
  | cons a l ih =>
    unfold encAll
    rw [h a (by simp), ih fun x hx => h x (by simp [hx])]
    rfl

theorem ExtendedCueList.enc_eq {c : ExtendedCueList} (h : ∀ x ∈ c.cues, x.comment.byteCount < 2 ^ 32) :
    c.enc = .ok (c.bytesWith (c.cues.flatMap fun x => x.bytesWith x.comment.canonical)) := by
  unfold ExtendedCueList.enc ExtendedCueList.bytesWith
  rw [encAll_ok fun x hx => x.enc_eq (h x hx)]
  rfl

theorem ExtendedCue.Consistent.rt {c : ExtendedCue} (h : c.Consistent) :
    RT ExtendedCue.read (c.bytesWith c.comment.canonical) c :=
  ExtendedCue.rt h.kind (WideString.canonical_reads h.comment)
    (by rw [WideString.canonical_length]; have := h.size; omega) h.size h.trailing

theorem ExtendedCueList.rt {c : ExtendedCueList} (hl : c.cues.length < 2 ^ 16) (hu : c.unknown = 0)
    (h : ∀ x ∈ c.cues, x.Consistent) :
    RT ExtendedCueList.read (c.bytesWith (c.cues.flatMap fun x => x.bytesWith x.comment.canonical)) c := by
  unfold ExtendedCueList.read ExtendedCueList.bytesWith
  rt_run
  refine RT.check (by rw [hu]; rfl) ?_
  exact RT.bind_pure (RT.many' (toNat_ofNat16 hl).symm fun a ha => (h a ha).rt)

/-- What the reader guarantees about an extended cue, except for its comment bytes. -/
structure ExtendedCue.Readable (c : ExtendedCue) : Prop where
  kind : c.header.kind.Proper
  size : 68 + c.comment.byteCount < 2 ^ 32
  trailing : c.trailing.length = c.header.totalSize.toNat - (68 + c.comment.byteCount)

theorem ExtendedCue.heldBy_nil : ExtendedCue.HeldBy [] [] [] := ⟨rfl, by simp, rfl⟩

theorem ExtendedCue.heldBy_cons {c : ExtendedCue} {cs : List ExtendedCue} {raw : Bytes} {raws : List Bytes}
    {bs : Bytes} (hr : c.comment.ReadsFrom raw) (hl : raw.length < 2 ^ 32) (h : ExtendedCue.HeldBy cs raws bs) :
    ExtendedCue.HeldBy (c :: cs) (raw :: raws) (c.bytesWith raw ++ bs) := by
  obtain ⟨h1, h2, h3⟩ := h
  refine ⟨by simp [h1], ?_, by simp [h3]⟩
  intro x hx
  simp only [List.zip_cons_cons, List.mem_cons] at hx
  rcases hx with rfl | hx
  · exact ⟨hr, hl⟩
  · exact h2 x hx

theorem ExtendedCue.many_inv (n : Nat) : Inv (Rd.many ExtendedCue.read n) (fun cs bs =>
    cs.length = n ∧ (∀ c ∈ cs, c.Readable) ∧ ∃ raws, ExtendedCue.HeldBy cs raws bs) := by
  induction n with
  | zero =>
    refine (Inv.pure _).mono ?_
    rintro _ _ ⟨rfl, rfl⟩
    exact ⟨rfl, by simp, [], ExtendedCue.heldBy_nil⟩
  | succ n ih =>
    unfold Rd.many
    refine Inv.bind ExtendedCue.inv ?_
    rintro c _ ⟨hk, hs, ht, raw, hl, hr, rfl⟩
    refine Inv.bind ih ?_
    rintro cs bs ⟨hn, hall, raws, hb⟩
    refine (Inv.pure _).mono ?_
    rintro _ _ ⟨rfl, rfl⟩
    refine ⟨by simp [hn], ?_, raw :: raws, ?_⟩
    · intro x hx
      rcases List.mem_cons.1 hx with rfl | hx
      · exact ⟨hk, hs, ht⟩
      · exact hall x hx
    · rw [List.append_nil]
      exact ExtendedCue.heldBy_cons hr hl hb

theorem ExtendedCueList.inv : Inv ExtendedCueList.read (fun c bs => c.cues.length < 2 ^ 16 ∧ c.unknown = 0 ∧
    (∀ x ∈ c.cues, x.Readable) ∧ ∃ raws inner, ExtendedCue.HeldBy c.cues raws inner ∧ bs = c.bytesWith inner) := by
  unfold ExtendedCueList.read
  refine Inv.bind CueListType.inv ?_
  rintro a _ rfl
  refine Inv.bind Inv.u16be ?_
  rintro n _ rfl
  refine Inv.bind Inv.u16be ?_
  rintro b _ rfl
  refine Inv.check ?_
  intro hb
  refine Inv.bind (ExtendedCue.many_inv _) ?_
  rintro cs bs ⟨hl, hall, raws, hh⟩
  refine (Inv.pure _).mono ?_
  rintro _ _ ⟨rfl, rfl⟩
  have := n.toNat_lt
  refine ⟨by simp only; omega, by simpa using hb, hall, raws, bs, hh, ?_⟩
  simp [ExtendedCueList.bytesWith, hl]

/-! ## Paths -/

theorem encU16be_zero : encU16be 0 = [0, 0] := rfl

theorem encU16be_beDec (a b : UInt8) : encU16be (UInt16.ofNat (beDec [a, b])) = [a, b] := by
  have h := beEnc_beDec [a, b]
  have hlt : beDec [a, b] < 2 ^ 16 := by
    have := leDec_lt [b, a]
    simpa [beDec] using this
  unfold encU16be
  rw [toNat_ofNat16 hlt]
  exact h

theorem scanUnits_enc {us : List UInt16} (h : (0 : UInt16) ∉ us) (rest : Bytes) :
    scanUnits (encWideUnits us ++ rest) = some (us, 2 * (us.length + 1)) := by
  induction us with
  | nil =>
    simp only [encWideUnits, List.flatMap_nil, List.nil_append, encU16be_zero, List.cons_append, List.length_nil]
    unfold scanUnits
    rw [if_pos (by decide)]
  | cons u us ih =>
    obtain ⟨a, b, hu⟩ := encU16be_eq u
    have h0 : u ≠ 0 := fun hc => h (by simp [hc])
    have ih := ih fun hm => h (by simp [hm])
    unfold encWideUnits at ih ⊢
    rw [List.flatMap_cons, hu]
    simp only [List.cons_append, List.nil_append] at ih ⊢
    unfold scanUnits
    rw [beDec_encU16be u a b hu, if_neg h0, ih]
    simp; omega

theorem scanUnits_inv {d : Bytes} {us : List UInt16} {n : Nat} (h : scanUnits d = some (us, n)) :
    (0 : UInt16) ∉ us ∧ ∃ rest, d = encWideUnits us ++ rest ∧ n = (encWideUnits us).length := by
  fun_induction scanUnits d generalizing us n with
  | case1 a b rest h0 =>
    simp only [Option.some.injEq, Prod.mk.injEq] at h
    obtain ⟨rfl, rfl⟩ := h
    refine ⟨by simp, rest, ?_, rfl⟩
    have := encU16be_beDec a b
    rw [h0] at this
    simp [encWideUnits, this]
  | case2 a b rest h0 ih =>
    rw [Option.map_eq_some_iff] at h
    obtain ⟨⟨vs, m⟩, hv, h⟩ := h
    simp only [Prod.mk.injEq] at h
    obtain ⟨rfl, rfl⟩ := h
    obtain ⟨h1, r, h2, h3⟩ := ih hv
    refine ⟨?_, r, ?_, ?_⟩
    · simp only [List.mem_cons, not_or]; exact ⟨fun hc => h0 hc.symm, h1⟩
    · rw [h2]
      simp [encWideUnits, encU16be_beDec]
    · rw [h3]
      simp [encWideUnits, encU16be_beDec]
  | case3 => cases h

theorem encWideUnits_length (us : List UInt16) : (encWideUnits us).length = 2 * (us.length + 1) := by
  rw [encWideUnits, List.length_append, flatMap_encU16be_length, encU16be_length]; omega

theorem readWideUnits_rt {us : List UInt16} (h : (0 : UInt16) ∉ us) : RT readWideUnits (encWideUnits us) us := by
  intro d p hd
  unfold readWideUnits
  have : d.drop p = encWideUnits us ++ d.drop (p + (encWideUnits us).length) := by
    have ht := hd.take_drop
    rw [← List.drop_drop]
    conv => lhs; rw [← List.take_append_drop (encWideUnits us).length (d.drop p)]
    rw [ht]
  rw [this, scanUnits_enc h]
  simp only [encWideUnits_length]

theorem readWideUnits_inv : Inv readWideUnits (fun us bs => bs = encWideUnits us ∧ (0 : UInt16) ∉ us) := by
  intro d p us q h
  unfold readWideUnits at h
  cases hs : scanUnits (d.drop p) with
  | none => rw [hs] at h; cases h
  | some r =>
    obtain ⟨vs, n⟩ := r
    rw [hs] at h
    injection h with h
    injection h with h1 h2
    subst h1
    obtain ⟨h0, rest, hr, hn⟩ := scanUnits_inv hs
    refine ⟨_, ?_, ?_, rfl, h0⟩
    · intro i hi
      have := congrArg (·[i]?) hr
      simp only [List.getElem?_drop] at this
      rw [this, List.getElem?_append_left hi]
    · omega

theorem readWideUnits_np : NP readWideUnits := by
  intro d p h
  unfold readWideUnits at h
  split at h <;> cases h

theorem Path.lenPath_eq {c : Path} (h : 2 * (c.path.length + 1) < 2 ^ 32) :
    c.lenPath = .ok (2 * (c.path.length + 1)) := by
  unfold Path.lenPath
  simp only
  rw [Nat.mod_eq_of_lt (by omega), if_pos (by omega), if_pos (by omega), Nat.mul_comm]

theorem Path.enc_eq {c : Path} (h : 2 * (c.path.length + 1) < 2 ^ 32) :
    c.enc = .ok (encU32be (UInt32.ofNat (2 * (c.path.length + 1))) ++ encWideUnits c.path) := by
  unfold Path.enc
  rw [Path.lenPath_eq h, Res.ok_bind]

theorem Path.rt {h : Header} {c : Path} (h0 : (0 : UInt16) ∉ c.path)
    (hs : h.totalSize.toNat = h.size.toNat + 2 * (c.path.length + 1)) :
    RT (Path.read h) (encU32be (UInt32.ofNat (2 * (c.path.length + 1))) ++ encWideUnits c.path) c := by
  have hlt : 2 * (c.path.length + 1) < 2 ^ 32 := by have := h.totalSize.toNat_lt; omega
  unfold Path.read
  rt_run
  refine RT.compute (Header.contentSize_eq.2 hs) (RT.check (by rw [toNat_ofNat32 hlt]; exact beq_self_eq_true _) ?_)
  refine RT.congr_bytes (RT.bind (readWideUnits_rt h0) (RT.compute (Header.contentSize_eq.2 hs)
    (RT.check (by rw [toNat_ofNat32 hlt]; exact beq_self_eq_true _) (RT.compute (Path.lenPath_eq hlt)
    (RT.check (by rw [toNat_ofNat32 hlt]; exact beq_self_eq_true _) (RT.pure _)))))) (List.append_nil _)

theorem Path.inv (h : Header) : Inv (Path.read h) (fun c bs => (0 : UInt16) ∉ c.path ∧ c.enc = .ok bs ∧
    ∃ n, c.lenPath = .ok n ∧ h.totalSize.toNat = h.size.toNat + n) := by
  unfold Path.read
  refine Inv.bind Inv.u32be ?_
  rintro len _ rfl
  refine Inv.compute fun n hn => Inv.check fun hc => ?_
  refine Inv.bind readWideUnits_inv ?_
  rintro us _ ⟨rfl, h0⟩
  refine Inv.compute fun n' hn' => Inv.check fun hc' => Inv.compute fun m hm => Inv.check fun hcm => ?_
  refine (Inv.pure _).mono ?_
  rintro _ _ ⟨rfl, rfl⟩
  simp only [beq_iff_eq] at hc hc' hcm
  refine ⟨h0, ?_, m, hm, ?_⟩
  · unfold Path.enc
    rw [hm, Res.ok_bind, hcm, UInt32.ofNat_toNat, List.append_nil]
  · rw [hcm, hc]; exact Header.contentSize_eq.1 hn

end Rekordcrate.Anlz
