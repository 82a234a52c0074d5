import Verif.Lemmas.Edit
import Verif.Props.Rows

/-! # Helper lemmas about the room that edited rows need -/

namespace Rekordcrate

/-- Rows without offset array are written as one piece of known size. -/
theorem Row.packed_write {r : Row} {n : Nat} (hn : r.packedSize = some n) {p p' : Nat} {ps : List Patch}
    (h : r.write p = .ok ((), p', ps)) : ∃ bs, ps = [⟨p, bs⟩] ∧ bs.length = n := by
  have fin : ∀ {e : Res Bytes}, Wr.emitRes e p = .ok ((), p', ps) → (∀ bs, e = .ok bs → bs.length = n) →
      ∃ bs, ps = [⟨p, bs⟩] ∧ bs.length = n := by
    intro e he hl
    obtain ⟨bs, rfl, rfl, rfl⟩ := Wr.emitRes_eq_ok he
    exact ⟨bs, rfl, hl bs rfl⟩
  have one : ∀ {v : DString} {f : Bytes → Bytes} {k : Nat} {bs : Bytes},
      (v.enc >>= fun b => pure (f b) : Res Bytes) = .ok bs → (∀ b, (f b).length = k + b.length) →
      bs.length = k + v.size := by
    intro v f k bs h hf
    obtain ⟨b, h1, h2⟩ := Res.bind_eq_ok.1 h
    injection h2 with h2
    rw [← h2, hf, DString.length_of_enc h1]
  cases r with
  | unknown => cases hn
  | plain r =>
    cases r with
    | album r => cases hn
    | artist r => cases hn
    | track r => cases hn
    | historyEntry r => injection hn with hn; exact fin h fun bs hb => by injection hb with hb; subst hb hn; rfl
    | playlistEntry r => injection hn with hn; exact fin h fun bs hb => by injection hb with hb; subst hb hn; rfl
    | menu r => injection hn with hn; exact fin h fun bs hb => by injection hb with hb; subst hb hn; rfl
    | history r =>
      injection hn with hn
      refine fin h fun bs hb => ?_
      unfold History.enc at hb
      obtain ⟨b1, e1, hb⟩ := Res.bind_eq_ok.1 hb
      obtain ⟨b2, e2, hb⟩ := Res.bind_eq_ok.1 hb
      obtain ⟨b3, e3, hb⟩ := Res.bind_eq_ok.1 hb
      injection hb with hb
      have l1 := DString.length_of_enc e1
      have l2 := DString.length_of_enc e2
      have l3 := DString.length_of_enc e3
      subst hb hn
      simp only [List.length_append, encU16_length, encU32_length]
      omega
    | _ r =>
      injection hn with hn
      refine fin h fun bs hb => ?_
      subst hn
      refine one hb fun b => ?_
      simp only [List.length_append, encU8_length, encU16_length, encU32_length, ColorIndex.enc_length]
      try omega
  | ext r =>
    cases r with
    | tag r => cases hn
    | trackTag r => injection hn with hn; exact fin h fun bs hb => by injection hb with hb; subst hb hn; rfl

theorem Row.packed_extent {r : Row} {n : Nat} (h : r.packedSize = some n) : r.Extent n := by
  intro p p' ps hw
  obtain ⟨bs, rfl, hl⟩ := Row.packed_write h hw
  intro q hq
  rw [List.mem_singleton] at hq
  subst hq
  exact ⟨Nat.le_refl _, by simp only; omega⟩

theorem Row.packed_coherent {r : Row} {n : Nat} (h : r.packedSize = some n) : r.Coherent := by
  intro p p' ps hw
  obtain ⟨bs, rfl, -⟩ := Row.packed_write h hw
  exact Compatible.singleton _

theorem Row.packed_offsets {r : Row} {n : Nat} (h : r.packedSize = some n) : r.OffsetsFit := by
  cases r with
  | unknown => cases h
  | plain r => cases r <;> first | trivial | cases h
  | ext r => cases r <;> first | trivial | cases h

namespace OffsetContainer

variable {T : Type} [OffsetItems T] [LawfulItems T]

omit [OffsetItems T] [LawfulItems T] in
theorem givenOffsets_eq {c : OffsetContainer T} {a : OffsetArray} (h : c.offsets = some a) :
    c.givenOffsets = a.seeks := by
  unfold givenOffsets
  rw [h]
  cases a <;> rfl

theorem crow_provided {hd : Bytes} {N : Nat} {size : OffsetSize} {c : OffsetContainer T} {a : OffsetArray}
    (hlen : hd.length = N) (hw : c.WellTyped) (hc : c.offsets = some a) {p p' : Nat} {ps : List Patch}
    (h : (do Wr.emit hd; c.write N size : Wr Unit) p = .ok ((), p', ps)) :
    a.enc.length = (OffsetItems.count T + 1) * size.bytes ∧
      (∀ v ∈ OffsetItems.asItems c.inner, ∃ bs, v.enc = .ok bs) ∧
      ps = ⟨p, hd⟩ :: ⟨p + N, a.enc⟩ :: providedPatches p (OffsetItems.asItems c.inner) a.seeks := by
  obtain ⟨ps', h', rfl⟩ := crow_write_eq_ok hlen h
  have hn := hw a hc
  obtain ⟨ho, hs, he⟩ := write_provided_eq_ok hc (by rw [LawfulItems.length_asItems, hn]; exact Nat.le_refl _) h'
  rw [write_provided hc ho hs he, Nat.add_sub_cancel] at h'
  simp only [Res.ok.injEq, Prod.mk.injEq, true_and] at h'
  refine ⟨?_, he, by rw [h'.2]⟩
  rw [OffsetArray.enc_length hs, hn]

theorem mem_providedPatches {base : Nat} {vs : List DString} {os : List Nat} {q : Patch}
    (h : q ∈ providedPatches base vs os) : ∃ x ∈ vs.zip os, q = ⟨base + x.2, x.1.encBytes⟩ := by
  unfold providedPatches at h
  obtain ⟨x, h1, h2⟩ := List.mem_map.1 h
  exact ⟨x, h1, h2.symm⟩

theorem encBytes_length {v : DString} (h : ∃ bs, v.enc = .ok bs) : v.encBytes.length = v.size := by
  obtain ⟨bs, h⟩ := h
  rw [DString.encBytes_of_ok h, DString.length_of_enc h]

/-- Shorter strings at the same offsets. -/
theorem zip_mem_left {vs vs' : List DString} {os : List Nat}
    (h : Pointwise (fun v v' : DString => v'.size ≤ v.size) vs vs') {x : DString × Nat} (hx : x ∈ vs'.zip os) :
    ∃ v, (v, x.2) ∈ vs.zip os ∧ x.1.size ≤ v.size := by
  induction h generalizing os with
  | nil => simp at hx
  | @cons v v' vs vs' hv _ ih =>
    cases os with
    | nil => simp at hx
    | cons o os =>
      rw [List.zip_cons_cons] at hx
      rcases List.mem_cons.1 hx with rfl | hx
      · exact ⟨v, List.mem_cons_self .., hv⟩
      · obtain ⟨w, h1, h2⟩ := ih hx
        exact ⟨w, List.mem_cons_of_mem _ h1, h2⟩

theorem zip_pairwise {vs vs' : List DString} {os : List Nat}
    (h : Pointwise (fun v v' : DString => v'.size ≤ v.size) vs vs')
    (hp : (vs.zip os).Pairwise fun x y => DisjointRanges x.2 x.1.size y.2 y.1.size) :
    (vs'.zip os).Pairwise fun x y => DisjointRanges x.2 x.1.size y.2 y.1.size := by
  induction h generalizing os with
  | nil => exact List.Pairwise.nil
  | @cons v v' vs vs' hv ht ih =>
    cases os with
    | nil => exact List.Pairwise.nil
    | cons o os =>
      rw [List.zip_cons_cons, List.pairwise_cons] at hp ⊢
      refine ⟨fun y hy => ?_, ih hp.2⟩
      obtain ⟨w, h1, h2⟩ := zip_mem_left ht hy
      have := hp.1 _ h1
      unfold DisjointRanges at this ⊢
      simp only at this ⊢
      omega

omit [LawfulItems T] in
theorem Separate.noLonger {N : Nat} {size : OffsetSize} {c c' : OffsetContainer T} (h : c.Separate N size)
    (hn : c.NoLonger c') : c'.Separate N size := by
  obtain ⟨⟨h1, h2⟩, h3⟩ := h
  obtain ⟨h4, h5⟩ := hn
  have : c'.givenOffsets = c.givenOffsets := by unfold givenOffsets; rw [h4]
  refine ⟨⟨by rw [h4]; exact h1, by rw [this]; exact h2⟩, ?_⟩
  rw [this]
  exact zip_pairwise h5 h3

/-- The writes of a row with strings that are not longer stay in the range of the old ones. -/
theorem crow_room {hd hd' : Bytes} {N : Nat} {size : OffsetSize} {c c' : OffsetContainer T}
    (hlen : hd.length = N) (hlen' : hd'.length = N) (hw : c.WellTyped) (hc : c.offsets ≠ none)
    (hn : c.NoLonger c') {p q q' : Nat} {ps ps' : List Patch}
    (h : (do Wr.emit hd; c.write N size : Wr Unit) p = .ok ((), q, ps))
    (h' : (do Wr.emit hd'; c'.write N size : Wr Unit) p = .ok ((), q', ps')) {lo hi : Nat}
    (hin : PatchesWithin ps lo hi) : PatchesWithin ps' lo hi := by
  cases ha : c.offsets with
  | none => exact absurd ha hc
  | some a =>
    obtain ⟨e1, e2, rfl⟩ := crow_provided hlen hw ha h
    obtain ⟨f1, f2, rfl⟩ := crow_provided hlen' (by intro b hb; rw [hn.1] at hb; exact hw b hb)
      (hn.1.trans ha) h'
    intro x hx
    rcases List.mem_cons.1 hx with rfl | hx
    · have := hin _ (List.mem_cons_self ..)
      simp only at this ⊢
      omega
    · rcases List.mem_cons.1 hx with rfl | hx
      · exact hin _ (List.mem_cons_of_mem _ (List.mem_cons_self ..))
      · obtain ⟨y, hy, rfl⟩ := mem_providedPatches hx
        obtain ⟨v, h1, h2⟩ := zip_mem_left hn.2 hy
        have := hin ⟨p + y.2, v.encBytes⟩ (List.mem_cons_of_mem _ (List.mem_cons_of_mem _
          (List.mem_map.2 ⟨_, h1, rfl⟩)))
        rw [encBytes_length (e2 v (List.of_mem_zip h1).1)] at this
        rw [encBytes_length (f2 y.1 (List.of_mem_zip hy).1)]
        simp only at this ⊢
        omega

theorem crow_separate {hd : Bytes} {N : Nat} {size : OffsetSize} {c : OffsetContainer T}
    (hlen : hd.length = N) (hw : c.WellTyped) (hs : c.Separate N size) {p q : Nat} {ps : List Patch}
    (h : (do Wr.emit hd; c.write N size : Wr Unit) p = .ok ((), q, ps)) : Compatible ps := by
  cases ha : c.offsets with
  | none => exact absurd ha hs.1.1
  | some a =>
    obtain ⟨e1, e2, rfl⟩ := crow_provided hlen hw ha h
    obtain ⟨⟨-, h2⟩, h3⟩ := hs
    rw [givenOffsets_eq ha] at h2 h3
    apply PatchesDisjoint.compatible
    unfold PatchesDisjoint
    have hoff : ∀ x ∈ providedPatches p (OffsetItems.asItems c.inner) a.seeks, p + N + a.enc.length ≤ x.off := by
      intro x hx
      obtain ⟨y, hy, rfl⟩ := mem_providedPatches hx
      have := h2 y.2 (List.of_mem_zip hy).2
      simp only
      omega
    rw [List.pairwise_cons, List.pairwise_cons]
    refine ⟨fun x hx => ?_, fun x hx => ?_, ?_⟩
    · rcases List.mem_cons.1 hx with rfl | hx
      · exact .inl (by simp only; omega)
      · have := hoff x hx
        exact .inl (by simp only; omega)
    · have := hoff x hx
      exact .inl (by simp only; omega)
    · unfold providedPatches
      rw [List.pairwise_map]
      refine List.Pairwise.imp_of_mem (fun {x y} hx hy hxy => ?_) h3
      unfold DisjointRanges at hxy ⊢
      rw [encBytes_length (e2 x.1 (List.of_mem_zip hx).1), encBytes_length (e2 y.1 (List.of_mem_zip hy).1)]
      simp only at hxy ⊢
      omega

theorem crow_head_coherent {hd hd' : Bytes} {N : Nat} {size : OffsetSize} {c : OffsetContainer T}
    (hlen : hd.length = N) (hlen' : hd'.length = N) (hw : c.WellTyped) (hb : c.Behind N) {p q q' : Nat}
    {ps ps' : List Patch} (h : (do Wr.emit hd; c.write N size : Wr Unit) p = .ok ((), q, ps))
    (h' : (do Wr.emit hd'; c.write N size : Wr Unit) p = .ok ((), q', ps')) (hc : Compatible ps) :
    Compatible ps' := by
  cases ha : c.offsets with
  | none => exact absurd ha hb.1
  | some a =>
    obtain ⟨-, -, rfl⟩ := crow_provided hlen hw ha h
    obtain ⟨-, -, rfl⟩ := crow_provided hlen' hw ha h'
    obtain ⟨img, hc⟩ := hc
    have hrest : Compatible (⟨p + N, a.enc⟩ :: providedPatches p (OffsetItems.asItems c.inner) a.seeks) :=
      ⟨img, fun x hx => hc x (List.mem_cons_of_mem _ hx)⟩
    refine (Compatible.singleton ⟨p, hd'⟩).append hrest fun x hx y hy => ?_
    rw [List.mem_singleton] at hx
    subst hx
    refine .inl ?_
    simp only
    rcases List.mem_cons.1 hy with rfl | hy
    · simp only
      omega
    · obtain ⟨z, hz, rfl⟩ := mem_providedPatches hy
      have := hb.2 z.2 (by rw [givenOffsets_eq ha]; exact (List.of_mem_zip hz).2)
      simp only
      omega

theorem crow_extent {hd : Bytes} {N : Nat} {size : OffsetSize} {c : OffsetContainer T}
    (hlen : hd.length = N) (hw : c.WellTyped) (hc : c.offsets ≠ none) {n : Nat}
    (hN : N + (OffsetItems.count T + 1) * size.bytes ≤ n)
    (hs : ∀ x ∈ (OffsetItems.asItems c.inner).zip c.givenOffsets, x.2 + x.1.size ≤ n) {p q : Nat} {ps : List Patch}
    (h : (do Wr.emit hd; c.write N size : Wr Unit) p = .ok ((), q, ps)) : PatchesWithin ps p (p + n) := by
  cases ha : c.offsets with
  | none => exact absurd ha hc
  | some a =>
    obtain ⟨e1, e2, rfl⟩ := crow_provided hlen hw ha h
    rw [givenOffsets_eq ha] at hs
    intro x hx
    rcases List.mem_cons.1 hx with rfl | hx
    · exact ⟨Nat.le_refl _, by simp only; omega⟩
    · rcases List.mem_cons.1 hx with rfl | hx
      · exact ⟨by simp only; omega, by simp only; omega⟩
      · obtain ⟨y, hy, rfl⟩ := mem_providedPatches hx
        have := hs y hy
        refine ⟨by simp only; omega, ?_⟩
        rw [encBytes_length (e2 y.1 (List.of_mem_zip hy).1)]
        simp only
        omega

omit [LawfulItems T] in
theorem NoLonger.refl (c : OffsetContainer T) : c.NoLonger c := by
  refine ⟨rfl, ?_⟩
  generalize OffsetItems.asItems c.inner = l
  induction l with
  | nil => exact .nil
  | cons v l ih => exact .cons (Nat.le_refl _) ih

end OffsetContainer

end Rekordcrate
