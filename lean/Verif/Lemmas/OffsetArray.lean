import Verif.Spec.OffsetArray
import Verif.Lemmas.DString
import Verif.Lemmas.Layout

/-! # Lemmas about offset arrays -/

namespace Rekordcrate
open Rd

theorem DString.alignment_eq (v : DString) : v.alignment = v.docAlign := by
  unfold DString.alignment DString.docAlign
  rfl

theorem DString.docAlign_pos (v : DString) : 0 < v.docAlign := by
  unfold DString.docAlign; split <;> omega

namespace OffsetContainer

theorem alignedOffset_spec (o a : Nat) (ha : 0 < a) :
    o ≤ alignedOffset o a ∧ alignedOffset o a < o + a ∧ a ∣ alignedOffset o a := by
  unfold alignedOffset
  have hm : max a 1 = a := by omega
  simp only [hm]
  have hlt := Nat.mod_lt o ha
  split
  · exact ⟨Nat.le_refl _, by omega, Nat.dvd_of_mod_eq_zero (by assumption)⟩
  · refine ⟨by omega, by omega, ?_⟩
    refine ⟨o / a + 1, ?_⟩
    have := Nat.div_add_mod o a
    rw [Nat.mul_add]; omega

theorem aligned_unique {pos o o' a : Nat} (h1 : pos ≤ o) (h2 : o < pos + a) (h3 : a ∣ o)
    (h1' : pos ≤ o') (h2' : o' < pos + a) (h3' : a ∣ o') : o = o' := by
  obtain ⟨k, rfl⟩ := h3
  obtain ⟨k', rfl⟩ := h3'
  have : k = k' := by
    rcases Nat.lt_trichotomy k k' with h | h | h
    · have := Nat.mul_le_mul_left a (show k + 1 ≤ k' from h)
      rw [Nat.mul_add] at this; omega
    · exact h
    · have := Nat.mul_le_mul_left a (show k' + 1 ≤ k from h)
      rw [Nat.mul_add] at this; omega
  rw [this]

end OffsetContainer

theorem Placed.unique {pos : Nat} {vs : List DString} {os os' : List Nat} {e e' : Nat}
    (h : Placed pos vs os e) (h' : Placed pos vs os' e') : os = os' ∧ e = e' := by
  induction h generalizing os' e' with
  | nil => cases h'; exact ⟨rfl, rfl⟩
  | cons hle hlt hd he _ ih =>
    cases h' with
    | cons hle' hlt' hd' he' hr' =>
      have := OffsetContainer.aligned_unique hle hlt hd hle' hlt' hd'
      subst this
      rw [he] at he'; injection he' with he'; subst he'
      obtain ⟨h1, h2⟩ := ih hr'
      exact ⟨by rw [h1], h2⟩

theorem Placed.exists {vs : List DString} (h : ∀ v ∈ vs, ∃ bs, v.enc = .ok bs) (pos : Nat) :
    ∃ os e, Placed pos vs os e := by
  induction vs generalizing pos with
  | nil => exact ⟨[], pos, .nil pos⟩
  | cons v vs ih =>
    obtain ⟨bs, hb⟩ := h v (by simp)
    obtain ⟨h1, h2, h3⟩ := OffsetContainer.alignedOffset_spec pos v.docAlign v.docAlign_pos
    obtain ⟨os, e, hp⟩ := ih (fun v hv => h v (by simp [hv]))
      (OffsetContainer.alignedOffset pos v.docAlign + bs.length)
    exact ⟨_, _, .cons h1 h2 h3 hb hp⟩

theorem Placed.length {pos : Nat} {vs : List DString} {os : List Nat} {e : Nat}
    (h : Placed pos vs os e) : os.length = vs.length := by
  induction h with
  | nil => rfl
  | cons _ _ _ _ _ ih => simp [ih]

theorem Placed.le {pos : Nat} {vs : List DString} {os : List Nat} {e : Nat}
    (h : Placed pos vs os e) : pos ≤ e := by
  induction h with
  | nil => exact Nat.le_refl _
  | cons hle _ _ _ _ ih => omega

/-- Every item lies between the start and the end. -/
theorem Placed.bounds {pos : Nat} {vs : List DString} {os : List Nat} {e : Nat}
    (h : Placed pos vs os e) {i : Nat} {v : DString} {o : Nat} {bs : Bytes} (hv : vs[i]? = some v)
    (ho : os[i]? = some o) (hb : v.enc = .ok bs) :
    pos ≤ o ∧ o + bs.length ≤ e ∧ v.docAlign ∣ o := by
  induction h generalizing i with
  | nil => simp at hv
  | cons hle hlt hd henc hr ih =>
    cases i with
    | zero =>
      simp at hv ho; subst hv ho
      rw [henc] at hb; injection hb with hb; subst hb
      exact ⟨hle, hr.le, hd⟩
    | succ i =>
      obtain ⟨h1, h2, h3⟩ := ih (by simpa using hv) (by simpa using ho)
      exact ⟨by omega, h2, h3⟩

theorem Placed.le_offset {pos : Nat} {vs : List DString} {os : List Nat} {e : Nat}
    (h : Placed pos vs os e) {j o' : Nat} (hj : os[j]? = some o') : pos ≤ o' := by
  induction h generalizing j with
  | nil => simp at hj
  | cons hle _ _ _ _ ih =>
    cases j with
    | zero => simp at hj; omega
    | succ j => have := ih (j := j) (by simpa using hj); omega

/-- Items do not overlap and keep their order. -/
theorem Placed.ordered {pos : Nat} {vs : List DString} {os : List Nat} {e : Nat}
    (h : Placed pos vs os e) {i j : Nat} (hij : i < j) {v : DString} {o o' : Nat} {bs : Bytes}
    (hv : vs[i]? = some v) (ho : os[i]? = some o) (ho' : os[j]? = some o') (hb : v.enc = .ok bs) :
    o + bs.length ≤ o' := by
  induction h generalizing i j with
  | nil => simp at hv
  | @cons pos o1 e v1 vs os bs1 hle hlt hd henc hr ih =>
    cases j with
    | zero => omega
    | succ j =>
      cases i with
      | zero =>
        simp at hv ho; subst hv ho
        rw [henc] at hb; injection hb with hb; subst hb
        have ho'' : os[j]? = some o' := by simpa using ho'
        exact hr.le_offset ho''
      | succ i => exact ih (i := i) (j := j) (by omega) (by simpa using hv) (by simpa using ho) (by simpa using ho')

/-- The writes of the item loop: zero padding and the item, for every item. -/
def itemPatches (base : Nat) : Nat → List DString → List Nat → List Patch
  | pos, v :: vs, o :: os =>
    match v.enc with
    | .ok bs => [⟨base + pos, List.replicate (o - pos) 0⟩, ⟨base + o, bs⟩]
        ++ itemPatches base (o + bs.length) vs os
    | _ => []
  | _, _, _ => []

theorem Wr.bind_of_err {α β : Type} {m : Wr α} {f : α → Wr β} {p p' : Nat} {a : α} {e : Err}
    {ps : List Patch} (h : m p = .ok (a, p', ps)) (h' : f a p' = .err e) :
    (m >>= f) p = .err e := by
  show (match m p with
    | .ok (a, p', ps) =>
      match f a p' with
      | .ok (b, p'', ps') => Res.ok (b, p'', ps ++ ps')
      | .err e => .err e
      | .panic => .panic
    | .err e => .err e
    | .panic => .panic) = _
  rw [h]; simp only; rw [h']

theorem Wr.emitRes_ok {r : Res Bytes} {bs : Bytes} (h : r = .ok bs) (p : Nat) :
    Wr.emitRes r p = .ok ((), p + bs.length, [⟨p, bs⟩]) := by
  subst h; rfl

theorem Wr.emitRes_eq_ok {r : Res Bytes} {p p' : Nat} {ps : List Patch}
    (h : Wr.emitRes r p = .ok ((), p', ps)) :
    ∃ bs, r = .ok bs ∧ p' = p + bs.length ∧ ps = [⟨p, bs⟩] := by
  cases r with
  | ok bs =>
    simp only [Wr.emitRes_ok rfl, Res.ok.injEq, Prod.mk.injEq, true_and] at h
    exact ⟨bs, rfl, h.1.symm, h.2.symm⟩
  | err e => cases h
  | panic => cases h

namespace OffsetContainer

theorem writeItems_of_placed {base pos : Nat} {vs : List DString} {os : List Nat} {e : Nat}
    (h : Placed pos vs os e) :
    writeItems base vs (base + pos) = .ok (os, base + e, itemPatches base pos vs os) := by
  induction h with
  | nil pos => rfl
  | @cons pos o e v vs os bs hle hlt hd henc hr ih =>
    obtain ⟨h1, h2, h3⟩ := alignedOffset_spec pos v.docAlign v.docAlign_pos
    have ho := aligned_unique h1 h2 h3 hle hlt hd
    have hps : itemPatches base pos (v :: vs) (o :: os) =
        [] ++ ([⟨base + pos, List.replicate (o - pos) 0⟩] ++ ([⟨base + o, bs⟩] ++
          (itemPatches base (o + bs.length) vs os ++ []))) := by
      simp [itemPatches, henc]
    rw [hps]
    unfold writeItems
    refine Wr.bind_of_ok (m := Wr.pos) rfl ?_
    have hsub : base + pos - base = pos := by omega
    simp only [hsub, DString.alignment_eq, ho]
    have hpp : base + pos + (List.replicate (o - pos) (0 : UInt8)).length = base + o := by
      simp; omega
    refine Wr.bind_of_ok (m := Wr.emit _) (ps1 := [⟨base + pos, List.replicate (o - pos) 0⟩]) rfl ?_
    rw [hpp]
    refine Wr.bind_of_ok (Wr.emitRes_ok henc _) ?_
    rw [Nat.add_assoc]
    exact Wr.bind_of_ok ih rfl

theorem writeItems_eq_ok {base pos : Nat} {vs : List DString} {os : List Nat} {p' : Nat}
    {ps : List Patch} (h : writeItems base vs (base + pos) = .ok (os, p', ps)) :
    ∃ e, Placed pos vs os e ∧ p' = base + e ∧ ps = itemPatches base pos vs os := by
  have henc : ∀ v ∈ vs, ∃ bs, v.enc = .ok bs := by
    generalize base + pos = q at h
    clear pos
    induction vs generalizing os p' ps q with
    | nil => intro v hv; simp at hv
    | cons v vs ih =>
      unfold writeItems at h
      rw [Wr.bind_eq_ok] at h
      obtain ⟨cur, q1, ps1, ps1', h1, h, -⟩ := h
      rw [Wr.bind_eq_ok] at h
      obtain ⟨_, q2, ps2, ps2', h2, h, -⟩ := h
      rw [Wr.bind_eq_ok] at h
      obtain ⟨_, q3, ps3, ps3', h3, h, -⟩ := h
      rw [Wr.bind_eq_ok] at h
      obtain ⟨os', q4, ps4, ps4', h4, -, -⟩ := h
      obtain ⟨bs, hb, -, -⟩ := Wr.emitRes_eq_ok h3
      intro w hw
      rcases List.mem_cons.1 hw with rfl | hw
      · exact ⟨bs, hb⟩
      · exact ih _ h4 w hw
  obtain ⟨os', e, hp⟩ := Placed.exists henc pos
  rw [writeItems_of_placed hp] at h
  simp only [Res.ok.injEq, Prod.mk.injEq] at h
  obtain ⟨rfl, rfl, rfl⟩ := h
  exact ⟨e, hp, rfl, rfl⟩

end OffsetContainer

/-- The bytes an encodable string is written as. -/
def DString.encBytes (v : DString) : Bytes :=
  match v.enc with
  | .ok bs => bs
  | _ => []

theorem DString.encBytes_of_ok {v : DString} {bs : Bytes} (h : v.enc = .ok bs) : v.encBytes = bs := by
  simp [DString.encBytes, h]

/-! ## The array of offsets -/

namespace OffsetArray

theorem new_ok {os : List Nat} {size : OffsetSize} (h : ∀ o ∈ os, o < size.limit) :
    new os size = .ok (ofNats os size) := by
  cases size <;> simp only [new, ofNats, OffsetSize.limit] at * <;> rw [if_pos (by simpa using h)]

theorem new_err {os : List Nat} {size : OffsetSize} (h : ∃ o ∈ os, size.limit ≤ o) :
    new os size = .err .assertFail := by
  obtain ⟨o, ho, hl⟩ := h
  cases size <;> simp only [new, OffsetSize.limit] at * <;>
    rw [if_neg (by simp; exact ⟨o, ho, hl⟩)]

theorem new_eq_ok {os : List Nat} {size : OffsetSize} {a : OffsetArray} (h : new os size = .ok a) :
    (∀ o ∈ os, o < size.limit) ∧ a = ofNats os size := by
  by_cases hl : ∀ o ∈ os, o < size.limit
  · rw [new_ok hl] at h; injection h with h; exact ⟨hl, h.symm⟩
  · rw [new_err (by simpa using hl)] at h; cases h

theorem ofNats_sizeMatches (os : List Nat) (size : OffsetSize) :
    (ofNats os size).sizeMatches size = true := by
  cases size <;> rfl

theorem ofNats_length (os : List Nat) (size : OffsetSize) : (ofNats os size).length = os.length := by
  cases size <;> simp [ofNats, OffsetArray.length]

theorem ofNats_seeks {os : List Nat} {size : OffsetSize} (h : ∀ o ∈ os, o < size.limit) :
    (ofNats os size).seeks = os := by
  cases size with
  | u8 =>
    simp only [ofNats, seeks, List.map_map]
    refine (List.map_congr_left (g := id) ?_).trans (List.map_id _)
    intro o ho
    have := h o ho
    simp only [OffsetSize.limit] at this
    simp only [Function.comp, id, UInt8.toNat_ofNat']
    omega
  | u16 =>
    simp only [ofNats, seeks, List.map_map]
    refine (List.map_congr_left (g := id) ?_).trans (List.map_id _)
    intro o ho
    have := h o ho
    simp only [OffsetSize.limit] at this
    simp only [Function.comp, id, UInt16.toNat_ofNat']
    omega

@[simp] theorem seeks_length (a : OffsetArray) : a.seeks.length = a.length := by
  cases a <;> simp [seeks, OffsetArray.length]

theorem enc_length {a : OffsetArray} {size : OffsetSize} (h : a.sizeMatches size = true) :
    a.enc.length = (a.length + 1) * size.bytes := by
  cases a <;> cases size <;> simp [sizeMatches] at h
  · simp only [enc, OffsetArray.length, OffsetSize.bytes]
    rename_i os
    have : (os.flatMap encU8).length = os.length := by
      induction os with
      | nil => rfl
      | cons o os ih => simp [ih]; omega
    simp [this]
  · simp only [enc, OffsetArray.length, OffsetSize.bytes]
    simp only [List.length_append, encU16_length, flatMap_encU16_length]; omega

theorem read_rt {a : OffsetArray} {size : OffsetSize} {n : Nat} (h : a.sizeMatches size = true)
    (hn : a.length = n) : RT (read n size) a.enc a := by
  cases a <;> cases size <;> simp [sizeMatches] at h
  · unfold read
    apply RT.orElse_left
    rw [require_true_bind (by rfl)]
    exact RT.bind (RT.magic _) (RT.bind_pure (f := OffsetArray.u8) (RT.many' hn fun x _ => RT.u8 x))
  · unfold read
    apply RT.orElse_right
    · intro d p _
      exact ⟨_, require_false_err (by rfl) _ _ _⟩
    rw [require_true_bind (by rfl)]
    exact RT.bind (RT.magic _) (RT.bind_pure (f := OffsetArray.u16) (RT.many' hn fun x _ => RT.u16 x))

theorem read_inv (n : Nat) (size : OffsetSize) :
    Inv (read n size) (fun a bs => bs = a.enc ∧ a.sizeMatches size = true ∧ a.length = n) := by
  unfold read
  refine Inv.orElse ?_ ?_
  · refine Inv.bind (Inv.require _ _) ?_
    rintro _ _ ⟨hs, rfl⟩
    refine Inv.bind (Inv.magic _) ?_
    rintro _ _ rfl
    refine (Inv.bind_pure (Inv.many Inv.u8 encU8 (fun _ _ h => h) n)).mono ?_
    rintro _ _ ⟨os, rfl, rfl, hl⟩
    cases size <;> simp at hs
    exact ⟨by simp [enc], rfl, hl⟩
  · refine Inv.bind (Inv.require _ _) ?_
    rintro _ _ ⟨hs, rfl⟩
    refine Inv.bind (Inv.magic _) ?_
    rintro _ _ rfl
    refine (Inv.bind_pure (Inv.many Inv.u16 encU16 (fun _ _ h => h) n)).mono ?_
    rintro _ _ ⟨os, rfl, rfl, hl⟩
    cases size <;> simp at hs
    exact ⟨by simp [enc], rfl, hl⟩

theorem read_np (n : Nat) (size : OffsetSize) : NP (read n size) :=
  NP.orElse (NP.bind (NP.require _ _) fun _ => NP.bind (NP.magic _) fun _ =>
      NP.bind (NP.many NP.u8 _) fun _ => NP.pure _)
    (NP.bind (NP.require _ _) fun _ => NP.bind (NP.magic _) fun _ =>
      NP.bind (NP.many NP.u16 _) fun _ => NP.pure _)

end OffsetArray

namespace OffsetContainer

variable {T : Type} [OffsetItems T]

theorem calculateBase_ok {start offset : Nat} (h : offset ≤ start) :
    calculateBase start offset = .ok (start - offset) := by simp [calculateBase, h]

theorem calculateBase_err {start offset : Nat} (h : start < offset) :
    calculateBase start offset = .err .assertFail := by simp [calculateBase]; omega

/-! ## Reading -/

theorem readItems_ok {d : Bytes} {base : Nat} {os : List Nat} {vs : List DString}
    (hl : os.length = vs.length)
    (h : ∀ (i : Nat) v o, vs[i]? = some v → os[i]? = some o →
      ∃ p', DString.read d (base + o) = .ok (v, p')) :
    readItems d base base os = .ok vs := by
  induction os generalizing vs with
  | nil => cases vs <;> simp at hl; rfl
  | cons o os ih =>
    cases vs with
    | nil => simp at hl
    | cons v vs =>
      obtain ⟨p', hp⟩ := h 0 v o (by simp) (by simp)
      unfold readItems
      rw [hp]
      simp only
      rw [ih (by simpa using hl) fun i v o hv ho => h (i + 1) v o (by simpa using hv) (by simpa using ho)]

theorem readItems_eq_ok {d : Bytes} {base cur : Nat} {os : List Nat} {vs : List DString}
    (hc : cur = base) (h : readItems d base cur os = .ok vs) :
    os.length = vs.length ∧ ∀ (i : Nat) v o, vs[i]? = some v → os[i]? = some o →
      ∃ p', DString.read d (base + o) = .ok (v, p') := by
  subst hc
  induction os generalizing vs with
  | nil => simp [readItems] at h; subst h; simp
  | cons o os ih =>
    unfold readItems at h
    split at h
    · rename_i v p' hv
      split at h <;> try cases h
      rename_i vs hvs
      obtain ⟨h1, h2⟩ := ih hvs
      refine ⟨by simp [h1], ?_⟩
      intro i w o' hw ho
      cases i with
      | zero => simp at hw ho; subst hw ho; exact ⟨p', hv⟩
      | succ i => exact h2 i w o' (by simpa using hw) (by simpa using ho)
    · split at h <;> cases h
    · cases h

theorem read_ok {offset start : Nat} {size : OffsetSize} {d : Bytes} {a : OffsetArray}
    {vs : List DString} (ho : offset ≤ start) (hs : a.sizeMatches size = true)
    (ha : a.length = OffsetItems.count T) (hd : HasAt d start a.enc)
    (hl : vs.length = OffsetItems.count T)
    (h : ∀ (i : Nat) v o, vs[i]? = some v → a.seeks[i]? = some o →
      ∃ p', DString.read d (start - offset + o) = .ok (v, p')) :
    (read offset size : Rd (OffsetContainer T)) d start =
      .ok ({ offsets := some a, inner := OffsetItems.fromItems vs }, start - offset) := by
  unfold read
  rw [bind_of_ok (m := Rd.pos) (a := start) (p' := start) rfl]
  rw [bind_of_ok (OffsetArray.read_rt hs ha d start hd)]
  rw [require_true_bind hs, calculateBase_ok ho, lift_ok]
  have hr := readItems_ok (d := d) (base := start - offset) (os := a.seeks) (vs := vs)
    (by simp [ha, hl]) h
  rw [bind_of_ok (m := (pure (start - offset) : Rd Nat)) rfl]
  rw [bind_of_ok (m := Rd.seekTo (start - offset)) (a := ()) (p' := start - offset) rfl]
  rw [bind_of_ok (a := vs) (p' := start - offset) (by simp only [readAll, hr])]
  rfl

theorem read_eq_ok {offset start : Nat} {size : OffsetSize} {d : Bytes} {c : OffsetContainer T}
    {p' : Nat} (h : (read offset size : Rd (OffsetContainer T)) d start = .ok (c, p')) :
    offset ≤ start ∧ p' = start - offset ∧ ∃ a vs, c = { offsets := some a, inner := OffsetItems.fromItems vs } ∧
      a.sizeMatches size = true ∧ a.length = OffsetItems.count T ∧ vs.length = OffsetItems.count T ∧
      HasAt d start a.enc ∧
      ∀ (i : Nat) v o, vs[i]? = some v → a.seeks[i]? = some o →
        ∃ p', DString.read d (start - offset + o) = .ok (v, p') := by
  unfold read at h
  obtain ⟨s, p1, h1, h⟩ := bind_eq_ok.1 h
  obtain ⟨a, p2, h2, h⟩ := bind_eq_ok.1 h
  obtain ⟨_, p3, h3, h⟩ := bind_eq_ok.1 h
  obtain ⟨base, p4, h4, h⟩ := bind_eq_ok.1 h
  obtain ⟨_, p5, h5, h⟩ := bind_eq_ok.1 h
  obtain ⟨vs, p6, h6, h⟩ := bind_eq_ok.1 h
  simp only [Rd.pos, Res.ok.injEq, Prod.mk.injEq] at h1
  obtain ⟨rfl, rfl⟩ := h1
  obtain ⟨bs, hb, rfl, rfl, hs, hn⟩ := OffsetArray.read_inv _ _ _ _ _ _ h2
  by_cases ho : offset ≤ start
  · rw [calculateBase_ok ho, lift_ok] at h4
    simp only [pure, Res.ok.injEq, Prod.mk.injEq] at h4
    obtain ⟨rfl, rfl⟩ := h4
    simp only [Rd.seekTo, Res.ok.injEq, Prod.mk.injEq, true_and] at h5
    subst h5
    unfold readAll at h6
    split at h6 <;> try cases h6
    rename_i hvs
    simp only [pure, Res.ok.injEq, Prod.mk.injEq] at h
    obtain ⟨rfl, rfl⟩ := h
    obtain ⟨hl, hr⟩ := readItems_eq_ok rfl hvs
    exact ⟨ho, rfl, a, _, rfl, hs, hn, by rw [← hl]; simp [hn], hb, hr⟩
  · rw [calculateBase_err (by omega)] at h4
    cases h4

theorem read_base_err {offset start : Nat} {size : OffsetSize} {d : Bytes} (h : start < offset) :
    ∃ e, (read offset size : Rd (OffsetContainer T)) d start = .err e := by
  unfold read
  rw [bind_of_ok (m := Rd.pos) (a := start) (p' := start) rfl]
  show ∃ e, (_ >>= _ : Rd _) _ _ = _
  cases hr : OffsetArray.read (OffsetItems.count T) size d start with
  | panic => exact absurd hr (OffsetArray.read_np _ _ _ _)
  | err e => exact ⟨e, bind_of_err hr⟩
  | ok x =>
    obtain ⟨a, p1⟩ := x
    rw [bind_of_ok hr]
    obtain ⟨bs, hb, rfl, rfl, hs, hn⟩ := OffsetArray.read_inv _ _ _ _ _ _ hr
    rw [require_true_bind hs, calculateBase_err h]
    exact ⟨_, rfl⟩

/-! ## Writing -/

/-- The writes of the items at provided offsets. -/
def providedPatches (base : Nat) (vs : List DString) (os : List Nat) : List Patch :=
  (vs.zip os).map fun x => ⟨base + x.2, x.1.encBytes⟩

theorem writeProvided_ok {base : Nat} {vs : List DString} {os : List Nat}
    (h : ∀ v ∈ vs, ∃ bs, v.enc = .ok bs) :
    writeProvided base (vs.zip os) base = .ok ((), base, providedPatches base vs os) := by
  induction vs generalizing os with
  | nil => rfl
  | cons v vs ih =>
    cases os with
    | nil => rfl
    | cons o os =>
      obtain ⟨bs, hb⟩ := h v (by simp)
      have hps : providedPatches base (v :: vs) (o :: os) =
          [] ++ ([⟨base + o, bs⟩] ++ ([] ++ providedPatches base vs os)) := by
        simp [providedPatches, DString.encBytes_of_ok hb]
      rw [hps, List.zip_cons_cons]
      unfold writeProvided
      refine Wr.bind_of_ok (m := Wr.seekBy o) (p1 := base + o) (a := ()) ?_ ?_
      · unfold Wr.seekBy
        rw [if_pos (by omega)]
        rw [show ((base : Int) + (o : Int)).toNat = base + o by omega]
      refine Wr.bind_of_ok (Wr.emitRes_ok hb _) ?_
      refine Wr.bind_of_ok (m := Wr.seekTo base) rfl ?_
      exact ih fun v hv => h v (by simp [hv])

theorem writeProvided_eq_ok {base : Nat} {vs : List DString} {os : List Nat} {cur p' : Nat}
    {ps : List Patch} (hl : vs.length ≤ os.length)
    (h : writeProvided base (vs.zip os) cur = .ok ((), p', ps)) :
    ∀ v ∈ vs, ∃ bs, v.enc = .ok bs := by
  induction vs generalizing os cur p' ps with
  | nil => intro v hv; simp at hv
  | cons v vs ih =>
    cases os with
    | nil => simp at hl
    | cons o os =>
      rw [List.zip_cons_cons] at h
      unfold writeProvided at h
      rw [Wr.bind_eq_ok] at h
      obtain ⟨_, q1, ps1, ps1', h1, h, -⟩ := h
      rw [Wr.bind_eq_ok] at h
      obtain ⟨_, q2, ps2, ps2', h2, h, -⟩ := h
      rw [Wr.bind_eq_ok] at h
      obtain ⟨_, q3, ps3, ps3', h3, h, -⟩ := h
      obtain ⟨bs, hb, -, -⟩ := Wr.emitRes_eq_ok h2
      intro w hw
      rcases List.mem_cons.1 hw with rfl | hw
      · exact ⟨bs, hb⟩
      · exact ih (by simpa using hl) h w hw

theorem write_base_err {offset start : Nat} {size : OffsetSize} (c : OffsetContainer T)
    (h : start < offset) : c.write offset size start = .err .assertFail := by
  unfold write
  refine Wr.bind_of_err (m := Wr.pos) rfl ?_
  rw [calculateBase_err h]
  rfl

theorem write_calculated {c : OffsetContainer T} {offset start : Nat} {size : OffsetSize}
    {os : List Nat} {e : Nat} (hc : c.offsets = none) (ho : offset ≤ start)
    (hp : Placed (offset + (OffsetItems.count T + 1) * size.bytes) (OffsetItems.asItems c.inner) os e)
    (hl : ∀ o ∈ os, o < size.limit) (hlen : os.length = OffsetItems.count T) :
    c.write offset size start = .ok ((), start + (OffsetItems.count T + 1) * size.bytes,
      itemPatches (start - offset) (offset + (OffsetItems.count T + 1) * size.bytes)
        (OffsetItems.asItems c.inner) os ++ [⟨start, (OffsetArray.ofNats os size).enc⟩]) := by
  have e1 : ∀ l : List Patch, ∀ x : Patch, l ++ [x] = [] ++ ([] ++ ([] ++ (l ++ ([] ++ ([] ++ [x]))))) := by simp
  rw [e1]
  unfold write
  refine Wr.bind_of_ok (m := Wr.pos) rfl ?_
  refine Wr.bind_of_ok (m := Wr.lift _) (a := start - offset) (p1 := start)
    (by rw [calculateBase_ok ho]; rfl) ?_
  simp only [hc]
  have hb : start + (OffsetItems.count T + 1) * size.bytes =
      start - offset + (offset + (OffsetItems.count T + 1) * size.bytes) := by omega
  refine Wr.bind_of_ok (m := Wr.seekBy _) (a := ())
    (p1 := start - offset + (offset + (OffsetItems.count T + 1) * size.bytes)) ?_ ?_
  · unfold Wr.seekBy
    rw [if_pos (by omega), ← hb]
    congr 3
  refine Wr.bind_of_ok (writeItems_of_placed hp) ?_
  refine Wr.bind_of_ok (m := Wr.lift _) (a := OffsetArray.ofNats os size)
    (p1 := start - offset + e) (by rw [OffsetArray.new_ok hl]; rfl) ?_
  refine Wr.bind_of_ok (m := Wr.seekTo start) rfl ?_
  unfold Wr.emit
  rw [OffsetArray.enc_length (OffsetArray.ofNats_sizeMatches os size), OffsetArray.ofNats_length, hlen]

theorem write_calculated_err {c : OffsetContainer T} {offset start : Nat} {size : OffsetSize}
    {os : List Nat} {e : Nat} (hc : c.offsets = none) (ho : offset ≤ start)
    (hp : Placed (offset + (OffsetItems.count T + 1) * size.bytes) (OffsetItems.asItems c.inner) os e)
    (hl : ∃ o ∈ os, size.limit ≤ o) :
    c.write offset size start = .err .assertFail := by
  unfold write
  refine Wr.bind_of_err (m := Wr.pos) rfl ?_
  refine Wr.bind_of_err (m := Wr.lift _) (a := start - offset) (p' := start)
    (by rw [calculateBase_ok ho]; rfl) ?_
  simp only [hc]
  have hb : start + (OffsetItems.count T + 1) * size.bytes =
      start - offset + (offset + (OffsetItems.count T + 1) * size.bytes) := by omega
  refine Wr.bind_of_err (m := Wr.seekBy _) (a := ()) (ps := [])
    (p' := start - offset + (offset + (OffsetItems.count T + 1) * size.bytes)) ?_ ?_
  · unfold Wr.seekBy
    rw [if_pos (by omega), ← hb]
    congr 3
  refine Wr.bind_of_err (writeItems_of_placed hp) ?_
  rw [OffsetArray.new_err hl]
  rfl

theorem write_calculated_eq_ok {c : OffsetContainer T} {offset start : Nat} {size : OffsetSize}
    {p' : Nat} {ps : List Patch} (hc : c.offsets = none)
    (h : c.write offset size start = .ok ((), p', ps)) :
    offset ≤ start ∧ ∃ os e,
      Placed (offset + (OffsetItems.count T + 1) * size.bytes) (OffsetItems.asItems c.inner) os e ∧
      ∀ o ∈ os, o < size.limit := by
  by_cases ho : offset ≤ start
  · refine ⟨ho, ?_⟩
    have h' := h
    unfold write at h
    rw [Wr.bind_eq_ok] at h
    obtain ⟨s, q1, ps1, ps1', h1, h, -⟩ := h
    rw [Wr.bind_eq_ok] at h
    obtain ⟨base, q2, ps2, ps2', h2, h, -⟩ := h
    simp only [hc] at h
    rw [Wr.bind_eq_ok] at h
    obtain ⟨_, q3, ps3, ps3', h3, h, -⟩ := h
    rw [Wr.bind_eq_ok] at h
    obtain ⟨os, q4, ps4, ps4', h4, h, -⟩ := h
    simp only [Wr.pos, Res.ok.injEq, Prod.mk.injEq] at h1
    obtain ⟨rfl, rfl, rfl⟩ := h1
    rw [calculateBase_ok ho] at h2
    simp only [Wr.lift, Res.ok.injEq, Prod.mk.injEq] at h2
    obtain ⟨rfl, rfl, rfl⟩ := h2
    have hb : start + (OffsetItems.count T + 1) * size.bytes =
      start - offset + (offset + (OffsetItems.count T + 1) * size.bytes) := by omega
    unfold Wr.seekBy at h3
    rw [if_pos (by omega)] at h3
    simp only [Res.ok.injEq, Prod.mk.injEq, true_and] at h3
    obtain ⟨rfl, rfl⟩ := h3
    rw [show ((start : Int) + (((OffsetItems.count T + 1) * size.bytes : Nat) : Int)).toNat =
      start + (OffsetItems.count T + 1) * size.bytes by omega, hb] at h4
    obtain ⟨e, hp, -, -⟩ := writeItems_eq_ok h4
    refine ⟨os, e, hp, ?_⟩
    apply Classical.byContradiction
    intro hn
    rw [write_calculated_err hc ho hp (by simpa using hn)] at h'
    cases h'
  · rw [write_base_err c (by omega)] at h; cases h

theorem write_provided {c : OffsetContainer T} {offset start : Nat} {size : OffsetSize}
    {a : OffsetArray} (hc : c.offsets = some a) (ho : offset ≤ start)
    (hs : a.sizeMatches size = true) (h : ∀ v ∈ OffsetItems.asItems c.inner, ∃ bs, v.enc = .ok bs) :
    c.write offset size start = .ok ((), start - offset,
      ⟨start, a.enc⟩ :: providedPatches (start - offset) (OffsetItems.asItems c.inner) a.seeks) := by
  have e1 : ∀ l : List Patch, ∀ x : Patch, x :: l = [] ++ ([] ++ ([] ++ ([x] ++ ([] ++ l)))) := by simp
  rw [e1]
  unfold write
  refine Wr.bind_of_ok (m := Wr.pos) rfl ?_
  refine Wr.bind_of_ok (m := Wr.lift _) (a := start - offset) (p1 := start)
    (by rw [calculateBase_ok ho]; rfl) ?_
  simp only [hc]
  refine Wr.bind_of_ok (m := Wr.lift _) (a := ()) (p1 := start) (by rw [if_pos hs]; rfl) ?_
  refine Wr.bind_of_ok (m := Wr.emit _) rfl ?_
  refine Wr.bind_of_ok (m := Wr.seekTo _) rfl ?_
  exact writeProvided_ok h

theorem write_provided_mismatch {c : OffsetContainer T} {offset start : Nat} {size : OffsetSize}
    {a : OffsetArray} (hc : c.offsets = some a) (hs : a.sizeMatches size = false) :
    c.write offset size start = .err .assertFail := by
  by_cases ho : offset ≤ start
  · unfold write
    refine Wr.bind_of_err (m := Wr.pos) rfl ?_
    refine Wr.bind_of_err (m := Wr.lift _) (a := start - offset) (p' := start)
      (by rw [calculateBase_ok ho]; rfl) ?_
    simp only [hc, hs]
    rfl
  · exact write_base_err c (by omega)

theorem write_provided_eq_ok {c : OffsetContainer T} {offset start : Nat} {size : OffsetSize}
    {p' : Nat} {ps : List Patch} {a : OffsetArray} (hc : c.offsets = some a)
    (hl : (OffsetItems.asItems c.inner).length ≤ a.length)
    (h : c.write offset size start = .ok ((), p', ps)) :
    offset ≤ start ∧ a.sizeMatches size = true ∧
      ∀ v ∈ OffsetItems.asItems c.inner, ∃ bs, v.enc = .ok bs := by
  by_cases ho : offset ≤ start
  · cases hs : a.sizeMatches size with
    | false => rw [write_provided_mismatch hc hs] at h; cases h
    | true =>
      refine ⟨ho, rfl, ?_⟩
      unfold write at h
      rw [Wr.bind_eq_ok] at h
      obtain ⟨s, q1, ps1, ps1', h1, h, -⟩ := h
      rw [Wr.bind_eq_ok] at h
      obtain ⟨base, q2, ps2, ps2', h2, h, -⟩ := h
      simp only [hc] at h
      rw [Wr.bind_eq_ok] at h
      obtain ⟨_, q3, ps3, ps3', h3, h, -⟩ := h
      rw [Wr.bind_eq_ok] at h
      obtain ⟨_, q4, ps4, ps4', h4, h, -⟩ := h
      rw [Wr.bind_eq_ok] at h
      obtain ⟨_, q5, ps5, ps5', h5, h, -⟩ := h
      exact writeProvided_eq_ok (by simpa using hl) h
  · rw [write_base_err c (by omega)] at h; cases h

/-! ## What the writes leave in an image -/

theorem contains_itemPatches {base pos : Nat} {vs : List DString} {os : List Nat} {e : Nat}
    (h : Placed pos vs os e) {img : Bytes} (hc : Contains img (itemPatches base pos vs os))
    {i : Nat} {v : DString} {o : Nat} (hv : vs[i]? = some v) (ho : os[i]? = some o) :
    HasAt img (base + o) v.encBytes := by
  induction h generalizing i with
  | nil => simp at hv
  | cons hle hlt hd henc hr ih =>
    simp only [itemPatches, henc] at hc
    rw [Contains.append_iff, Contains.cons_iff, Contains.cons_iff] at hc
    cases i with
    | zero =>
      simp at hv ho; subst hv ho
      rw [DString.encBytes_of_ok henc]
      exact hc.1.2.1
    | succ i => exact ih hc.2 (i := i) (by simpa using hv) (by simpa using ho)

theorem itemPatches_within {base pos : Nat} {vs : List DString} {os : List Nat} {e : Nat}
    (h : Placed pos vs os e) : PatchesWithin (itemPatches base pos vs os) (base + pos) (base + e) := by
  induction h with
  | nil => intro q hq; simp [itemPatches] at hq
  | cons hle hlt hd henc hr ih =>
    intro q hq
    simp only [itemPatches, henc, List.mem_append, List.mem_cons, List.not_mem_nil, or_false] at hq
    have := hr.le
    rcases hq with (rfl | rfl) | hq
    · simp; omega
    · simp; omega
    · have := ih q hq; omega

theorem itemPatches_disjoint {base pos : Nat} {vs : List DString} {os : List Nat} {e : Nat}
    (h : Placed pos vs os e) : PatchesDisjoint (itemPatches base pos vs os) := by
  induction h with
  | nil => simp [itemPatches, PatchesDisjoint]
  | cons hle hlt hd henc hr ih =>
    simp only [itemPatches, henc, PatchesDisjoint]
    have hw := itemPatches_within (base := base) hr
    rw [List.pairwise_append]
    refine ⟨?_, ih, ?_⟩
    · simp only [List.pairwise_cons, List.mem_cons, List.not_mem_nil, or_false, forall_eq,
        false_implies, implies_true, List.Pairwise.nil, and_true]
      left
      simp only [List.length_replicate]; omega
    · intro q hq r hr'
      have := hw r hr'
      simp only [List.mem_cons, List.not_mem_nil, or_false] at hq
      rcases hq with rfl | rfl <;> left <;> simp <;> omega

theorem contains_providedPatches {base : Nat} {vs : List DString} {os : List Nat} {img : Bytes} :
    Contains img (providedPatches base vs os) ↔ ∀ (i : Nat) v o, vs[i]? = some v → os[i]? = some o →
      HasAt img (base + o) v.encBytes := by
  induction vs generalizing os with
  | nil => simp [providedPatches, Contains]
  | cons v vs ih =>
    cases os with
    | nil => simp [providedPatches, Contains]
    | cons o os =>
      show Contains img (⟨base + o, v.encBytes⟩ :: providedPatches base vs os) ↔ _
      rw [Contains.cons_iff, ih]
      constructor
      · rintro ⟨h1, h2⟩ i w o' hw ho
        cases i with
        | zero => simp at hw ho; subst hw ho; exact h1
        | succ i => exact h2 i w o' (by simpa using hw) (by simpa using ho)
      · intro h
        exact ⟨h 0 v o (by simp) (by simp), fun i w o' hw ho =>
          h (i + 1) w o' (by simpa using hw) (by simpa using ho)⟩

/-- What a successful write leaves behind. -/
theorem write_spec [LawfulItems T] {c : OffsetContainer T} {offset start : Nat} {size : OffsetSize}
    {p' : Nat} {ps : List Patch} (hw : c.WellTyped)
    (h : c.write offset size start = .ok ((), p', ps)) :
    offset ≤ start ∧ (∀ v ∈ OffsetItems.asItems c.inner, ∃ bs, v.enc = .ok bs) ∧
    ∃ a, Resolved offset size c { c with offsets := some a } ∧ a.sizeMatches size = true ∧
      a.length = OffsetItems.count T ∧
      ∀ img, Contains img ps → HasAt img start a.enc ∧
        ∀ (i : Nat) v o, (OffsetItems.asItems c.inner)[i]? = some v → a.seeks[i]? = some o →
          HasAt img (start - offset + o) v.encBytes := by
  cases hc : c.offsets with
  | none =>
    obtain ⟨ho, os, e, hp, hl⟩ := write_calculated_eq_ok hc h
    have hlen : os.length = OffsetItems.count T := by
      rw [hp.length]; exact LawfulItems.length_asItems _
    rw [write_calculated hc ho hp hl hlen] at h
    simp only [Res.ok.injEq, Prod.mk.injEq, true_and] at h
    obtain ⟨rfl, rfl⟩ := h
    refine ⟨ho, ?_, OffsetArray.ofNats os size, ⟨rfl, ?_⟩, OffsetArray.ofNats_sizeMatches _ _, ?_, ?_⟩
    · intro v hv
      generalize OffsetItems.asItems c.inner = vs at hp hv
      generalize offset + (OffsetItems.count T + 1) * size.bytes = pos at hp
      clear hlen hl ho
      induction hp with
      | nil => simp at hv
      | cons _ _ _ henc _ ih =>
        rcases List.mem_cons.1 hv with rfl | hv
        · exact ⟨_, henc⟩
        · exact ih hv
    · rw [hc]; exact ⟨os, e, hp, hl, rfl⟩
    · rw [OffsetArray.ofNats_length, hlen]
    · intro img hi
      rw [Contains.append_iff, Contains.cons_iff] at hi
      refine ⟨hi.2.1, ?_⟩
      rw [OffsetArray.ofNats_seeks hl]
      intro i v o hv ho
      exact contains_itemPatches hp hi.1 hv ho
  | some a =>
    have hn := hw a hc
    obtain ⟨ho, hs, he⟩ := write_provided_eq_ok hc (by rw [LawfulItems.length_asItems, hn]; exact Nat.le_refl _) h
    rw [write_provided hc ho hs he] at h
    simp only [Res.ok.injEq, Prod.mk.injEq, true_and] at h
    obtain ⟨rfl, rfl⟩ := h
    refine ⟨ho, he, a, ⟨rfl, by rw [hc]⟩, hs, hn, ?_⟩
    intro img hi
    rw [Contains.cons_iff, contains_providedPatches] at hi
    exact hi

theorem write_then_read [LawfulItems T] {c : OffsetContainer T} {offset start : Nat} {size : OffsetSize}
    {p' : Nat} {ps : List Patch} (hw : c.WellTyped)
    (hs : ∀ v ∈ OffsetItems.asItems c.inner, v.Storable)
    (h : c.write offset size start = .ok ((), p', ps)) :
    ∃ c', Resolved offset size c c' ∧ ∀ img, Contains img ps →
      (read offset size : Rd (OffsetContainer T)) img start = .ok (c', start - offset) := by
  obtain ⟨ho, he, a, hr, hm, hn, hi⟩ := write_spec hw h
  refine ⟨_, hr, fun img hc => ?_⟩
  obtain ⟨h1, h2⟩ := hi img hc
  rw [read_ok (vs := OffsetItems.asItems c.inner) ho hm hn h1 (LawfulItems.length_asItems _)]
  · rw [LawfulItems.fromItems_asItems]
  · intro i v o hv hoo
    obtain ⟨bs, hb, hrt⟩ := DString.storable_rt (hs v (List.mem_of_getElem? hv))
    have := h2 i v o hv hoo
    rw [DString.encBytes_of_ok hb] at this
    exact ⟨_, hrt _ _ this⟩

/-- For calculated offsets: the range of the writes, and that they are disjoint. -/
theorem write_calculated_patches {c : OffsetContainer T} {offset start : Nat} {size : OffsetSize}
    {os : List Nat} {e : Nat}
    (hp : Placed (offset + (OffsetItems.count T + 1) * size.bytes) (OffsetItems.asItems c.inner) os e)
    (ho : offset ≤ start) (hlen : os.length = OffsetItems.count T) :
    let ps := itemPatches (start - offset) (offset + (OffsetItems.count T + 1) * size.bytes)
        (OffsetItems.asItems c.inner) os ++ [⟨start, (OffsetArray.ofNats os size).enc⟩]
    PatchesDisjoint ps ∧ PatchesWithin ps start (start - offset + e) := by
  have hw := itemPatches_within (base := start - offset) hp
  have hel := OffsetArray.enc_length (OffsetArray.ofNats_sizeMatches os size)
  rw [OffsetArray.ofNats_length, hlen] at hel
  have := hp.le
  refine ⟨?_, ?_⟩
  · unfold PatchesDisjoint
    rw [List.pairwise_append]
    refine ⟨itemPatches_disjoint hp, by simp, ?_⟩
    intro q hq r hr
    simp only [List.mem_singleton] at hr
    subst hr
    right
    have := hw q hq
    simp only [hel]; omega
  · intro q hq
    rcases List.mem_append.1 hq with hq | hq
    · have := hw q hq; omega
    · simp only [List.mem_singleton] at hq
      subst hq
      simp only [hel]; omega

/-! ## Heap size -/

theorem heapLoop_of_placed {off t : Nat} {vs : List DString} {os : List Nat} {e : Nat}
    (hoff : 4 ∣ off) (hp : Placed (off + t) vs os e) (ht : t < 65536) (hl : ∀ o ∈ os, o < 65536)
    (hh : ∀ v ∈ vs, ∀ bs, v.enc = .ok bs → v.heapBytes = .ok bs.length) :
    heapLoop true t vs = if e - off < 65536 then .ok (e - off) else .panic := by
  generalize hpos : off + t = pos at hp
  induction hp generalizing t with
  | nil pos =>
    subst hpos
    simp only [heapLoop]
    rw [if_pos (by omega)]; congr 1; omega
  | @cons pos o e v vs os bs hle hlt hd henc hr ih =>
    subst hpos
    have hlo := hl o (by simp)
    have ha : alignedOffset t v.docAlign = o - off := by
      obtain ⟨h1, h2, h3⟩ := alignedOffset_spec t v.docAlign v.docAlign_pos
      refine aligned_unique h1 h2 h3 (by omega) (by omega) ?_
      have h4 : v.docAlign ∣ off := Nat.dvd_trans (by unfold DString.docAlign; split <;> decide) hoff
      exact Nat.dvd_sub hd h4
    simp only [heapLoop, if_true, DString.alignment_eq, ha, hh v (by simp) bs henc]
    rw [Nat.mod_eq_of_lt (by omega)]
    show (addU16 (o - off) bs.length >>= _) = _
    unfold addU16
    have := hr.le
    split
    · rename_i hlt'
      show heapLoop true (o - off + bs.length) vs = _
      exact ih (by omega) (fun o ho => hl o (by simp [ho])) (fun v hv => hh v (by simp [hv])) (by omega)
    · rw [if_neg (by omega)]; rfl

end OffsetContainer

end Rekordcrate
