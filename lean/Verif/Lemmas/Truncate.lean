import Verif.Lemmas.NoPanic
import Verif.Spec.Truncate

/-! # Readers on a truncated image -/

namespace Rekordcrate

open Rd

/-- At this position the reader fails on the truncated image, or the two outcomes are the same; if `P`, it may also
panic on the truncated image. -/
def Rd.CutAt {α : Type} (P : Prop) (r : Rd α) (img full : Bytes) (p : Nat) : Prop :=
  (∃ e, r img p = .err e) ∨ r full p = r img p ∨ (P ∧ r img p = .panic)

/-- The same for all images with a property and their truncations. -/
def Rd.Cut {α : Type} (G : Bytes → Prop) (P : Prop) (r : Rd α) : Prop :=
  ∀ img full p, img <+: full → G full → CutAt P r img full p

namespace Rd

variable {α β : Type} {P : Prop} {G : Bytes → Prop} {img full : Bytes} {p : Nat}

theorem CutAt.ok {r : Rd α} {x : α × Nat} (h : CutAt P r img full p) (hx : r img p = .ok x) : r full p = .ok x := by
  rcases h with ⟨e, h⟩ | h | ⟨-, h⟩
  · rw [hx] at h; cases h
  · rw [h, hx]
  · rw [hx] at h; cases h

theorem CutAt.bind {r : Rd α} {f : α → Rd β} (h : CutAt P r img full p)
    (h' : ∀ a q, r img p = .ok (a, q) → CutAt P (f a) img full q) : CutAt P (r >>= f) img full p := by
  cases hr : r img p with
  | err e => exact .inl ⟨e, bind_of_err hr⟩
  | panic =>
    rcases h with ⟨e, h⟩ | h | ⟨hP, -⟩
    · rw [hr] at h; cases h
    · exact .inr (.inl (by rw [bind_def, bind_def, h]; simp only [hr]))
    · exact .inr (.inr ⟨hP, by rw [bind_def]; simp only [hr]⟩)
  | ok x =>
    obtain ⟨a, q⟩ := x
    have hf := h.ok hr
    unfold CutAt
    rw [bind_of_ok hr, bind_of_ok hf]
    exact h' a q hr

theorem CutAt.orElse {a b : Rd α} (ha : CutAt P a img full p) (hb : CutAt P b img full p)
    (hd : (∃ e, a img p = .err e) → (∃ e, b img p = .err e) ∨ ∃ e, a full p = .err e) :
    CutAt P (Rd.orElse a b) img full p := by
  unfold CutAt Rd.orElse
  cases hr : a img p with
  | err e =>
    simp only
    rcases hd ⟨e, hr⟩ with ⟨e', h⟩ | ⟨e', h⟩
    · exact .inl ⟨e', h⟩
    · rw [h]; exact hb
  | ok x => rw [ha.ok hr]; exact .inr (.inl rfl)
  | panic =>
    rcases ha with ⟨e, h⟩ | h | ⟨hP, -⟩
    · rw [hr] at h; cases h
    · rw [h, hr]; exact .inr (.inl rfl)
    · exact .inr (.inr ⟨hP, rfl⟩)

theorem Cut.bind {r : Rd α} {f : α → Rd β} (h : Cut G P r) (h' : ∀ a, Cut G P (f a)) : Cut G P (r >>= f) :=
  fun img full p hp hg => (h img full p hp hg).bind fun a q _ => h' a img full q hp hg

theorem Cut.of_const {r : Rd α} (h : ∀ d d' p, r d p = r d' p) : Cut G P r :=
  fun img full p _ _ => .inr (.inl (h full img p))

theorem Cut.pure (a : α) : Cut G P (pure a : Rd α) := .of_const fun _ _ _ => rfl
theorem Cut.fail (e : Err) : Cut G P (Rd.fail e : Rd α) := .of_const fun _ _ _ => rfl
theorem Cut.lift (r : Res α) : Cut G P (Rd.lift r) := .of_const fun _ _ _ => rfl
theorem Cut.pos : Cut G P Rd.pos := .of_const fun _ _ _ => rfl
theorem Cut.seekTo (n : Nat) : Cut G P (Rd.seekTo n) := .of_const fun _ _ _ => rfl
theorem Cut.seekBy (k : Int) : Cut G P (Rd.seekBy k) := .of_const fun _ _ _ => rfl
theorem Cut.require (b : Bool) (e : Err) : Cut G P (Rd.require b e) := by
  unfold Rd.require
  cases b
  · exact Cut.fail e
  · exact Cut.pure ()

theorem take_drop_prefix (h : img <+: full) {n : Nat} (hn : p + n ≤ img.length) :
    (full.drop p).take n = (img.drop p).take n := by
  obtain ⟨t, rfl⟩ := h
  rw [List.drop_append_of_le_length (by omega), List.take_append_of_le_length (by rw [List.length_drop]; omega)]

theorem bytes_local {n : Nat} (h : img <+: full) (hn : p + n ≤ img.length) : Rd.bytes n full p = Rd.bytes n img p := by
  unfold Rd.bytes
  rw [take_drop_prefix h hn]

theorem Cut.bytes (n : Nat) : Cut G P (Rd.bytes n) := by
  intro img full p hp _
  by_cases hn : p + n ≤ img.length
  · exact .inr (.inl (bytes_local hp hn))
  · by_cases h0 : n = 0
    · subst h0
      exact .inr (.inl (by simp [Rd.bytes]))
    · refine .inl ⟨.eof, ?_⟩
      unfold Rd.bytes
      simp only
      rw [if_neg]
      rw [List.length_take, List.length_drop]
      omega

theorem Cut.u8 : Cut G P Rd.u8 := .bind (.bytes 1) fun _ => .pure _
theorem Cut.u16 : Cut G P Rd.u16 := .bind (.bytes 2) fun _ => .pure _
theorem Cut.u32 : Cut G P Rd.u32 := .bind (.bytes 4) fun _ => .pure _
theorem Cut.u64 : Cut G P Rd.u64 := .bind (.bytes 8) fun _ => .pure _
theorem Cut.u16be : Cut G P Rd.u16be := .bind (.bytes 2) fun _ => .pure _
theorem Cut.u32be : Cut G P Rd.u32be := .bind (.bytes 4) fun _ => .pure _

theorem Cut.magic (m : Bytes) : Cut G P (Rd.magic m) := by
  unfold Rd.magic
  refine .bind (.bytes _) fun bs => ?_
  split
  · exact .pure _
  · exact .fail _

theorem Cut.many {r : Rd α} (h : Cut G P r) : ∀ n, Cut G P (Rd.many r n)
  | 0 => .pure _
  | n + 1 => .bind h fun _ => .bind (Cut.many h n) fun _ => .pure _

theorem Cut.restore {r : Rd α} (h : Cut G P r) : Cut G P (Rd.restore r) := by
  intro img full p hp hg
  unfold CutAt Rd.restore
  rcases h img full p hp hg with ⟨e, h⟩ | h | ⟨hP, h⟩
  · rw [h]; exact .inl ⟨e, rfl⟩
  · rw [h]; exact .inr (.inl rfl)
  · rw [h]; exact .inr (.inr ⟨hP, rfl⟩)

/-! ## Alternatives of the same length -/

/-- The reader takes `n` bytes if it succeeds, and looks at no others. -/
structure Exactly (n : Nat) (r : Rd α) : Prop where
  same : ∀ img full p, img <+: full → p + n ≤ img.length → r full p = r img p
  short : ∀ img p, img.length < p + n → ∃ e, r img p = .err e

theorem Exactly.cut {n : Nat} {r : Rd α} (h : Exactly n r) : Cut G P r := by
  intro img full p hp _
  by_cases hn : p + n ≤ img.length
  · exact .inr (.inl (h.same img full p hp hn))
  · exact .inl (h.short img p (by omega))

theorem Exactly.bind {n : Nat} {r : Rd α} {f : α → Rd β} (h : Exactly n r)
    (h' : ∀ a d d' p, f a d p = f a d' p) : Exactly n (r >>= f) where
  same img full p hp hn := by
    rw [bind_def, bind_def, h.same img full p hp hn]
    cases r img p with
    | ok x => exact h' _ _ _ _
    | err _ => rfl
    | panic => rfl
  short img p hn := by
    obtain ⟨e, he⟩ := h.short img p hn
    exact ⟨e, bind_of_err he⟩

theorem Exactly.orElse {n : Nat} {a b : Rd α} (ha : Exactly n a) (hb : Exactly n b) : Exactly n (Rd.orElse a b) where
  same img full p hp hn := by
    unfold Rd.orElse
    rw [ha.same img full p hp hn, hb.same img full p hp hn]
  short img p hn := by
    obtain ⟨e, he⟩ := ha.short img p hn
    obtain ⟨e', he'⟩ := hb.short img p hn
    exact ⟨e', by unfold Rd.orElse; rw [he]; exact he'⟩

theorem Exactly.bytes {n : Nat} (h0 : 0 < n) : Exactly n (Rd.bytes n) where
  same _ _ _ hp hn := bytes_local hp hn
  short img p hn := by
    refine ⟨.eof, ?_⟩
    unfold Rd.bytes
    simp only
    rw [if_neg]
    rw [List.length_take, List.length_drop]
    omega

theorem Exactly.fail {n : Nat} (e : Err) : Exactly n (Rd.fail e : Rd α) where
  same _ _ _ _ _ := rfl
  short _ _ _ := ⟨e, rfl⟩

theorem Exactly.u8 : Exactly 1 Rd.u8 := (Exactly.bytes (by omega)).bind fun _ _ _ _ => rfl
theorem Exactly.u16 : Exactly 2 Rd.u16 := (Exactly.bytes (by omega)).bind fun _ _ _ _ => rfl
theorem Exactly.u32 : Exactly 4 Rd.u32 := (Exactly.bytes (by omega)).bind fun _ _ _ _ => rfl

theorem Exactly.magic {m : Bytes} (h0 : 0 < m.length) : Exactly m.length (Rd.magic m) := by
  unfold Rd.magic
  refine (Exactly.bytes h0).bind fun a d d' p => ?_
  split <;> rfl

theorem Exactly.magicEnum {n : Nat} (h0 : 0 < n) : ∀ {l : List (Bytes × α)}, (∀ x ∈ l, x.1.length = n) →
    Exactly n (Rd.magicEnum l)
  | [], _ => Exactly.fail _
  | (m, a) :: l, h => by
    have hm : m.length = n := h (m, a) (by simp)
    subst hm
    exact ((Exactly.magic h0).bind fun _ _ _ _ => rfl).orElse
      (Exactly.magicEnum h0 fun x hx => h x (by simp [hx]))

theorem Exactly.require {n : Nat} {r : Rd α} (h : Exactly n r) (b : Bool) (e : Err) :
    Exactly n (Rd.require b e >>= fun _ => r) := by
  cases b
  · exact Exactly.fail e
  · exact h

/-! ## Guarded alternatives -/

/-- A reader that always fails. -/
def Fails (r : Rd α) : Prop := ∀ d p, ∃ e, r d p = .err e

theorem Fails.require {k : Unit → Rd α} {b : Bool} (h : b = false) (e : Err) : Fails (Rd.require b e >>= k) := by
  subst h
  exact fun d p => ⟨e, rfl⟩

theorem Fails.orElse {a b : Rd α} (ha : Fails a) (hb : Fails b) : Fails (Rd.orElse a b) := by
  intro d p
  obtain ⟨e, he⟩ := ha d p
  unfold Rd.orElse
  rw [he]
  exact hb d p

theorem Cut.orElse_left {a b : Rd α} (ha : Cut G P a) (hb : Fails b) : Cut G P (Rd.orElse a b) :=
  fun img full p hp hg => (ha img full p hp hg).orElse (.inl (hb img p)) fun _ => .inl (hb img p)

theorem Cut.orElse_right {a b : Rd α} (ha : Fails a) (hb : Cut G P b) : Cut G P (Rd.orElse a b) :=
  fun img full p hp hg => CutAt.orElse (.inl (ha img p)) (hb img full p hp hg) fun _ => .inr (ha full p)

/-- Two alternatives with guards that exclude each other. -/
theorem Cut.orElse_guards {a b : Unit → Rd α} {g g' : Bool} {e e' : Err} (hg : g = true → g' = false)
    (ha : Cut G P (a ())) (hb : Cut G P (b ())) :
    Cut G P (Rd.orElse (Rd.require g e >>= a) (Rd.require g' e' >>= b)) := by
  cases g
  · exact Cut.orElse_right (Fails.require rfl e) (.bind (.require _ _) fun _ => hb)
  · exact Cut.orElse_left (.bind (.require _ _) fun _ => ha) (Fails.require (hg rfl) e')

end Rd

end Rekordcrate
