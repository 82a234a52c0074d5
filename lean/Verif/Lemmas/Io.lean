import Verif.Spec.Basic

/-! # Helper lemmas about readers, writers and images -/

namespace Rekordcrate

/-! ## Res -/

namespace Res
variable {α β : Type}

@[simp] theorem pure_eq (a : α) : (pure a : Res α) = .ok a := rfl
@[simp] theorem ok_bind (a : α) (f : α → Res β) : (Res.ok a >>= f) = f a := rfl
@[simp] theorem err_bind (e : Err) (f : α → Res β) : (Res.err e >>= f) = .err e := rfl
@[simp] theorem panic_bind (f : α → Res β) : (Res.panic >>= f) = .panic := rfl
@[simp] theorem ok_map (a : α) (f : α → β) : (f <$> Res.ok a) = .ok (f a) := rfl

theorem bind_eq_ok {x : Res α} {f : α → Res β} {b : β} :
    (x >>= f) = .ok b ↔ ∃ a, x = .ok a ∧ f a = .ok b := by
  cases x <;> simp

end Res

/-! ## Integer encodings -/

@[simp] theorem leEnc_length (n x : Nat) : (leEnc n x).length = n := by
  induction n generalizing x with
  | zero => rfl
  | succ n ih => simp [leEnc, ih]

@[simp] theorem beEnc_length (n x : Nat) : (beEnc n x).length = n := by simp [beEnc]

theorem leDec_leEnc (n x : Nat) : leDec (leEnc n x) = x % 256 ^ n := by
  induction n generalizing x with
  | zero => simp [leEnc, leDec, Nat.mod_one]
  | succ n ih =>
    simp only [leEnc, leDec, ih]
    rw [Nat.pow_succ', Nat.mod_mul]
    congr 1
    simp [UInt8.toNat_ofNat']

theorem leDec_lt (bs : Bytes) : leDec bs < 256 ^ bs.length := by
  induction bs with
  | nil => simp [leDec]
  | cons b bs ih =>
    simp only [leDec, List.length_cons, Nat.pow_succ]
    have := b.toNat_lt
    omega

theorem leEnc_leDec (bs : Bytes) : leEnc bs.length (leDec bs) = bs := by
  induction bs with
  | nil => rfl
  | cons b bs ih =>
    simp only [leDec, List.length_cons, leEnc]
    have hb := b.toNat_lt
    have h1 : (b.toNat + 256 * leDec bs) % 256 = b.toNat := by omega
    have h2 : (b.toNat + 256 * leDec bs) / 256 = leDec bs := by omega
    rw [h1, h2, ih]
    simp

theorem beDec_beEnc (n x : Nat) : beDec (beEnc n x) = x % 256 ^ n := by
  simp [beDec, beEnc, leDec_leEnc]

theorem beDec_lt (bs : Bytes) : beDec bs < 256 ^ bs.length := by
  have := leDec_lt bs.reverse
  simpa [beDec] using this

theorem beEnc_beDec (bs : Bytes) : beEnc bs.length (beDec bs) = bs := by
  have := leEnc_leDec bs.reverse
  simp only [List.length_reverse] at this
  simp [beDec, beEnc, this]

theorem leDec_two (a b : UInt8) : leDec [a, b] = a.toNat + 256 * b.toNat := by
  simp [leDec]

@[simp] theorem encU8_length (x : UInt8) : (encU8 x).length = 1 := rfl
@[simp] theorem encU16_length (x : UInt16) : (encU16 x).length = 2 := by simp [encU16]
@[simp] theorem encU32_length (x : UInt32) : (encU32 x).length = 4 := by simp [encU32]
@[simp] theorem encU64_length (x : UInt64) : (encU64 x).length = 8 := by simp [encU64]
@[simp] theorem encU16be_length (x : UInt16) : (encU16be x).length = 2 := by simp [encU16be]
@[simp] theorem encU32be_length (x : UInt32) : (encU32be x).length = 4 := by simp [encU32be]

/-! ## HasAt -/

theorem HasAt.nil (img : Bytes) (p : Nat) : HasAt img p [] := by
  intro i h; simp at h

theorem HasAt.append_iff {img : Bytes} {p : Nat} {a b : Bytes} :
    HasAt img p (a ++ b) ↔ HasAt img p a ∧ HasAt img (p + a.length) b := by
  constructor
  · intro h
    constructor
    · intro i hi
      have := h i (by simp; omega)
      rwa [List.getElem?_append_left hi] at this
    · intro i hi
      have := h (a.length + i) (by simp; omega)
      rw [List.getElem?_append_right (by omega)] at this
      rw [Nat.add_assoc, this]
      congr 1; omega
  · rintro ⟨h1, h2⟩ i hi
    by_cases hc : i < a.length
    · rw [List.getElem?_append_left hc]; exact h1 i hc
    · rw [List.getElem?_append_right (by omega)]
      simp at hi
      have := h2 (i - a.length) (by omega)
      rw [← this]
      congr 1; omega

theorem HasAt.cons_iff {img : Bytes} {p : Nat} {a : UInt8} {b : Bytes} :
    HasAt img p (a :: b) ↔ HasAt img p [a] ∧ HasAt img (p + 1) b := by
  have := HasAt.append_iff (img := img) (p := p) (a := [a]) (b := b)
  simpa using this

theorem HasAt.take_drop {img : Bytes} {p : Nat} {bs : Bytes} (h : HasAt img p bs) :
    (img.drop p).take bs.length = bs := by
  apply List.ext_getElem?
  intro i
  rw [List.getElem?_take]
  by_cases hi : i < bs.length
  · simp only [hi, if_true, List.getElem?_drop]
    exact h i hi
  · simp only [hi, if_false]
    symm; apply List.getElem?_eq_none; omega

theorem hasAt_take_drop (img : Bytes) (p n : Nat) : HasAt img p ((img.drop p).take n) := by
  intro i hi
  simp at hi
  rw [List.getElem?_take, if_pos (by omega), List.getElem?_drop]

theorem HasAt.bound {img : Bytes} {p : Nat} {bs : Bytes} (h : HasAt img p bs) (hne : bs ≠ []) :
    p + bs.length ≤ img.length := by
  have hl : 0 < bs.length := List.length_pos_iff.2 hne
  have := h (bs.length - 1) (by omega)
  rw [List.getElem?_eq_getElem (l := bs) (by omega)] at this
  have := (List.getElem?_eq_some_iff.1 this).1
  omega

theorem HasAt.eq_of_length {img : Bytes} {p : Nat} {a b : Bytes} (ha : HasAt img p a)
    (hb : HasAt img p b) (hl : a.length = b.length) : a = b := by
  rw [← ha.take_drop, ← hb.take_drop, hl]

theorem hasAt_append_mid (pre bs post : Bytes) : HasAt (pre ++ bs ++ post) pre.length bs := by
  intro i hi
  rw [List.append_assoc, List.getElem?_append_right (by omega), List.getElem?_append_left (by omega)]
  congr 1; omega

theorem hasAt_self (bs : Bytes) : HasAt bs 0 bs := by
  intro i _; simp

theorem HasAt.of_agree {img img' : Bytes} {p : Nat} {bs : Bytes} (h : HasAt img p bs)
    (ha : AgreeOn img img' p (p + bs.length)) : HasAt img' p bs := by
  intro i hi
  rw [← ha (p + i) (by omega) (by omega)]
  exact h i hi

/-! ## Readers -/

namespace Rd
variable {α β γ : Type}

theorem bind_def (m : Rd α) (f : α → Rd β) (d : Bytes) (p : Nat) :
    (m >>= f) d p = match m d p with
      | .ok (a, p') => f a d p'
      | .err e => .err e
      | .panic => .panic := rfl

@[simp] theorem pure_def (a : α) (d : Bytes) (p : Nat) : (pure a : Rd α) d p = .ok (a, p) := rfl

theorem bind_of_ok {m : Rd α} {f : α → Rd β} {d : Bytes} {p p' : Nat} {a : α}
    (h : m d p = .ok (a, p')) : (m >>= f) d p = f a d p' := by
  rw [bind_def, h]

theorem bind_of_err {m : Rd α} {f : α → Rd β} {d : Bytes} {p : Nat} {e : Err}
    (h : m d p = .err e) : (m >>= f) d p = .err e := by
  rw [bind_def, h]

theorem bind_of_panic {m : Rd α} {f : α → Rd β} {d : Bytes} {p : Nat}
    (h : m d p = .panic) : (m >>= f) d p = .panic := by
  rw [bind_def, h]

theorem bind_eq_ok {m : Rd α} {f : α → Rd β} {d : Bytes} {p : Nat} {r : β × Nat} :
    (m >>= f) d p = .ok r ↔ ∃ a p', m d p = .ok (a, p') ∧ f a d p' = .ok r := by
  rw [bind_def]
  cases h : m d p with
  | ok x =>
    obtain ⟨a, p'⟩ := x
    simp only [Res.ok.injEq, Prod.mk.injEq]
    exact ⟨fun h => ⟨a, p', ⟨rfl, rfl⟩, h⟩, fun ⟨_, _, ⟨h1, h2⟩, h⟩ => h1 ▸ h2 ▸ h⟩
  | err e => simp
  | panic => simp

theorem pure_eq_ok {a b : α} {d : Bytes} {p q : Nat} :
    (pure a : Rd α) d p = .ok (b, q) ↔ a = b ∧ p = q := by
  constructor
  · intro h; injection h with h; injection h with h1 h2; exact ⟨h1, h2⟩
  · rintro ⟨rfl, rfl⟩; rfl

theorem bind_eq_panic {m : Rd α} {f : α → Rd β} {d : Bytes} {p : Nat} :
    (m >>= f) d p = .panic ↔ m d p = .panic ∨ ∃ a p', m d p = .ok (a, p') ∧ f a d p' = .panic := by
  rw [bind_def]
  cases h : m d p with
  | ok x =>
    obtain ⟨a, p'⟩ := x
    simp only [Res.ok.injEq, Prod.mk.injEq, reduceCtorEq, false_or]
    exact ⟨fun h => ⟨a, p', ⟨rfl, rfl⟩, h⟩, fun ⟨_, _, ⟨h1, h2⟩, h⟩ => h1 ▸ h2 ▸ h⟩
  | err e => simp
  | panic => simp

theorem RT.pure (a : α) : RT (pure a) [] a := by
  intro d p _; simp

theorem RT.bind {r : Rd α} {f : α → Rd β} {bs bs' : Bytes} {a : α} {b : β}
    (h : RT r bs a) (h' : RT (f a) bs' b) : RT (r >>= f) (bs ++ bs') b := by
  intro d p hd
  rw [HasAt.append_iff] at hd
  rw [bind_of_ok (h d p hd.1), h' d _ hd.2]
  simp [Nat.add_assoc]

/-- Last field of a struct. -/
theorem RT.bind_pure {r : Rd α} {f : α → β} {bs : Bytes} {a : α}
    (h : RT r bs a) : RT (r >>= fun x => Pure.pure (f x)) bs (f a) := by
  have := RT.bind (f := fun x => (Pure.pure (f x) : Rd β)) h (RT.pure (f a))
  simpa using this

theorem RT.map {r : Rd α} {bs : Bytes} {a : α} (f : α → β)
    (h : RT r bs a) : RT (f <$> r) bs (f a) := by
  intro d p hd
  show (r >>= fun x => Pure.pure (f x)) d p = _
  rw [bind_of_ok (h d p hd)]; rfl

theorem RT.congr_bytes {r : Rd α} {bs bs' : Bytes} {a : α} (h : RT r bs a) (e : bs = bs') :
    RT r bs' a := e ▸ h

theorem RT.require {b : Bool} {e : Err} (h : b = true) : RT (require b e) [] () := by
  intro d p _; simp [Rd.require, h]

theorem RT.bytes (bs : Bytes) : RT (Rd.bytes bs.length) bs bs := by
  intro d p h
  simp [Rd.bytes, h.take_drop]

theorem RT.bytes' {bs : Bytes} {n : Nat} (h : bs.length = n) : RT (Rd.bytes n) bs bs := by
  subst h; exact RT.bytes bs

theorem RT.u8 (x : UInt8) : RT Rd.u8 (encU8 x) x := by
  unfold Rd.u8
  have := RT.bind_pure (f := fun bs => UInt8.ofNat (leDec bs)) (RT.bytes' (n := 1) (encU8_length x))
  have e : UInt8.ofNat (leDec (encU8 x)) = x := by simp [encU8, leDec]
  rw [e] at this; exact this

theorem RT.u16 (x : UInt16) : RT Rd.u16 (encU16 x) x := by
  unfold Rd.u16
  have := RT.bind_pure (f := fun bs => UInt16.ofNat (leDec bs)) (RT.bytes' (n := 2) (encU16_length x))
  have e : UInt16.ofNat (leDec (encU16 x)) = x := by
    rw [encU16, leDec_leEnc, Nat.mod_eq_of_lt (by have := x.toNat_lt; omega)]; simp
  rw [e] at this; exact this

theorem RT.u32 (x : UInt32) : RT Rd.u32 (encU32 x) x := by
  unfold Rd.u32
  have := RT.bind_pure (f := fun bs => UInt32.ofNat (leDec bs)) (RT.bytes' (n := 4) (encU32_length x))
  have e : UInt32.ofNat (leDec (encU32 x)) = x := by
    rw [encU32, leDec_leEnc, Nat.mod_eq_of_lt (by have := x.toNat_lt; omega)]; simp
  rw [e] at this; exact this

theorem RT.u64 (x : UInt64) : RT Rd.u64 (encU64 x) x := by
  unfold Rd.u64
  have := RT.bind_pure (f := fun bs => UInt64.ofNat (leDec bs)) (RT.bytes' (n := 8) (encU64_length x))
  have e : UInt64.ofNat (leDec (encU64 x)) = x := by
    rw [encU64, leDec_leEnc, Nat.mod_eq_of_lt (by have := x.toNat_lt; omega)]; simp
  rw [e] at this; exact this

theorem RT.u16be (x : UInt16) : RT Rd.u16be (encU16be x) x := by
  unfold Rd.u16be
  have := RT.bind_pure (f := fun bs => UInt16.ofNat (beDec bs)) (RT.bytes' (n := 2) (encU16be_length x))
  have e : UInt16.ofNat (beDec (encU16be x)) = x := by
    rw [encU16be, beDec_beEnc, Nat.mod_eq_of_lt (by have := x.toNat_lt; omega)]; simp
  rw [e] at this; exact this

theorem RT.u32be (x : UInt32) : RT Rd.u32be (encU32be x) x := by
  unfold Rd.u32be
  have := RT.bind_pure (f := fun bs => UInt32.ofNat (beDec bs)) (RT.bytes' (n := 4) (encU32be_length x))
  have e : UInt32.ofNat (beDec (encU32be x)) = x := by
    rw [encU32be, beDec_beEnc, Nat.mod_eq_of_lt (by have := x.toNat_lt; omega)]; simp
  rw [e] at this; exact this

theorem RT.magic (m : Bytes) : RT (Rd.magic m) m () := by
  unfold Rd.magic
  have := RT.bind (f := fun bs => if bs = m then (Pure.pure () : Rd Unit) else fail .badMagic)
    (RT.bytes m) (b := ()) (bs' := []) (by simpa using RT.pure ())
  simpa using this

theorem RT.many {r : Rd α} {enc : α → Bytes} {as : List α}
    (h : ∀ a ∈ as, RT r (enc a) a) : RT (Rd.many r as.length) (as.flatMap enc) as := by
  induction as with
  | nil => exact RT.pure []
  | cons a as ih =>
    simp only [List.length_cons, Rd.many, List.flatMap_cons]
    refine RT.bind (h a (by simp)) ?_
    exact RT.bind_pure (ih fun x hx => h x (by simp [hx]))

theorem RT.many' {r : Rd α} {enc : α → Bytes} {as : List α} {n : Nat} (hn : as.length = n)
    (h : ∀ a ∈ as, RT r (enc a) a) : RT (Rd.many r n) (as.flatMap enc) as := by
  subst hn; exact RT.many h

/-- Bytes read determine the position: `bytes` in terms of `HasAt`. -/
theorem bytes_eq_ok {n : Nat} {d : Bytes} {p : Nat} {bs : Bytes} {p' : Nat} :
    Rd.bytes n d p = .ok (bs, p') ↔ bs.length = n ∧ HasAt d p bs ∧ p' = p + n := by
  unfold Rd.bytes
  simp only
  split
  · rename_i h
    constructor
    · intro h'
      injection h' with h'
      injection h' with h1 h2
      subst h1
      exact ⟨h, hasAt_take_drop d p n, h2.symm⟩
    · rintro ⟨h1, h2, h3⟩
      have := h2.take_drop
      rw [h1] at this
      rw [this, h3]
  · rename_i h
    constructor
    · intro h'; cases h'
    · rintro ⟨h1, h2, _⟩
      exfalso; apply h
      have := h2.take_drop
      rw [h1] at this
      rw [this, h1]

theorem bytes_no_panic (n : Nat) (d : Bytes) (p : Nat) : Rd.bytes n d p ≠ .panic := by
  unfold Rd.bytes; simp only; split <;> simp

theorem Inv.pure (a : α) : Inv (pure a : Rd α) (fun b bs => b = a ∧ bs = []) := by
  intro d p b p' h
  simp at h
  exact ⟨[], HasAt.nil _ _, by simp [h.2], h.1.symm, rfl⟩

theorem Inv.bind {r : Rd α} {f : α → Rd β} {φ : α → Bytes → Prop} {ψ : β → Bytes → Prop}
    (h : Inv r φ) (h' : ∀ a bs, φ a bs → Inv (f a) (fun b bs' => ψ b (bs ++ bs'))) :
    Inv (r >>= f) ψ := by
  intro d p b p' hb
  obtain ⟨a, p1, h1, h2⟩ := bind_eq_ok.1 hb
  obtain ⟨bs, hbs, hp, hφ⟩ := h d p a p1 h1
  obtain ⟨bs', hbs', hp', hψ⟩ := h' a bs hφ d p1 b p' h2
  refine ⟨bs ++ bs', ?_, ?_, hψ⟩
  · rw [HasAt.append_iff]; exact ⟨hbs, hp ▸ hbs'⟩
  · simp [hp', hp, Nat.add_assoc]

theorem Inv.mono {r : Rd α} {φ ψ : α → Bytes → Prop} (h : Inv r φ) (hi : ∀ a bs, φ a bs → ψ a bs) :
    Inv r ψ := by
  intro d p a p' he
  obtain ⟨bs, h1, h2, h3⟩ := h d p a p' he
  exact ⟨bs, h1, h2, hi a bs h3⟩

theorem Inv.fail (e : Err) (φ : α → Bytes → Prop) : Inv (Rd.fail e) φ := by
  intro d p a p' h; simp [Rd.fail] at h

theorem Inv.panic (φ : α → Bytes → Prop) : Inv (Rd.panic) φ := by
  intro d p a p' h; simp [Rd.panic] at h

theorem Inv.require (b : Bool) (e : Err) : Inv (Rd.require b e) (fun _ bs => b = true ∧ bs = []) := by
  unfold Rd.require
  split
  · rename_i h
    exact (Inv.pure ()).mono fun _ _ h' => ⟨h, h'.2⟩
  · exact Inv.fail _ _

theorem Inv.bytes (n : Nat) : Inv (Rd.bytes n) (fun a bs => bs = a ∧ a.length = n) := by
  intro d p a p' h
  obtain ⟨h1, h2, h3⟩ := bytes_eq_ok.1 h
  exact ⟨a, h2, by rw [h3, h1], rfl, h1⟩

theorem Inv.u8 : Inv Rd.u8 (fun a bs => bs = encU8 a) := by
  unfold Rd.u8
  refine Inv.bind (Inv.bytes 1) ?_
  rintro a bs ⟨rfl, hl⟩
  refine (Inv.pure _).mono ?_
  rintro b bs' ⟨rfl, rfl⟩
  match bs, hl with
  | [x], _ => simp [encU8, leDec]

theorem Inv.u16 : Inv Rd.u16 (fun a bs => bs = encU16 a) := by
  unfold Rd.u16
  refine Inv.bind (Inv.bytes 2) ?_
  rintro a bs ⟨rfl, hl⟩
  refine (Inv.pure _).mono ?_
  rintro b bs' ⟨rfl, rfl⟩
  have hlt := leDec_lt bs
  have := leEnc_leDec bs
  rw [hl] at hlt this
  rw [encU16, UInt16.toNat_ofNat', Nat.mod_eq_of_lt (by simpa using hlt), this]; simp

theorem Inv.u32 : Inv Rd.u32 (fun a bs => bs = encU32 a) := by
  unfold Rd.u32
  refine Inv.bind (Inv.bytes 4) ?_
  rintro a bs ⟨rfl, hl⟩
  refine (Inv.pure _).mono ?_
  rintro b bs' ⟨rfl, rfl⟩
  have hlt := leDec_lt bs
  have := leEnc_leDec bs
  rw [hl] at hlt this
  rw [encU32, UInt32.toNat_ofNat', Nat.mod_eq_of_lt (by simpa using hlt), this]; simp

theorem Inv.u64 : Inv Rd.u64 (fun a bs => bs = encU64 a) := by
  unfold Rd.u64
  refine Inv.bind (Inv.bytes 8) ?_
  rintro a bs ⟨rfl, hl⟩
  refine (Inv.pure _).mono ?_
  rintro b bs' ⟨rfl, rfl⟩
  have hlt := leDec_lt bs
  have := leEnc_leDec bs
  rw [hl] at hlt this
  rw [encU64, UInt64.toNat_ofNat', Nat.mod_eq_of_lt (by simpa using hlt), this]; simp

theorem Inv.u16be : Inv Rd.u16be (fun a bs => bs = encU16be a) := by
  unfold Rd.u16be
  refine Inv.bind (Inv.bytes 2) ?_
  rintro a bs ⟨rfl, hl⟩
  refine (Inv.pure _).mono ?_
  rintro b bs' ⟨rfl, rfl⟩
  have hlt := beDec_lt bs
  have := beEnc_beDec bs
  rw [hl] at hlt this
  rw [encU16be, UInt16.toNat_ofNat', Nat.mod_eq_of_lt (by simpa using hlt), this]; simp

theorem Inv.u32be : Inv Rd.u32be (fun a bs => bs = encU32be a) := by
  unfold Rd.u32be
  refine Inv.bind (Inv.bytes 4) ?_
  rintro a bs ⟨rfl, hl⟩
  refine (Inv.pure _).mono ?_
  rintro b bs' ⟨rfl, rfl⟩
  have hlt := beDec_lt bs
  have := beEnc_beDec bs
  rw [hl] at hlt this
  rw [encU32be, UInt32.toNat_ofNat', Nat.mod_eq_of_lt (by simpa using hlt), this]; simp

theorem Inv.magic (m : Bytes) : Inv (Rd.magic m) (fun _ bs => bs = m) := by
  unfold Rd.magic
  refine Inv.bind (Inv.bytes _) ?_
  rintro a bs ⟨rfl, hl⟩
  split
  · rename_i h
    refine (Inv.pure _).mono ?_
    rintro _ bs' ⟨_, rfl⟩
    simpa using h
  · exact Inv.fail _ _

theorem Inv.orElse {r s : Rd α} {φ : α → Bytes → Prop} (h : Inv r φ) (h' : Inv s φ) :
    Inv (r.orElse s) φ := by
  intro d p a p' he
  unfold Rd.orElse at he
  split at he
  · rename_i x hx
    injection he with he
    subst he
    exact h d p a p' hx
  · cases he
  · exact h' d p a p' he

theorem Inv.many {r : Rd α} {φ : α → Bytes → Prop} (h : Inv r φ) (enc : α → Bytes)
    (he : ∀ a bs, φ a bs → bs = enc a) (n : Nat) :
    Inv (Rd.many r n) (fun as bs => bs = as.flatMap enc ∧ as.length = n) := by
  induction n with
  | zero =>
    refine (Inv.pure _).mono ?_
    rintro _ _ ⟨rfl, rfl⟩
    simp
  | succ n ih =>
    simp only [Rd.many]
    refine Inv.bind h fun a bs hφ => Inv.bind ih ?_
    rintro as bs' ⟨rfl, hl⟩
    refine (Inv.pure _).mono ?_
    rintro _ _ ⟨rfl, rfl⟩
    simp [he a bs hφ, hl]

theorem NP.pure (a : α) : NP (pure a : Rd α) := by intro d p; simp

theorem NP.bind {r : Rd α} {f : α → Rd β} (h : NP r) (h' : ∀ a, NP (f a)) : NP (r >>= f) := by
  intro d p he
  rcases bind_eq_panic.1 he with h1 | ⟨a, p', _, h2⟩
  · exact h d p h1
  · exact h' a d p' h2

theorem NP.fail (e : Err) : NP (Rd.fail e : Rd α) := by intro d p; simp [Rd.fail]
theorem NP.bytes (n : Nat) : NP (Rd.bytes n) := bytes_no_panic n
theorem NP.u8 : NP Rd.u8 := NP.bind (NP.bytes 1) fun _ => NP.pure _
theorem NP.u16 : NP Rd.u16 := NP.bind (NP.bytes 2) fun _ => NP.pure _
theorem NP.u32 : NP Rd.u32 := NP.bind (NP.bytes 4) fun _ => NP.pure _
theorem NP.u64 : NP Rd.u64 := NP.bind (NP.bytes 8) fun _ => NP.pure _
theorem NP.u16be : NP Rd.u16be := NP.bind (NP.bytes 2) fun _ => NP.pure _
theorem NP.u32be : NP Rd.u32be := NP.bind (NP.bytes 4) fun _ => NP.pure _
theorem NP.require (b : Bool) (e : Err) : NP (Rd.require b e) := by
  unfold Rd.require; split
  · exact NP.pure _
  · exact NP.fail _
theorem NP.magic (m : Bytes) : NP (Rd.magic m) := by
  refine NP.bind (NP.bytes _) fun a => ?_
  split
  · exact NP.pure _
  · exact NP.fail _
theorem NP.orElse {r s : Rd α} (h : NP r) (h' : NP s) : NP (r.orElse s) := by
  intro d p he
  unfold Rd.orElse at he
  split at he
  · cases he
  · rename_i hp; exact h d p hp
  · exact h' d p he
theorem NP.many {r : Rd α} (h : NP r) (n : Nat) : NP (Rd.many r n) := by
  induction n with
  | zero => exact NP.pure _
  | succ n ih => exact NP.bind h fun _ => NP.bind ih fun _ => NP.pure _
theorem NP.restore {r : Rd α} (h : NP r) : NP (Rd.restore r) := by
  intro d p he
  unfold Rd.restore at he
  split at he
  · cases he
  · cases he
  · rename_i hp; exact h d p hp
theorem NP.seekBy (k : Int) : NP (Rd.seekBy k) := by
  intro d p; unfold Rd.seekBy; split <;> simp
theorem NP.seekTo (k : Nat) : NP (Rd.seekTo k) := by
  intro d p; simp [Rd.seekTo]
theorem NP.pos : NP Rd.pos := by
  intro d p; simp [Rd.pos]

/-! Enums with magics -/

theorem magicEnum_of_hasAt {l : List (Bytes × α)} {m : Bytes} (hk : ∀ e ∈ l, e.1.length = m.length)
    {d : Bytes} {p : Nat} (hd : HasAt d p m) :
    magicEnum l d p = match l.find? (fun e => e.1 == m) with
      | some e => .ok (e.2, p + m.length)
      | none => .err .noVariant := by
  induction l with
  | nil => simp [magicEnum, Rd.fail]
  | cons e l ih =>
    obtain ⟨m', a⟩ := e
    have hl : m'.length = m.length := hk (m', a) (by simp)
    have hb : Rd.bytes m'.length d p = .ok (m, p + m'.length) :=
      bytes_eq_ok.2 ⟨hl.symm, hd, rfl⟩
    have ih := ih (fun e he => hk e (by simp [he]))
    unfold magicEnum Rd.orElse
    by_cases hm : m' = m
    · subst hm
      have : Rd.magic m' d p = .ok ((), p + m'.length) := RT.magic m' d p hd
      rw [bind_of_ok this]
      simp
    · have : Rd.magic m' d p = .err .badMagic := by
        unfold Rd.magic
        rw [bind_of_ok hb, if_neg (fun h => hm h.symm)]; rfl
      rw [bind_of_err this]
      simp only [List.find?_cons]
      rw [show (m' == m) = false by simpa using hm]
      exact ih

theorem RT.magicEnum {l : List (Bytes × α)} {m : Bytes} {a : α}
    (hk : ∀ e ∈ l, e.1.length = m.length) (hf : l.find? (fun e => e.1 == m) = some (m, a)) :
    RT (Rd.magicEnum l) m a := by
  intro d p hd
  rw [magicEnum_of_hasAt hk hd, hf]

theorem Inv.magicEnum (l : List (Bytes × α)) : Inv (Rd.magicEnum l) (fun a bs => (bs, a) ∈ l) := by
  induction l with
  | nil => exact Inv.fail _ _
  | cons e l ih =>
    obtain ⟨m, a⟩ := e
    unfold Rd.magicEnum
    refine Inv.orElse ?_ (ih.mono fun a bs h => by simp [h])
    refine Inv.bind (Inv.magic m) ?_
    rintro _ bs rfl
    refine (Inv.pure a).mono ?_
    rintro _ _ ⟨rfl, rfl⟩
    simp

theorem NP.magicEnum (l : List (Bytes × α)) : NP (Rd.magicEnum l) := by
  induction l with
  | nil => exact NP.fail _
  | cons e l ih =>
    exact NP.orElse (NP.bind (NP.magic _) fun _ => NP.pure _) ih

/-- If the first alternative reads the bytes, so does the enum. -/
theorem RT.orElse_left {r s : Rd α} {bs : Bytes} {a : α} (h : RT r bs a) : RT (r.orElse s) bs a := by
  intro d p hd
  unfold Rd.orElse
  rw [h d p hd]

/-- If the first alternative fails on the bytes, the second one decides. -/
theorem RT.orElse_right {r s : Rd α} {bs : Bytes} {a : α}
    (hr : ∀ d p, HasAt d p bs → ∃ e, r d p = .err e) (h : RT s bs a) : RT (r.orElse s) bs a := by
  intro d p hd
  obtain ⟨e, he⟩ := hr d p hd
  unfold Rd.orElse
  rw [he]
  exact h d p hd

theorem Inv.bind_pure {r : Rd α} {f : α → β} {φ : α → Bytes → Prop} (h : Inv r φ) :
    Inv (r >>= fun x => Pure.pure (f x)) (fun b bs => ∃ a, b = f a ∧ φ a bs) := by
  refine Inv.bind h fun a bs ha => ?_
  refine (Inv.pure _).mono ?_
  rintro _ _ ⟨rfl, rfl⟩
  exact ⟨a, rfl, by simpa using ha⟩

end Rd

/-! ## Bit fields -/

theorem unpackLSB_packLSB (l : List (Nat × Nat)) (h : ∀ e ∈ l, e.2 < 2 ^ e.1) :
    unpackLSB (l.map (·.1)) (packLSB l) = l.map (·.2) := by
  induction l with
  | nil => rfl
  | cons e l ih =>
    obtain ⟨w, v⟩ := e
    have hv : v < 2 ^ w := h (w, v) (by simp)
    simp only [List.map_cons, packLSB, unpackLSB, Nat.mod_eq_of_lt hv]
    rw [Nat.add_mul_mod_self_left, Nat.mod_eq_of_lt hv, Nat.add_mul_div_left _ _ (by omega),
      Nat.div_eq_of_lt hv, Nat.zero_add, ih fun e he => h e (by simp [he])]

/-! ## Patches -/

theorem Patch.apply_getElem? (img : Bytes) (q : Patch) (i : Nat) :
    (q.apply img)[i]? =
      if q.off ≤ i ∧ i < q.off + q.bytes.length then q.bytes[i - q.off]?
      else if i < img.length then img[i]?
      else if i < q.off ∧ q.bytes ≠ [] then some 0
      else none := by
  unfold Patch.apply
  by_cases hb : q.bytes = []
  · simp only [hb, if_true, List.length_nil]
    rw [if_neg (by omega)]
    by_cases hi : i < img.length
    · simp [hi]
    · simp [hi]
  · simp only [hb, if_false]
    have hlen : (img.take q.off ++ List.replicate (q.off - img.length) (0:UInt8)).length = q.off := by
      simp; omega
    by_cases h1 : i < q.off
    · rw [List.append_assoc (_ ++ _), List.getElem?_append_left (by omega)]
      rw [if_neg (by omega)]
      by_cases h2 : i < img.length
      · rw [List.getElem?_append_left (by simp; omega)]
        simp [h2, h1]
      · rw [List.getElem?_append_right (by simp; omega)]
        simp only [h2, if_false, h1, hb, ne_eq, not_false_eq_true, and_self, if_true]
        rw [List.getElem?_replicate]
        simp; omega
    · by_cases h2 : i < q.off + q.bytes.length
      · rw [List.append_assoc (_ ++ _), List.getElem?_append_right (by omega),
          List.getElem?_append_left (by omega)]
        rw [if_pos (by omega), hlen]
      · rw [List.getElem?_append_right (by simp only [List.length_append] at *; omega)]
        rw [if_neg (by omega)]
        simp only [List.getElem?_drop]
        have : q.off + q.bytes.length + (i - (img.take q.off ++ List.replicate (q.off - img.length) (0:UInt8) ++ q.bytes).length) = i := by
          rw [List.length_append, hlen]; omega
        rw [this]
        by_cases h3 : i < img.length
        · simp [h3]
        · simp [h3, h1]

theorem Patch.apply_of_not_covers {img : Bytes} {q : Patch} {i : Nat} (hi : i < img.length)
    (h : ¬ q.Covers i) : (q.apply img)[i]? = img[i]? := by
  unfold Patch.Covers at h
  rw [Patch.apply_getElem?, if_neg h, if_pos hi]

theorem Patch.apply_length_le (img : Bytes) (q : Patch) : img.length ≤ (q.apply img).length := by
  unfold Patch.apply
  split
  · exact Nat.le_refl _
  · simp; omega

theorem Patch.hasAt_apply (img : Bytes) (q : Patch) : HasAt (q.apply img) q.off q.bytes := by
  intro i hi
  rw [Patch.apply_getElem?, if_pos (by omega)]
  congr 1; omega

theorem Patch.hasAt_apply_of_disjoint {img : Bytes} {q : Patch} {p : Nat} {bs : Bytes}
    (h : HasAt img p bs) (hd : DisjointRanges p bs.length q.off q.bytes.length) :
    HasAt (q.apply img) p bs := by
  intro i hi
  have hlt : p + i < img.length := by
    have := h.bound (by intro h0; simp [h0] at hi)
    omega
  rw [Patch.apply_of_not_covers hlt]
  · exact h i hi
  · unfold Patch.Covers; unfold DisjointRanges at hd; omega

@[simp] theorem applyPatches_nil (img : Bytes) : applyPatches img [] = img := rfl
@[simp] theorem applyPatches_cons (img : Bytes) (q : Patch) (ps : List Patch) :
    applyPatches img (q :: ps) = applyPatches (q.apply img) ps := rfl
theorem applyPatches_append (img : Bytes) (ps qs : List Patch) :
    applyPatches img (ps ++ qs) = applyPatches (applyPatches img ps) qs := by
  simp [applyPatches, List.foldl_append]

theorem applyPatches_length_le (img : Bytes) (ps : List Patch) :
    img.length ≤ (applyPatches img ps).length := by
  induction ps generalizing img with
  | nil => exact Nat.le_refl _
  | cons q ps ih => exact Nat.le_trans (Patch.apply_length_le img q) (ih _)

theorem applyPatches_of_not_covers {img : Bytes} {ps : List Patch} {i : Nat} (hi : i < img.length)
    (h : ∀ q ∈ ps, ¬ q.Covers i) : (applyPatches img ps)[i]? = img[i]? := by
  induction ps generalizing img with
  | nil => rfl
  | cons q ps ih =>
    rw [applyPatches_cons, ih (Nat.lt_of_lt_of_le hi (Patch.apply_length_le img q))
      (fun q' hq' => h q' (by simp [hq'])), Patch.apply_of_not_covers hi (h q (by simp))]

theorem hasAt_applyPatches_of_disjoint {img : Bytes} {ps : List Patch} {p : Nat} {bs : Bytes}
    (h : HasAt img p bs) (hd : ∀ q ∈ ps, DisjointRanges p bs.length q.off q.bytes.length) :
    HasAt (applyPatches img ps) p bs := by
  induction ps generalizing img with
  | nil => exact h
  | cons q ps ih =>
    exact ih (Patch.hasAt_apply_of_disjoint h (hd q (by simp))) (fun q' hq' => hd q' (by simp [hq']))

theorem contains_applyPatches {img : Bytes} {ps : List Patch} (h : PatchesDisjoint ps) :
    Contains (applyPatches img ps) ps := by
  induction ps generalizing img with
  | nil => intro q hq; simp at hq
  | cons q ps ih =>
    unfold PatchesDisjoint at h
    rw [List.pairwise_cons] at h
    intro r hr
    rw [List.mem_cons] at hr
    rcases hr with rfl | hr
    · rw [applyPatches_cons]
      exact hasAt_applyPatches_of_disjoint (Patch.hasAt_apply img r) (fun q' hq' => h.1 q' hq')
    · exact ih h.2 r hr

theorem Contains.append_iff {img : Bytes} {ps qs : List Patch} :
    Contains img (ps ++ qs) ↔ Contains img ps ∧ Contains img qs := by
  simp only [Contains, List.mem_append]
  constructor
  · intro h; exact ⟨fun q hq => h q (Or.inl hq), fun q hq => h q (Or.inr hq)⟩
  · rintro ⟨h1, h2⟩ q (hq | hq)
    · exact h1 q hq
    · exact h2 q hq

theorem Contains.cons_iff {img : Bytes} {q : Patch} {qs : List Patch} :
    Contains img (q :: qs) ↔ HasAt img q.off q.bytes ∧ Contains img qs := by
  simp [Contains]

@[simp] theorem Contains.nil {img : Bytes} : Contains img [] := by simp [Contains]

theorem Patch.apply_of_hasAt {img : Bytes} {q : Patch} (h : HasAt img q.off q.bytes) :
    q.apply img = img := by
  apply List.ext_getElem?
  intro i
  rw [Patch.apply_getElem?]
  split
  · rename_i hc
    have := h (i - q.off) (by omega)
    rw [← this]; congr 1; omega
  · split
    · rfl
    · rename_i hc hi
      by_cases hb : q.bytes = []
      · simp only [hb, ne_eq, not_true_eq_false, and_false, if_false]
        exact (List.getElem?_eq_none (by omega)).symm
      · have := h.bound hb
        have hl : 0 < q.bytes.length := List.length_pos_iff.2 hb
        rw [if_neg (by omega)]
        exact (List.getElem?_eq_none (by omega)).symm

/-- Writing what is already there changes nothing. -/
theorem applyPatches_of_contains {img : Bytes} {ps : List Patch} (h : Contains img ps) :
    applyPatches img ps = img := by
  induction ps with
  | nil => rfl
  | cons q ps ih =>
    rw [Contains.cons_iff] at h
    rw [applyPatches_cons, Patch.apply_of_hasAt h.1, ih h.2]

/-! ## Writers -/

namespace Wr
variable {α β : Type}

theorem bind_def (m : Wr α) (f : α → Wr β) (p : Nat) :
    (m >>= f) p = match m p with
      | .ok (a, p', ps) =>
        match f a p' with
        | .ok (b, p'', ps') => .ok (b, p'', ps ++ ps')
        | .err e => .err e
        | .panic => .panic
      | .err e => .err e
      | .panic => .panic := rfl

@[simp] theorem pure_def (a : α) (p : Nat) : (pure a : Wr α) p = .ok (a, p, []) := rfl

theorem bind_eq_ok {m : Wr α} {f : α → Wr β} {p : Nat} {b : β} {q : Nat} {ps : List Patch} :
    (m >>= f) p = .ok (b, q, ps) ↔
      ∃ a p1 ps1 ps2, m p = .ok (a, p1, ps1) ∧ f a p1 = .ok (b, q, ps2) ∧ ps = ps1 ++ ps2 := by
  rw [bind_def]
  constructor
  · intro h0
    split at h0
    · rename_i a p1 ps1 h1
      split at h0
      · rename_i b' q' ps2 h2
        simp only [Res.ok.injEq, Prod.mk.injEq] at h0
        obtain ⟨rfl, rfl, rfl⟩ := h0
        exact ⟨a, p1, ps1, ps2, h1, h2, rfl⟩
      · cases h0
      · cases h0
    · cases h0
    · cases h0
  · rintro ⟨a, p1, ps1, ps2, h1, h2, rfl⟩
    rw [h1]; simp only; rw [h2]

theorem bind_of_ok {m : Wr α} {f : α → Wr β} {p p1 : Nat} {a : α} {ps1 : List Patch} {b : β}
    {q : Nat} {ps2 : List Patch} (h : m p = .ok (a, p1, ps1)) (h2 : f a p1 = .ok (b, q, ps2)) :
    (m >>= f) p = .ok (b, q, ps1 ++ ps2) := by
  rw [bind_def, h]; simp only; rw [h2]

@[simp] theorem emit_def (bs : Bytes) (p : Nat) :
    emit bs p = .ok ((), p + bs.length, [⟨p, bs⟩]) := rfl
@[simp] theorem pos_def (p : Nat) : pos p = .ok (p, p, []) := rfl
@[simp] theorem seekTo_def (n p : Nat) : seekTo n p = .ok ((), n, []) := rfl

end Wr

end Rekordcrate
