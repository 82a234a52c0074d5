import Verif.Lemmas.Text
import Verif.Lemmas.Header
import Verif.Spec.DString

/-! # Helper lemmas for DeviceSQL strings -/

namespace Rekordcrate
open Rd

theorem Rd.RT.lift {α : Type} {r : Res α} {a : α} (h : r = .ok a) : RT (Rd.lift r) [] a := by
  intro d p _; subst h; simp [Rd.lift]

theorem Rd.lift_ok {α : Type} (a : α) : Rd.lift (.ok a) = (pure a : Rd α) := by
  funext d p; rfl

theorem Rd.NP.lift {α : Type} {r : Res α} (h : r ≠ .panic) : NP (Rd.lift r) := by
  intro d p; unfold Rd.lift; cases r <;> simp_all

theorem Rd.Inv.lift {α : Type} (r : Res α) :
    Inv (Rd.lift r) (fun a bs => r = .ok a ∧ bs = []) := by
  intro d p a p' h
  unfold Rd.lift at h
  cases r with
  | ok b => simp at h; exact ⟨[], HasAt.nil _ _, by simp [h.2], by simp [h.1], rfl⟩
  | err e => simp at h
  | panic => simp at h

theorem subU_ok {a b : Nat} (h : b ≤ a) : subU a b = .ok (a - b) := by simp [subU, h]
theorem subU_panic {a b : Nat} (h : a < b) : subU a b = .panic := by
  simp [subU]; omega
theorem subU_eq_ok {a b n : Nat} (h : subU a b = .ok n) : b ≤ a ∧ n = a - b := by
  unfold subU at h
  split at h
  · injection h with h; exact ⟨by assumption, h.symm⟩
  · cases h

theorem encU16_ofNat_of_lt {n : Nat} (h : n < 65536) : (UInt16.ofNat n).toNat = n := by
  rw [UInt16.toNat_ofNat']; omega

theorem flatMap_encU16_length (us : List UInt16) : (us.flatMap encU16).length = us.length * 2 := by
  induction us with
  | nil => rfl
  | cons u us ih =>
    simp only [List.flatMap_cons, List.length_append, encU16_length, ih, List.length_cons]; omega

theorem encU16_eq (u : UInt16) :
    encU16 u = [UInt8.ofNat (u.toNat % 256), UInt8.ofNat (u.toNat / 256 % 256)] := rfl

/-! ## Short strings -/

theorem DString.readShort_rt {c : Bytes} (h : c.length ≤ 126) :
    RT DString.readShort ([UInt8.ofNat (((c.length + 1) * 2 + 1) % 256)] ++ c) (.short c) := by
  have hh : (UInt8.ofNat (((c.length + 1) * 2 + 1) % 256)).toNat = (c.length + 1) * 2 + 1 := by
    rw [UInt8.toNat_ofNat']; omega
  refine RT.bind (RT.u8 _) ?_
  refine (RT.bind (RT.require (by simp [hh])) ?_).congr_bytes (List.nil_append _)
  refine (RT.bind (RT.lift (a := c.length) ?_) ?_).congr_bytes (List.nil_append _)
  · rw [hh, subU_ok (by omega)]; congr 1; omega
  · exact RT.bind_pure (RT.bytes c)

theorem DString.readShort_inv :
    Inv DString.readShort (fun v bs => ∃ c, v = .short c ∧ c.length ≤ 126 ∧
      bs = [UInt8.ofNat (((c.length + 1) * 2 + 1) % 256)] ++ c) := by
  unfold DString.readShort
  refine Inv.bind Inv.u8 ?_
  rintro h _ rfl
  refine Inv.bind (Inv.require _ _) ?_
  rintro _ _ ⟨hodd, rfl⟩
  refine Inv.bind (Inv.lift _) ?_
  rintro n _ ⟨hn, rfl⟩
  obtain ⟨h1, rfl⟩ := subU_eq_ok hn
  refine Inv.bind (Inv.bytes _) ?_
  rintro c _ ⟨rfl, hc⟩
  rename_i c
  refine (Inv.pure _).mono ?_
  rintro _ _ ⟨rfl, rfl⟩
  have hlt := h.toNat_lt
  simp only [beq_iff_eq] at hodd
  refine ⟨c, rfl, by omega, ?_⟩
  have : UInt8.ofNat (((c.length + 1) * 2 + 1) % 256) = h := by
    apply UInt8.toNat_inj.1
    rw [UInt8.toNat_ofNat']; omega
  simp [this, encU8]

/-- On an even first byte the short variant reports an error. -/
theorem DString.readShort_err_of_even {b : UInt8} (h : b.toNat % 2 = 0) (d : Bytes) (p : Nat)
    (hd : HasAt d p [b]) : ∃ e, DString.readShort d p = .err e := by
  unfold DString.readShort
  rw [bind_of_ok (RT.u8 b d p hd)]
  exact ⟨_, require_false_err (by simp [h]) _ _ _⟩

/-! ## Long strings -/

theorem LongBody.read_ascii (c : Bytes) : RT (LongBody.read 0x40 c.length) c (.ascii c) := by
  unfold LongBody.read
  apply RT.orElse_right
  · intro d p _
    exact ⟨_, require_false_err (by decide) _ _ _⟩
  · apply RT.orElse_left
    rw [require_true_bind (by decide)]
    exact RT.bind_pure (RT.bytes c)

theorem LongBody.read_isrc {c : Bytes} (h : (0 : UInt8) ∉ c) (n : Nat) :
    RT (LongBody.read 0x90 n) ([3] ++ encNullString c) (.isrc c) := by
  unfold LongBody.read
  apply RT.orElse_left
  rw [require_true_bind (by decide)]
  exact RT.bind (RT.magic [3]) (RT.bind_pure (readNullString_rt h))

/-- The ISRC alternative cannot succeed if the next byte is not 3. -/
theorem LongBody.isrc_err {d : Bytes} {p : Nat}
    (h : ∀ b, d[p]? = some b → b ≠ 3) :
    ∃ e, (do Rd.require (0x90 == (0x90 : UInt8)); Rd.magic [0x3]; let s ← readNullString
             pure (LongBody.isrc s) : Rd LongBody) d p = .err e := by
  rw [require_true_bind (by decide)]
  have : ∃ e, Rd.magic [3] d p = .err e := by
    cases hb : Rd.bytes [(3 : UInt8)].length d p with
    | ok x =>
      obtain ⟨bs, p'⟩ := x
      show ∃ e, (Rd.bytes [(3 : UInt8)].length >>= _ : Rd Unit) d p = .err e
      rw [bind_of_ok hb]
      obtain ⟨h1, h2, _⟩ := bytes_eq_ok.1 hb
      simp at h1
      match bs, h1 with
      | [b], _ =>
        have := h2 0 (by simp)
        simp at this
        rw [if_neg (by simpa using h b this)]
        exact ⟨_, rfl⟩
    | err e => exact ⟨e, bind_of_err hb⟩
    | panic => exact absurd hb (bytes_no_panic _ _ _)
  obtain ⟨e, he⟩ := this
  exact ⟨e, bind_of_err he⟩

theorem LongBody.ucs2_alt (us : List UInt16) :
    RT (do
        Rd.require (0x90 == (0x90 : UInt8))
        Rd.require (us.length * 2 % 2 == 0)
        let us ← Rd.many Rd.u16 (us.length * 2 / 2)
        pure (LongBody.ucs2le us)) (us.flatMap encU16) (.ucs2le us) := by
  rw [require_true_bind (by decide), require_true_bind (by simp)]
  exact RT.bind_pure (RT.many' (by omega) fun u _ => RT.u16 u)

theorem LongBody.read_ucs2_of_isrc_err {us : List UInt16} {d : Bytes} {p : Nat}
    (hd : HasAt d p (us.flatMap encU16))
    (h : ∃ e, (do Rd.require (0x90 == (0x90 : UInt8)); Rd.magic [0x3]; let s ← readNullString
                  pure (LongBody.isrc s) : Rd LongBody) d p = .err e) :
    LongBody.read 0x90 (us.length * 2) d p = .ok (.ucs2le us, p + (us.flatMap encU16).length) := by
  obtain ⟨e, he⟩ := h
  unfold LongBody.read Rd.orElse
  rw [he]
  simp only
  rw [require_false_err (by decide)]
  exact LongBody.ucs2_alt us d p hd

theorem first_byte_of_units {u : UInt16} {us : List UInt16} {d : Bytes} {p : Nat}
    (hd : HasAt d p ((u :: us).flatMap encU16)) : d[p]? = some (UInt8.ofNat (u.toNat % 256)) := by
  have := hd 0 (by rw [flatMap_encU16_length]; simp)
  simpa [encU16_eq] using this

theorem LongBody.read_ucs2 {us : List UInt16} (hne : us ≠ []) (h : ¬ StartsLikeIsrc us) :
    RT (LongBody.read 0x90 (us.length * 2)) (us.flatMap encU16) (.ucs2le us) := by
  intro d p hd
  apply LongBody.read_ucs2_of_isrc_err hd
  apply LongBody.isrc_err
  intro b hb
  match us, hne with
  | u :: us, _ =>
    rw [first_byte_of_units hd] at hb
    injection hb with hb
    intro h3
    apply h
    refine ⟨u, us, rfl, ?_⟩
    rw [h3] at hb
    have := congrArg UInt8.toNat hb
    rw [UInt8.toNat_ofNat'] at this
    simp only [UInt8.reduceToNat] at this
    omega

/-- Bytes of a long string, with the length field spelled out. -/
def longBytes (flags : UInt8) (length : Nat) (body : Bytes) : Bytes :=
  [flags] ++ (encU16 (UInt16.ofNat length) ++ ([0] ++ body))

theorem DString.readLong_eq {flags : UInt8} {length : Nat} {body : Bytes}
    (he : flags.toNat % 2 = 0) (hl : length < 65536) (h4 : 4 ≤ length) {d : Bytes} {p : Nat}
    (hd : HasAt d p (longBytes flags length body)) :
    DString.read d p = (do
      let content ← LongBody.read flags (length - 4)
      pure (DString.long content)) d (p + 4) := by
  unfold longBytes at hd
  rw [HasAt.append_iff, HasAt.append_iff, HasAt.append_iff] at hd
  obtain ⟨h1, h2, h3, _⟩ := hd
  change HasAt d p (encU8 flags) at h1
  change HasAt d (p + (encU8 flags).length) _ at h2
  change HasAt d (p + (encU8 flags).length + _) _ at h3
  obtain ⟨e, hs⟩ := DString.readShort_err_of_even he d p h1
  unfold DString.read Rd.orElse
  rw [hs]
  simp only
  unfold DString.readLong
  rw [bind_of_ok (RT.u8 flags d p h1), require_true_bind (by simp [he]),
    bind_of_ok (RT.u16 _ d _ h2), encU16_ofNat_of_lt hl, subU_ok h4, Rd.lift_ok,
    bind_of_ok (a := length - 4) (p' := p + (encU8 flags).length + (encU16 (UInt16.ofNat length)).length) rfl,
    bind_of_ok (RT.magic [0] d _ h3)]
  simp

theorem DString.readLong_rt {flags : UInt8} {length : Nat} {body : Bytes} {b : LongBody}
    (he : flags.toNat % 2 = 0) (hl : length < 65536) (h4 : 4 ≤ length)
    (hr : RT (LongBody.read flags (length - 4)) body b) :
    RT DString.read (longBytes flags length body) (.long b) := by
  intro d p hd
  rw [DString.readLong_eq he hl h4 hd]
  have : HasAt d (p + 4) body := by
    unfold longBytes at hd
    rw [HasAt.append_iff, HasAt.append_iff, HasAt.append_iff] at hd
    simpa using hd.2.2.2
  rw [bind_of_ok (hr d _ this)]
  simp [longBytes]; omega

theorem LongBody.flags_even (b : LongBody) : b.flags.toNat % 2 = 0 := by
  cases b <;> simp [LongBody.flags]

/-- Bytes written for a long body. -/
theorem DString.enc_long {b : LongBody} {n : Nat} (hn : b.byteCount = .ok n) (h : n + 4 < 65536) :
    (DString.long b).enc = .ok (longBytes b.flags (n + 4) b.enc) := by
  simp [DString.enc, hn, addU16, h, longBytes]

theorem DString.enc_long_panic {b : LongBody} (h : ∀ n, b.byteCount = .ok n → 65536 ≤ n + 4) :
    (DString.long b).enc = .panic := by
  unfold DString.enc
  simp only
  split
  · rename_i n hn
    have := h n hn
    simp [addU16]
    rw [if_neg (by omega)]
    rfl
  · rfl

theorem DString.heapBytes_long {b : LongBody} {n : Nat} (hn : b.byteCount = .ok n) (h : n + 4 < 65536) :
    (DString.long b).heapBytes = .ok (n + 4) := by
  simp only [DString.heapBytes, hn, addU16]
  rw [if_pos (by omega)]; congr 1; omega

theorem DString.heapBytes_long_panic {b : LongBody} (h : ∀ n, b.byteCount = .ok n → 65536 ≤ n + 4) :
    (DString.long b).heapBytes = .panic := by
  simp only [DString.heapBytes]
  split
  · rename_i n hn
    have := h n hn
    simp [addU16]
    omega
  · rfl

theorem LongBody.byteCount_ok {b : LongBody} (h : b.enc.length < 65536) :
    b.byteCount = .ok b.enc.length := by
  cases b with
  | ucs2le us =>
    simp only [LongBody.enc, flatMap_encU16_length] at h ⊢
    simp [LongBody.byteCount, h]
  | isrc c => simp_all [LongBody.byteCount, LongBody.enc, encNullString]
  | ascii c => simp_all [LongBody.byteCount, LongBody.enc]

theorem LongBody.byteCount_eq_ok {b : LongBody} {n : Nat} (h : b.byteCount = .ok n) :
    n = b.enc.length := by
  unfold LongBody.byteCount at h
  cases b <;> simp only at h <;> split at h <;>
    first
    | (injection h with h; rw [← h]; simp only [LongBody.enc, flatMap_encU16_length]; done)
    | (injection h with h; rw [← h]; simp [LongBody.enc, encNullString])
    | cases h

/-- What the writer produces, in general. -/
theorem DString.enc_eq_ok {v : DString} {bs : Bytes} (h : v.enc = .ok bs) :
    (∃ c, v = .short c ∧ bs = [UInt8.ofNat (((c.length + 1) * 2 + 1) % 256)] ++ c) ∨
    (∃ b, v = .long b ∧ b.enc.length + 4 < 65536 ∧ bs = longBytes b.flags (b.enc.length + 4) b.enc) := by
  cases v with
  | short c =>
    left; simp [DString.enc] at h; exact ⟨c, rfl, by simp [h]⟩
  | long b =>
    right
    by_cases hb : b.enc.length + 4 < 65536
    · rw [DString.enc_long (LongBody.byteCount_ok (by omega)) hb] at h
      injection h with h
      exact ⟨b, rfl, hb, h.symm⟩
    · rw [DString.enc_long_panic] at h
      · cases h
      · intro n hn; rw [LongBody.byteCount_eq_ok hn]; omega

/-- Storable values are written and read back. -/
theorem DString.storable_rt {v : DString} (h : v.Storable) :
    ∃ bs, v.enc = .ok bs ∧ RT DString.read bs v := by
  cases v with
  | short c =>
    exact ⟨_, rfl, RT.orElse_left (DString.readShort_rt h)⟩
  | long b =>
    have hl : b.enc.length + 4 < 65536 := by
      cases b with
      | ascii c => simp only [Storable] at h; simp [LongBody.enc]; omega
      | isrc c =>
        simp only [Storable] at h; simp [LongBody.enc, encNullString]; omega
      | ucs2le us =>
        simp only [Storable] at h; simp only [LongBody.enc, flatMap_encU16_length]; omega
    refine ⟨_, DString.enc_long (LongBody.byteCount_ok (by omega)) hl, ?_⟩
    apply DString.readLong_rt b.flags_even hl (by omega)
    rw [show b.enc.length + 4 - 4 = b.enc.length by omega]
    cases b with
    | ascii c => exact LongBody.read_ascii c
    | isrc c => exact LongBody.read_isrc h.2 _
    | ucs2le us =>
      simp only [LongBody.enc, LongBody.flags, flatMap_encU16_length]
      exact LongBody.read_ucs2 h.1 h.2.2

/-! ## Inversion -/

/-- What a successful parse consumed. -/
inductive DString.ParsedAs : DString → Bytes → Prop where
  | short (c : Bytes) (h : c.length ≤ 126) :
      ParsedAs (.short c) ([UInt8.ofNat (((c.length + 1) * 2 + 1) % 256)] ++ c)
  | ascii (c : Bytes) (h : c.length ≤ 65531) :
      ParsedAs (.long (.ascii c)) (longBytes 0x40 (c.length + 4) c)
  | ucs2le (us : List UInt16) (h : us.length ≤ 32765) :
      ParsedAs (.long (.ucs2le us)) (longBytes 0x90 (us.length * 2 + 4) (us.flatMap encU16))
  | isrc (c : Bytes) (len : Nat) (h4 : 4 ≤ len) (hl : len < 65536) (h0 : (0 : UInt8) ∉ c) :
      ParsedAs (.long (.isrc c)) (longBytes 0x90 len ([3] ++ encNullString c))

theorem LongBody.read_inv (flags : UInt8) (n : Nat) :
    Inv (LongBody.read flags n) (fun b bs => bs = b.enc ∧ flags = b.flags ∧
      (∀ c, b = .isrc c → (0 : UInt8) ∉ c) ∧ ((∀ c, b ≠ .isrc c) → bs.length = n)) := by
  unfold LongBody.read
  refine Inv.orElse ?_ (Inv.orElse ?_ ?_)
  · refine Inv.bind (Inv.require _ _) ?_
    rintro _ _ ⟨hf, rfl⟩
    refine Inv.bind (Inv.magic _) ?_
    rintro _ _ rfl
    refine (Inv.bind_pure readNullString_inv).mono ?_
    rintro b _ ⟨c, rfl, rfl, h0⟩
    exact ⟨rfl, by simpa [LongBody.flags] using hf, by simpa using h0, fun h => absurd rfl (h c)⟩
  · refine Inv.bind (Inv.require _ _) ?_
    rintro _ _ ⟨hf, rfl⟩
    refine (Inv.bind_pure (Inv.bytes _)).mono ?_
    rintro b _ ⟨c, rfl, rfl, hc⟩
    exact ⟨rfl, by simpa [LongBody.flags] using hf, by simp, fun _ => by simp [hc]⟩
  · refine Inv.bind (Inv.require _ _) ?_
    rintro _ _ ⟨hf, rfl⟩
    refine Inv.bind (Inv.require _ _) ?_
    rintro _ _ ⟨hn, rfl⟩
    refine (Inv.bind_pure (Inv.many Inv.u16 encU16 (fun _ _ h => h) _)).mono ?_
    rintro b _ ⟨us, rfl, rfl, hl⟩
    refine ⟨rfl, by simpa [LongBody.flags] using hf, by simp, fun _ => ?_⟩
    simp only [List.nil_append, flatMap_encU16_length]
    simp at hn
    omega

theorem DString.read_inv : Inv DString.read DString.ParsedAs := by
  unfold DString.read
  refine Inv.orElse ?_ ?_
  · refine DString.readShort_inv.mono ?_
    rintro v bs ⟨c, rfl, hc, rfl⟩
    exact .short c hc
  · unfold DString.readLong
    refine Inv.bind Inv.u8 ?_
    rintro f _ rfl
    refine Inv.bind (Inv.require _ _) ?_
    rintro _ _ ⟨hf, rfl⟩
    refine Inv.bind Inv.u16 ?_
    rintro l _ rfl
    refine Inv.bind (Inv.lift _) ?_
    rintro n _ ⟨hn, rfl⟩
    obtain ⟨h4, rfl⟩ := subU_eq_ok hn
    refine Inv.bind (Inv.magic _) ?_
    rintro _ _ rfl
    refine (Inv.bind_pure (LongBody.read_inv _ _)).mono ?_
    rintro v bs ⟨b, rfl, rfl, rfl, h0, hl⟩
    have hlt := l.toNat_lt
    have hl' : l = UInt16.ofNat l.toNat := by simp
    have key : encU8 b.flags ++ ([] ++ (encU16 l ++ ([] ++ ([0] ++ b.enc)))) =
        longBytes b.flags l.toNat b.enc := by
      simp [longBytes, encU8]
    rw [key]
    cases b with
    | isrc c => exact .isrc c _ h4 hlt (h0 c rfl)
    | ascii c =>
      have := hl (by simp)
      simp only [LongBody.enc] at this
      rw [show l.toNat = c.length + 4 by omega]
      exact .ascii c (by omega)
    | ucs2le us =>
      have := hl (by simp)
      simp only [LongBody.enc, flatMap_encU16_length] at this
      rw [show l.toNat = us.length * 2 + 4 by omega]
      exact .ucs2le us (by omega)

theorem DString.ParsedAs.enc_eq {v : DString} {bs : Bytes} (h : DString.ParsedAs v bs)
    (hi : ∀ c, v ≠ .long (.isrc c)) : v.enc = .ok bs := by
  cases h with
  | short c h => rfl
  | ascii c h =>
    exact DString.enc_long (LongBody.byteCount_ok (b := .ascii c) (by simp [LongBody.enc]; omega))
      (by omega)
  | ucs2le us h =>
    have := DString.enc_long (LongBody.byteCount_ok (b := .ucs2le us)
      (by simp only [LongBody.enc, flatMap_encU16_length]; omega))
      (by simp only [LongBody.enc, flatMap_encU16_length]; omega)
    simpa only [LongBody.enc, flatMap_encU16_length, LongBody.flags] using this
  | isrc c len h4 hl h0 => exact absurd rfl (hi c)

/-! ## Panics -/

theorem LongBody.read_np (flags : UInt8) (n : Nat) : NP (LongBody.read flags n) :=
  NP.orElse (NP.bind (NP.require _ _) fun _ => NP.bind (NP.magic _) fun _ =>
      NP.bind readNullString_np fun _ => NP.pure _)
    (NP.orElse (NP.bind (NP.require _ _) fun _ => NP.bind (NP.bytes _) fun _ => NP.pure _)
      (NP.bind (NP.require _ _) fun _ => NP.bind (NP.require _ _) fun _ =>
        NP.bind (NP.many NP.u16 _) fun _ => NP.pure _))

theorem u8_eq {d : Bytes} {p : Nat} : Rd.u8 d p = match d[p]? with
    | some b => .ok (b, p + 1)
    | none => .err .eof := by
  cases h : d[p]? with
  | some b =>
    have : HasAt d p (encU8 b) := by
      intro i hi
      simp [encU8] at hi ⊢
      subst hi; simp [h]
    exact RT.u8 b d p this
  | none =>
    have hl : d.length ≤ p := by simpa using h
    unfold Rd.u8
    rw [bind_of_err (e := .eof)]
    unfold Rd.bytes
    simp [List.drop_eq_nil_of_le hl]

theorem u16_ok_iff {d : Bytes} {p : Nat} {x : UInt16} {p' : Nat} :
    Rd.u16 d p = .ok (x, p') ↔ U16At d p x.toNat ∧ p' = p + 2 := by
  constructor
  · intro h
    obtain ⟨bs, hb, rfl, rfl⟩ := Inv.u16 _ _ _ _ h
    refine ⟨⟨UInt8.ofNat (x.toNat % 256), UInt8.ofNat (x.toNat / 256 % 256), ?_, ?_, ?_⟩, by simp⟩
    · simpa [encU16_eq] using hb 0 (by simp)
    · simpa [encU16_eq] using hb 1 (by simp)
    · have := x.toNat_lt
      simp only [UInt8.toNat_ofNat']
      omega
  · rintro ⟨⟨lo, hi, h1, h2, h3⟩, rfl⟩
    have hb : HasAt d p (encU16 x) := by
      have e1 : UInt8.ofNat (x.toNat % 256) = lo := by
        apply UInt8.toNat_inj.1; rw [UInt8.toNat_ofNat']; have := lo.toNat_lt; omega
      have e2 : UInt8.ofNat (x.toNat / 256 % 256) = hi := by
        apply UInt8.toNat_inj.1; rw [UInt8.toNat_ofNat']
        have := lo.toNat_lt; have := hi.toNat_lt; omega
      rw [encU16_eq, e1, e2]
      intro i hi
      match i with
      | 0 => simp [h1]
      | 1 => simp [h2]
      | i + 2 => simp at hi; omega
    simpa using RT.u16 x d p hb

theorem DString.readShort_panic_iff (d : Bytes) (p : Nat) :
    DString.readShort d p = .panic ↔ d[p]? = some 1 := by
  unfold DString.readShort
  rw [bind_eq_panic, u8_eq]
  cases hb : d[p]? with
  | none => simp
  | some b =>
    simp only [reduceCtorEq, Res.ok.injEq, Prod.mk.injEq, false_or, Option.some.injEq]
    have hlt := b.toNat_lt
    constructor
    · rintro ⟨a, p', ⟨rfl, rfl⟩, h⟩
      by_cases ho : b.toNat % 2 = 1
      · rw [require_true_bind (by simp [ho])] at h
        by_cases h1 : b.toNat / 2 < 1
        · apply UInt8.toNat_inj.1; simp; omega
        · rw [subU_ok (by omega), Rd.lift_ok] at h
          exact absurd h ((NP.bind (NP.pure _) fun n => NP.bind (NP.bytes _) fun _ => NP.pure _) d _)
      · rw [require_false_err (by simp [ho])] at h; cases h
    · rintro rfl
      exact ⟨1, p + 1, ⟨rfl, rfl⟩, rfl⟩

theorem DString.readLong_panic_iff (d : Bytes) (p : Nat) :
    DString.readLong d p = .panic ↔
      ∃ b n, d[p]? = some b ∧ b.toNat % 2 = 0 ∧ U16At d (p + 1) n ∧ n < 4 := by
  unfold DString.readLong
  rw [bind_eq_panic, u8_eq]
  cases hb : d[p]? with
  | none => simp
  | some b =>
    simp only [reduceCtorEq, Res.ok.injEq, Prod.mk.injEq, false_or, Option.some.injEq]
    constructor
    · rintro ⟨a, p', ⟨rfl, rfl⟩, h⟩
      by_cases ho : b.toNat % 2 = 0
      · rw [require_true_bind (by simp [ho]), bind_eq_panic] at h
        rcases h with h | ⟨l, p', hl, h⟩
        · exact absurd h (NP.u16 _ _)
        · obtain ⟨hu, rfl⟩ := u16_ok_iff.1 hl
          by_cases h4 : l.toNat < 4
          · exact ⟨b, _, rfl, ho, hu, h4⟩
          · rw [subU_ok (by omega), Rd.lift_ok] at h
            exact absurd h ((NP.bind (NP.pure _) fun n => NP.bind (NP.magic _) fun _ =>
              NP.bind (LongBody.read_np _ _) fun _ => NP.pure _) d _)
      · rw [require_false_err (by simp [ho])] at h; cases h
    · rintro ⟨b', n, rfl, ho, hu, hn⟩
      refine ⟨b, p + 1, ⟨rfl, rfl⟩, ?_⟩
      have hn' : (UInt16.ofNat n).toNat = n := encU16_ofNat_of_lt (by omega)
      rw [require_true_bind (by simp [ho]), bind_of_ok (u16_ok_iff.2 ⟨hn'.symm ▸ hu, rfl⟩), hn',
        subU_panic hn]
      rfl

theorem DString.readShort_ok_odd {d : Bytes} {p : Nat} {v : DString} {p' : Nat}
    (h : DString.readShort d p = .ok (v, p')) : ∃ b, d[p]? = some b ∧ b.toNat % 2 = 1 := by
  obtain ⟨bs, hb, -, c, -, hc, rfl⟩ := DString.readShort_inv _ _ _ _ h
  refine ⟨_, by simpa using hb 0 (by simp), ?_⟩
  rw [UInt8.toNat_ofNat']; omega

/-! ## Text -/

theorem utf16Char_double_le (c : Char) (hc : 128 ≤ c.toNat) :
    2 * (utf16Char c).length ≤ (String.utf8EncodeChar c).length := by
  rw [String.length_utf8EncodeChar]
  rcases Char.utf8Size_eq c with h | h | h | h
  · have h' := (Char.utf8Size_eq_one_iff).1 h
    have h' : c.toNat ≤ 127 := h'
    omega
  · have h' := (Char.utf8Size_eq_two_iff).1 h
    have h' : c.toNat ≤ 0x7ff := h'.2
    have : c.toNat < 0x10000 := by omega
    simp [utf16Char, this, h]
  · have h' := (Char.utf8Size_eq_three_iff).1 h
    have h' : c.toNat ≤ 0xffff := h'.2
    have : c.toNat < 0x10000 := by omega
    simp [utf16Char, this, h]
  · have : (utf16Char c).length ≤ 2 := by unfold utf16Char; split <;> simp
    rw [h]; omega

theorem utf16Bytes_vs_utf8 (cs : List Char) (z : Bytes)
    (h : (cs.flatMap utf16Char).flatMap encU16 = z ++ [0]) (h0 : (0 : UInt8) ∉ z) :
    z.length ≤ (cs.flatMap String.utf8EncodeChar).length := by
  induction cs generalizing z with
  | nil => simp at h
  | cons c cs ih =>
    simp only [List.flatMap_cons, List.flatMap_append] at h ⊢
    have hl := congrArg List.length h
    simp only [List.length_append, flatMap_encU16_length, List.length_singleton] at hl ⊢
    obtain ⟨hle, hlt⟩ := utf16Char_length_le c
    have hpos : 1 ≤ (utf16Char c).length ∧ (utf16Char c).length ≤ 2 := by
      unfold utf16Char; split <;> simp
    by_cases hcs : cs = []
    · subst hcs
      simp only [List.flatMap_nil, List.length_nil] at hl ⊢
      by_cases h2 : 128 ≤ c.toNat
      · have := hlt h2; omega
      · have : (utf16Char c).length = 1 := by unfold utf16Char; rw [if_pos (by omega)]; rfl
        omega
    · -- split `z`
      have hne : 1 ≤ (cs.flatMap utf16Char).length := by
        match cs, hcs with
        | c' :: cs', _ =>
          have : 1 ≤ (utf16Char c').length := by unfold utf16Char; split <;> simp
          simp only [List.flatMap_cons, List.length_append]; omega
      have hz : z = (utf16Char c).flatMap encU16 ++ z.drop ((utf16Char c).length * 2) := by
        have h1 := congrArg (List.take ((utf16Char c).length * 2)) h
        rw [List.take_append_of_le_length (by rw [flatMap_encU16_length]; omega),
          List.take_append_of_le_length (by omega),
          List.take_of_length_le (by rw [flatMap_encU16_length]; omega)] at h1
        rw [h1, List.take_append_drop]
      have hrest : (cs.flatMap utf16Char).flatMap encU16 = z.drop ((utf16Char c).length * 2) ++ [0] := by
        rw [hz, List.append_assoc] at h
        exact List.append_cancel_left h
      have ih' := ih _ hrest (fun hm => h0 (List.mem_of_mem_drop hm))
      simp only [List.length_drop] at ih'
      have h128 : 128 ≤ c.toNat := by
        apply Classical.byContradiction
        intro hn
        apply h0
        rw [hz]
        apply List.mem_append_left
        unfold utf16Char
        rw [if_pos (by omega)]
        simp only [List.flatMap_cons, List.flatMap_nil, encU16_eq, List.append_nil]
        have : (UInt16.ofNat c.toNat).toNat / 256 % 256 = 0 := by
          rw [UInt16.toNat_ofNat']; omega
        rw [this]; simp
      have := utf16Char_double_le c h128
      omega

/-- A UTF-16 string that starts like an ISRC is read back as a different text when a NUL byte
follows it. -/
theorem DString.ucs2_misread {s : String} {bs : Bytes}
    (h3 : StartsLikeIsrc (encodeUtf16 s)) (he : (DString.long (.ucs2le (encodeUtf16 s))).enc = .ok bs)
    {v : DString} {p' : Nat} (hr : DString.read (bs ++ [0]) 0 = .ok (v, p'))
    (hv : v.intoString = .ok s) : p' ≠ bs.length := by
  rcases DString.enc_eq_ok he with ⟨c, hc, -⟩ | ⟨b, hb, hl, rfl⟩
  · cases hc
  injection hb with hb
  subst hb
  obtain ⟨u, rest, hu, hu3⟩ := h3
  have hat : HasAt (longBytes (LongBody.ucs2le (encodeUtf16 s)).flags
      ((LongBody.ucs2le (encodeUtf16 s)).enc.length + 4) (LongBody.ucs2le (encodeUtf16 s)).enc ++ [0]) 0
      (longBytes (LongBody.ucs2le (encodeUtf16 s)).flags
      ((LongBody.ucs2le (encodeUtf16 s)).enc.length + 4) (LongBody.ucs2le (encodeUtf16 s)).enc) :=
    (HasAt.append_iff.1 (hasAt_self _)).1
  rw [DString.readLong_eq (LongBody.flags_even _) hl (by omega) hat] at hr
  rw [Nat.add_sub_cancel] at hr
  simp only [LongBody.enc, LongBody.flags, flatMap_encU16_length] at hr ⊢
  -- the ISRC alternative succeeds
  have hu8 : UInt8.ofNat (u.toNat % 256) = 3 := by rw [hu3]; rfl
  let body : Bytes := UInt8.ofNat (u.toNat / 256 % 256) :: rest.flatMap encU16
  have hbody : (encodeUtf16 s).flatMap encU16 = 3 :: body := by
    rw [hu]; simp [encU16_eq, hu8, body]
  rw [hbody] at hr ⊢
  generalize hlen : (encodeUtf16 s).length * 2 + 4 = len at hr ⊢
  -- content read
  let cont := (body ++ [0]).takeWhile (· != 0)
  have hex : ∃ x ∈ body ++ [0], x = 0 := ⟨0, by simp, rfl⟩
  have hsplit : ∃ tail, body ++ [0] = cont ++ 0 :: tail ∧ (0 : UInt8) ∉ cont := by
    have h1 := List.takeWhile_append_dropWhile (p := (· != (0 : UInt8))) (l := body ++ [0])
    have h0 : (0 : UInt8) ∉ cont := by
      intro hm
      have := List.all_eq_true.1 (List.all_takeWhile (p := (· != (0 : UInt8))) (l := body ++ [0])) 0 hm
      simp at this
    cases hdw : (body ++ [0]).dropWhile (· != (0 : UInt8)) with
    | nil =>
      rw [hdw, List.append_nil] at h1
      exact absurd (show (0 : UInt8) ∈ cont by show _ ∈ List.takeWhile _ _; rw [h1]; simp) h0
    | cons a t =>
      have ha : a = 0 := by
        have := List.head?_dropWhile_not (p := (· != (0 : UInt8))) (l := body ++ [0])
        rw [hdw] at this
        simpa using this
      refine ⟨t, ?_, h0⟩
      rw [hdw, ha] at h1
      exact h1.symm
  obtain ⟨tail, htail, h0⟩ := hsplit
  have himg : longBytes 0x90 len (3 :: body) ++ [0] =
      longBytes 0x90 len ([3] ++ encNullString cont) ++ tail := by
    have : (3 :: body) ++ [0] = [3] ++ encNullString cont ++ tail := by
      simp [encNullString, htail]
    simp only [longBytes, List.append_assoc] at this ⊢
    rw [this]
  rw [himg] at hr
  have hrd := LongBody.read_isrc h0 ((encodeUtf16 s).length * 2)
    (longBytes 0x90 len ([3] ++ encNullString cont) ++ tail) (0 + 4) (by
      have : longBytes 0x90 len ([3] ++ encNullString cont) ++ tail =
        ([0x90] ++ encU16 (UInt16.ofNat len) ++ [0]) ++ ([3] ++ encNullString cont) ++ tail := by
        simp [longBytes]
      rw [this]
      have := hasAt_append_mid ([0x90] ++ encU16 (UInt16.ofNat len) ++ [0]) ([3] ++ encNullString cont) tail
      simpa using this)
  rw [bind_of_ok hrd] at hr
  simp only [Rd.pure_def, Res.ok.injEq, Prod.mk.injEq] at hr
  obtain ⟨rfl, rfl⟩ := hr
  -- the text is the content
  simp only [DString.intoString, Res.ofOption] at hv
  split at hv
  · rename_i t ht
    injection hv with hv
    subst hv
    have hc := utf8_of_fromUtf8 ht
    intro hp
    simp only [longBytes, List.length_append, List.length_cons, List.length_nil, encNullString,
      encU16_length] at hp
    have htl := congrArg List.length htail
    simp only [List.length_append, List.length_cons, List.length_nil] at htl
    have ht0 : tail.length = 1 := by omega
    -- so the NUL is the last byte of the body
    have hbl : body = cont ++ [0] := by
      match tail, ht0 with
      | [x], _ =>
        have : body ++ [0] = (cont ++ [0]) ++ [x] := by simpa using htail
        exact (List.append_inj' this rfl).1
    have := utf16Bytes_vs_utf8 t.toList (3 :: cont) (by
      show (encodeUtf16 t).flatMap encU16 = _
      rw [hbody, hbl]; simp) (by simp [h0])
    rw [← utf8_eq_flatMap, hc] at this
    simp at this
    omega
  · cases hv

end Rekordcrate
