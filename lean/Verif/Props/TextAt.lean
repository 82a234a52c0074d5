import Verif.Lemmas.AnlzPanic
import Verif.Props.Wrap
import Verif.Spec.TextAt

/-! # C93: which bytes are read as which string -/

namespace Rekordcrate
open Rd

/-- A byte read as a magic number. -/
theorem magic_byte_ok {b : UInt8} {d : Bytes} {p q : Nat} {u : Unit} :
    Rd.magic [b] d p = .ok (u, q) ↔ d[p]? = some b ∧ q = p + 1 := by
  constructor
  · intro h
    obtain ⟨bs, hb, rfl, rfl⟩ := Inv.magic _ _ _ _ _ h
    have := hb 0 (by simp)
    simp at this
    exact ⟨this, by simp⟩
  · rintro ⟨h, rfl⟩
    exact RT.magic [b] d p (by intro i hi; match i with | 0 => simpa using h | i + 1 => simp at hi)

theorem isrc_alternative_err {d : Bytes} {p : Nat} (h : ¬ IsrcText d p) :
    ∃ e, (do Rd.require (0x90 == (0x90 : UInt8)); Rd.magic [0x3]; let s ← readNullString
             pure (LongBody.isrc s) : Rd LongBody) d p = .err e := by
  cases hr : (do Rd.require (0x90 == (0x90 : UInt8)); Rd.magic [0x3]; let s ← readNullString
                 pure (LongBody.isrc s) : Rd LongBody) d p with
  | err e => exact ⟨e, rfl⟩
  | panic =>
    exact absurd hr ((NP.bind (NP.require _ _) fun _ => NP.bind (NP.magic _) fun _ =>
      NP.bind readNullString_np fun _ => NP.pure _) d p)
  | ok x =>
    obtain ⟨v, q⟩ := x
    rw [require_true_bind (by decide)] at hr
    obtain ⟨_, q1, h1, hr⟩ := bind_eq_ok.1 hr
    obtain ⟨c, q2, h2, hr⟩ := bind_eq_ok.1 hr
    obtain ⟨bs1, a1, rfl, rfl⟩ := Inv.magic _ _ _ _ _ h1
    obtain ⟨bs2, a2, rfl, rfl, h0⟩ := readNullString_inv _ _ _ _ h2
    refine absurd ⟨c, h0, ?_⟩ h
    have := HasAt.append_iff.2 ⟨a1, a2⟩
    simpa [encNullString] using this

theorem read_short_release_iff {d : Bytes} {p : Nat} {v : DString} {q : Nat}
    (hd : d[p]? ≠ some 1 ∨ d.length < 2 ^ 64 - 1) :
    DString.readShortWrap d p = .ok (v, q) ↔ ∃ (head : UInt8) (text : Bytes), d[p]? = some head ∧
      head.toNat = 2 * (text.length + 1) + 1 ∧ HasAt d (p + 1) text ∧ v = .short text ∧ q = p + 1 + text.length := by
  constructor
  · intro h
    unfold DString.readShortWrap at h
    obtain ⟨b, p1, h1, h⟩ := bind_eq_ok.1 h
    rw [u8_eq] at h1
    cases hb : d[p]? with
    | none => rw [hb] at h1; cases h1
    | some b' =>
      rw [hb] at h1
      simp only [Res.ok.injEq, Prod.mk.injEq] at h1
      obtain ⟨rfl, rfl⟩ := h1
      obtain ⟨_, p2, h2, h⟩ := bind_eq_ok.1 h
      obtain ⟨ho, rfl⟩ := Anlz.require_ok h2
      obtain ⟨c, p3, h3, h⟩ := bind_eq_ok.1 h
      rw [pure_eq_ok] at h
      obtain ⟨rfl, rfl⟩ := h
      obtain ⟨hl, hat, hq⟩ := bytes_eq_ok.1 h3
      have hlt := b'.toNat_lt
      simp only [beq_iff_eq] at ho
      refine ⟨b', c, rfl, ?_, hat, rfl, by rw [hq, hl]⟩
      by_cases h0 : b'.toNat = 1
      · rcases hd with hd | hd
        · have h1 : b' = 1 := UInt8.toNat_inj.1 h0
          exact absurd (by rw [hb, h1]) hd
        · have e : subWrap64 (b'.toNat / 2) 1 = 2 ^ 64 - 1 := by rw [h0]; decide
          rw [e] at hl
          have := hat.bound (by intro h; rw [h] at hl; cases hl)
          omega
      · unfold subWrap64 at hl
        omega
  · rintro ⟨b, c, hb, hl, hat, rfl, rfl⟩
    have h1 : Rd.u8 d p = .ok (b, p + 1) := by rw [u8_eq, hb]
    have hlt := b.toNat_lt
    unfold DString.readShortWrap
    rw [bind_of_ok h1, require_true_bind (by simp; omega)]
    have e : subWrap64 (b.toNat / 2) 1 = c.length := by unfold subWrap64; omega
    rw [e, bind_of_ok (bytes_eq_ok.2 ⟨rfl, hat, rfl⟩)]
    rfl

theorem read_long_release_iff {d : Bytes} {p : Nat} {v : DString} {q : Nat} :
    DString.readLongWrap d p = .ok (v, q) ↔ ∃ (kind : UInt8) (n : Nat) (body : LongBody), LongHead d p kind n ∧
      kind.toNat % 2 = 0 ∧ LongBody.read kind (subWrap16 n 4) d (p + 4) = .ok (body, q) ∧ v = .long body := by
  constructor
  · intro h
    unfold DString.readLongWrap at h
    obtain ⟨b, p1, h1, h⟩ := bind_eq_ok.1 h
    rw [u8_eq] at h1
    cases hb : d[p]? with
    | none => rw [hb] at h1; cases h1
    | some b' =>
      rw [hb] at h1
      simp only [Res.ok.injEq, Prod.mk.injEq] at h1
      obtain ⟨rfl, rfl⟩ := h1
      obtain ⟨_, p2, h2, h⟩ := bind_eq_ok.1 h
      obtain ⟨ho, rfl⟩ := Anlz.require_ok h2
      obtain ⟨l, p3, h3, h⟩ := bind_eq_ok.1 h
      obtain ⟨hu, rfl⟩ := u16_ok_iff.1 h3
      obtain ⟨_, p4, h4, h⟩ := bind_eq_ok.1 h
      obtain ⟨hz, rfl⟩ := magic_byte_ok.1 h4
      obtain ⟨body, p5, h5, h⟩ := bind_eq_ok.1 h
      rw [pure_eq_ok] at h
      obtain ⟨rfl, rfl⟩ := h
      exact ⟨b', l.toNat, body, ⟨hb, hu, hz⟩, by simpa using ho, h5, rfl⟩
  · rintro ⟨b, n, body, ⟨hb, hu, hz⟩, he, hr, rfl⟩
    have h1 : Rd.u8 d p = .ok (b, p + 1) := by rw [u8_eq, hb]
    have hn : (UInt16.ofNat n).toNat = n := by
      obtain ⟨lo, hi, -, -, h⟩ := hu
      have := lo.toNat_lt
      have := hi.toNat_lt
      exact encU16_ofNat_of_lt (by omega)
    have h3 : Rd.u16 d (p + 1) = .ok (UInt16.ofNat n, p + 3) := u16_ok_iff.2 ⟨by rw [hn]; exact hu, rfl⟩
    unfold DString.readLongWrap
    rw [bind_of_ok h1, require_true_bind (by simp [he]), bind_of_ok h3,
      bind_of_ok (magic_byte_ok.2 ⟨hz, rfl⟩ : Rd.magic [0] d (p + 3) = .ok ((), p + 4)), hn, bind_of_ok hr]
    rfl

theorem read_release_iff_of {d : Bytes} {p : Nat} {v : DString} {q : Nat}
    (hd : d[p]? ≠ some 1 ∨ d.length < 2 ^ 64 - 1) :
    DString.readWrap d p = .ok (v, q) ↔ TextAt d p v q := by
  have hor : DString.readWrap d p = .ok (v, q) ↔
      DString.readShortWrap d p = .ok (v, q) ∨ DString.readLongWrap d p = .ok (v, q) := by
    unfold DString.readWrap Rd.orElse
    cases h : DString.readShortWrap d p with
    | ok x =>
      refine ⟨fun h => .inl h, fun h' => ?_⟩
      rcases h' with h' | h'
      · exact h'
      · obtain ⟨b, n, body, ⟨hb, -⟩, he, -⟩ := read_long_release_iff.1 h'
        obtain ⟨v', q'⟩ := x
        obtain ⟨b', c, hb', hl, -⟩ := (read_short_release_iff hd).1 h
        rw [hb] at hb'
        injection hb' with hb'
        subst hb'
        omega
    | err e => simp
    | panic =>
      refine absurd h ?_
      exact (NP.bind NP.u8 fun _ => NP.bind (NP.require _ _) fun _ => NP.bind (NP.bytes _) fun _ => NP.pure _) d p
  rw [hor, read_short_release_iff hd, read_long_release_iff]
  constructor
  · rintro (⟨b, c, hb, hl, hat, rfl, rfl⟩ | ⟨b, n, body, hh, he, hr, rfl⟩)
    · exact .short b c hb hl hat
    · obtain ⟨bs, hat, rfl, rfl, rfl, h0, hl⟩ := LongBody.read_inv _ _ _ _ _ _ hr
      have hn : n < 65536 := by
        obtain ⟨-, ⟨lo, hi, -, -, h⟩, -⟩ := hh
        have := lo.toNat_lt
        have := hi.toNat_lt
        omega
      cases body with
      | isrc c =>
        have := TextAt.isrc n c hh (h0 c rfl) (by simpa [LongBody.enc, encNullString] using hat)
        have e : p + 4 + (LongBody.isrc c).enc.length = p + 6 + c.length := by
          simp [LongBody.enc, encNullString]; omega
        rw [e]
        exact this
      | ascii c =>
        have hl := hl (fun _ h => by cases h)
        unfold subWrap16 at hl
        simp only [LongBody.enc] at hl hat ⊢
        exact .ascii n c hh (by omega) (by omega) hat
      | ucs2le us =>
        have hl := hl (fun _ h => by cases h)
        unfold subWrap16 at hl
        simp only [LongBody.enc, flatMap_encU16_length] at hl hat ⊢
        rw [show us.length * 2 = 2 * us.length by omega]
        refine .units n us hh ?_ (by omega) (by omega) hat
        rintro ⟨c, hc, hat'⟩
        have := LongBody.read_isrc hc (subWrap16 n 4) d (p + 4) (by simpa [encNullString] using hat')
        simp only [LongBody.flags] at hr
        rw [this] at hr
        cases hr
  · intro h
    cases h with
    | short b c hb hl hat => exact .inl ⟨b, c, hb, hl, hat, rfl, rfl⟩
    | ascii n c hh hlt hn hat =>
      right
      refine ⟨0x40, n, .ascii c, hh, by decide, ?_, rfl⟩
      have e : subWrap16 n 4 = c.length := by unfold subWrap16; omega
      rw [e]
      exact LongBody.read_ascii c d (p + 4) hat
    | isrc n c hh h0 hat =>
      right
      refine ⟨0x90, n, .isrc c, hh, by decide, ?_, rfl⟩
      have := LongBody.read_isrc h0 (subWrap16 n 4) d (p + 4) (by simpa [encNullString] using hat)
      rw [this]
      congr 2
      simp [encNullString]; omega
    | units n us hh hi hlt hn hat =>
      right
      refine ⟨0x90, n, .ucs2le us, hh, by decide, ?_, rfl⟩
      have e : subWrap16 n 4 = us.length * 2 := by unfold subWrap16; omega
      rw [e, LongBody.read_ucs2_of_isrc_err hat (isrc_alternative_err hi), flatMap_encU16_length, Nat.mul_comm]

/-- C93: in a build without overflow checks the reader accepts a string at `p` exactly if one is stored there. -/
theorem string_release_read_iff {d : Bytes} (hd : d.length < 2 ^ 64 - 1) (p : Nat) (v : DString) (q : Nat) :
    DString.readWrap d p = .ok (v, q) ↔ TextAt d p v q :=
  read_release_iff_of (.inr hd)

/-- C93: in a build with overflow checks the reader accepts a string at `p` exactly if one is stored there and its
length is possible. -/
theorem string_read_iff (d : Bytes) (p : Nat) (v : DString) (q : Nat) :
    DString.read d p = .ok (v, q) ↔ TextAt d p v q ∧ ¬ BadString d p := by
  constructor
  · intro h
    have hp : DString.read d p ≠ .panic := by rw [h]; intro h; cases h
    have hb : ¬ BadString d p := fun hb => hp ((DString.panic_iff d p).2 hb)
    refine ⟨?_, hb⟩
    rw [← DString.read_agree d p hp] at h
    exact (read_release_iff_of (.inl fun h1 => hb (.inl h1))).1 h
  · rintro ⟨h, hb⟩
    have hp : DString.read d p ≠ .panic := fun hp => hb ((DString.panic_iff d p).1 hp)
    rw [← DString.read_agree d p hp]
    exact (read_release_iff_of (.inl fun h1 => hb (.inl h1))).2 h

/-- C93: no bytes are two strings. -/
theorem string_unambiguous {d : Bytes} {p : Nat} {v v' : DString} {q q' : Nat} (h : TextAt d p v q)
    (h' : TextAt d p v' q') : v = v' ∧ q = q' := by
  by_cases h1 : d[p]? = some 1
  · cases h with
    | short b c hb hl =>
      rw [h1] at hb
      injection hb with hb
      rw [← hb] at hl
      exact absurd hl (by simp only [UInt8.reduceToNat]; omega)
    | ascii n c hh => have := hh.1; rw [h1] at this; exact absurd this (by decide)
    | isrc n c hh => have := hh.1; rw [h1] at this; exact absurd this (by decide)
    | units n c hh => have := hh.1; rw [h1] at this; exact absurd this (by decide)
  · have e := (read_release_iff_of (.inl h1)).2 h
    rw [(read_release_iff_of (.inl h1)).2 h'] at e
    injection e with e
    injection e with e1 e2
    exact ⟨e1.symm, e2.symm⟩

/-- A string of impossible length that both declares no bytes and is an ISRC: it panics in one build and is read in the
other. -/
example : TextAt [0x90, 0, 0, 0, 3, 65, 66, 0] 0 (.long (.isrc [65, 66])) 8 ∧
    BadString [0x90, 0, 0, 0, 3, 65, 66, 0] 0 :=
  ⟨.isrc 0 [65, 66] ⟨rfl, ⟨0, 0, rfl, rfl, rfl⟩, rfl⟩ (by decide)
    (by intro i hi; match i with | 0 => rfl | 1 => rfl | 2 => rfl | 3 => rfl | i + 4 => simp at hi),
    .inr ⟨0x90, 0, rfl, by decide, ⟨0, 0, rfl, rfl, rfl⟩, by decide⟩⟩

/-- The text "Ā" in two bytes. -/
example : DString.read [0x90, 6, 0, 0, 0, 1] 0 = .ok (.long (.ucs2le [256]), 6) :=
  (string_read_iff _ _ _ _).2 ⟨.units 6 [256] ⟨rfl, ⟨6, 0, rfl, rfl, rfl⟩, rfl⟩
    (by rintro ⟨c, -, h⟩
        have := h 0 (by simp)
        simp at this)
    (by decide) rfl (by intro i hi; match i with | 0 => rfl | 1 => rfl | i + 2 => simp [encU16] at hi),
    by rintro (h | ⟨b, n, -, -, ⟨lo, hi, h1, h2, h3⟩, hn⟩)
       · cases h
       · simp at h1; subst h1; simp at h3; omega⟩

end Rekordcrate
