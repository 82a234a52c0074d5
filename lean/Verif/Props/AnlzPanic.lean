import Verif.Spec.AnlzPanic
import Verif.Props.AnlzSong

/-! # C47: exactly which analysis files make the parser panic -/

namespace Rekordcrate

/-! ## Numbers at positions -/

theorem U16BeAt.hasAt {d : Bytes} {p : Nat} {v : UInt16} (h : U16BeAt d p v.toNat) : HasAt d p (encU16be v) := by
  obtain ⟨b1, b0, h1, h0, hv⟩ := h
  have l0 := b0.toNat_lt
  have l1 := b1.toNat_lt
  have he : encU16be v = [b1, b0] := by
    simp only [encU16be, beEnc, leEnc, List.reverse_cons, List.reverse_nil, List.nil_append, List.cons_append]
    rw [hv]
    congr 1
    · apply UInt8.toNat_inj.1; rw [UInt8.toNat_ofNat']; omega
    congr 1
    · apply UInt8.toNat_inj.1; rw [UInt8.toNat_ofNat']; omega
  rw [he]
  intro i hi
  match i, hi with
  | 0, _ => simpa using h1
  | 1, _ => simpa using h0

theorem U32BeAt.hasAt {d : Bytes} {p : Nat} {v : UInt32} (h : U32BeAt d p v.toNat) : HasAt d p (encU32be v) := by
  obtain ⟨b3, b2, b1, b0, h3, h2, h1, h0, hv⟩ := h
  have l0 := b0.toNat_lt
  have l1 := b1.toNat_lt
  have l2 := b2.toNat_lt
  have l3 := b3.toNat_lt
  have he : encU32be v = [b3, b2, b1, b0] := by
    simp only [encU32be, beEnc, leEnc, List.reverse_cons, List.reverse_nil, List.nil_append, List.cons_append]
    rw [hv]
    congr 1
    · apply UInt8.toNat_inj.1; rw [UInt8.toNat_ofNat']; omega
    congr 1
    · apply UInt8.toNat_inj.1; rw [UInt8.toNat_ofNat']; omega
    congr 1
    · apply UInt8.toNat_inj.1; rw [UInt8.toNat_ofNat']; omega
    congr 1
    · apply UInt8.toNat_inj.1; rw [UInt8.toNat_ofNat']; omega
  rw [he]
  intro i hi
  match i, hi with
  | 0, _ => simpa using h3
  | 1, _ => simpa using h2
  | 2, _ => simpa using h1
  | 3, _ => simpa using h0

theorem U16BeAt.lt {d : Bytes} {p n : Nat} (h : U16BeAt d p n) : n < 2 ^ 16 := by
  obtain ⟨b1, b0, -, -, rfl⟩ := h
  have l0 := b0.toNat_lt
  have l1 := b1.toNat_lt
  omega

theorem U32BeAt.lt {d : Bytes} {p n : Nat} (h : U32BeAt d p n) : n < 2 ^ 32 := by
  obtain ⟨b3, b2, b1, b0, -, -, -, -, rfl⟩ := h
  have l0 := b0.toNat_lt
  have l1 := b1.toNat_lt
  have l2 := b2.toNat_lt
  have l3 := b3.toNat_lt
  omega

namespace Anlz
open Rd

/-! ## Steps of readers, in both directions -/

section steps
variable {β : Type} {d : Bytes} {p : Nat}

theorem u32_panic_iff {k : UInt32 → Rd β} : (Rd.u32be >>= k) d p = .panic ↔
    ∃ n, U32BeAt d p n ∧ k (UInt32.ofNat n) d (p + 4) = .panic := by
  constructor
  · intro h
    obtain ⟨v, hv, h⟩ := panic_u32 h
    exact ⟨_, hv, by rw [UInt32.ofNat_toNat]; exact h⟩
  · rintro ⟨n, hn, h⟩
    have e : (UInt32.ofNat n).toNat = n := by rw [UInt32.toNat_ofNat']; exact Nat.mod_eq_of_lt hn.lt
    rw [bind_of_ok (RT.u32be (UInt32.ofNat n) d p (U32BeAt.hasAt (by rw [e]; exact hn)))]
    rw [encU32be_length]
    exact h

theorem u16_panic_iff {k : UInt16 → Rd β} : (Rd.u16be >>= k) d p = .panic ↔
    ∃ n, U16BeAt d p n ∧ k (UInt16.ofNat n) d (p + 2) = .panic := by
  constructor
  · intro h
    obtain ⟨v, hv, h⟩ := panic_u16 h
    exact ⟨_, hv, by rw [UInt16.ofNat_toNat]; exact h⟩
  · rintro ⟨n, hn, h⟩
    have e : (UInt16.ofNat n).toNat = n := by rw [UInt16.toNat_ofNat']; exact Nat.mod_eq_of_lt hn.lt
    rw [bind_of_ok (RT.u16be (UInt16.ofNat n) d p (U16BeAt.hasAt (by rw [e]; exact hn)))]
    rw [encU16be_length]
    exact h

theorem require_panic_iff {b : Bool} {e : Err} {k : Unit → Rd β} :
    (Rd.require b e >>= k) d p = .panic ↔ b = true ∧ k () d p = .panic := by
  refine ⟨panic_check, ?_⟩
  rintro ⟨rfl, h⟩
  exact h

theorem lift_panic_iff {α : Type} {r : Res α} {k : α → Rd β} :
    (Rd.lift r >>= k) d p = .panic ↔ r = .panic ∨ ∃ a, r = .ok a ∧ k a d p = .panic := by
  refine ⟨panic_compute, ?_⟩
  rintro (rfl | ⟨a, rfl, h⟩)
  · rfl
  · exact h

theorem bytes_panic_iff {n : Nat} {k : Bytes → Rd β} :
    (Rd.bytes n >>= k) d p = .panic ↔ ∃ bs, bs.length = n ∧ HasAt d p bs ∧ k bs d (p + n) = .panic := by
  rw [bind_eq_panic]
  constructor
  · rintro (h | ⟨bs, q, h, hk⟩)
    · exact absurd h (NP.bytes _ _ _)
    · obtain ⟨h1, h2, rfl⟩ := bytes_eq_ok.1 h
      exact ⟨bs, h1, h2, hk⟩
  · rintro ⟨bs, h1, h2, hk⟩
    exact .inr ⟨bs, _, bytes_eq_ok.2 ⟨h1, h2, rfl⟩, hk⟩

theorem np_iff {r : Rd β} (h : NP r) : r d p = .panic ↔ False := ⟨fun hc => h d p hc, False.elim⟩

end steps

theorem u32_there {d : Bytes} {p : Nat} : (∃ n, U32BeAt d p n) ↔ p + 4 ≤ d.length := by
  constructor
  · rintro ⟨n, b3, b2, b1, b0, -, -, -, h, -⟩
    have := (List.getElem?_eq_some_iff.1 h).1
    omega
  · intro h
    exact ⟨_, _, _, _, _, List.getElem?_eq_getElem (by omega), List.getElem?_eq_getElem (by omega),
      List.getElem?_eq_getElem (by omega), List.getElem?_eq_getElem (by omega), rfl⟩

theorem Header.contentSize_ok {h : Header} {n : Nat} : h.contentSize = .ok n ↔ h.totalSize.toNat = h.size.toNat + n := by
  unfold Header.contentSize subU
  split
  · simp only [Res.ok.injEq]; omega
  · simp only [reduceCtorEq, false_iff]; omega

/-! ## The contents -/

theorem short_only {β : Type} {h : Header} {d : Bytes} {p : Nat} {k : UInt32 → Nat → Rd β}
    (hk : ∀ v n, h.contentSize = .ok n → k v n d (p + 4) ≠ .panic) :
    (Rd.u32be >>= fun v => Rd.lift h.contentSize >>= k v) d p = .panic ↔ p + 4 ≤ d.length ∧ h.Short := by
  rw [u32_panic_iff]
  simp only [lift_panic_iff, Header.contentSize_panic]
  constructor
  · rintro ⟨n, hn, hs | ⟨a, ha, hp⟩⟩
    · exact ⟨u32_there.1 ⟨n, hn⟩, hs⟩
    · exact absurd hp (hk _ _ ha)
  · rintro ⟨h1, h2⟩
    obtain ⟨n, hn⟩ := u32_there.2 h1
    exact ⟨n, hn, .inl h2⟩

theorem Vbr.panic_iff {h : Header} {d : Bytes} {p : Nat} :
    Vbr.read h d p = .panic ↔ p + 4 ≤ d.length ∧ h.Short :=
  short_only fun _ n _ => (NP.bind (NP.bytes n) fun _ => NP.pure _) _ _

theorem WaveformPreview.panic_iff {h : Header} {d : Bytes} {p : Nat} :
    WaveformPreview.read h d p = .panic ↔ p + 4 ≤ d.length ∧ h.Short :=
  short_only fun _ _ _ => (NP.bind (NP.require _ _) fun _ => NP.bind NP.u32be fun _ =>
    NP.bind (NP.many WaveformPreviewColumn.np _) fun _ => NP.pure _) _ _

theorem TinyWaveformPreview.panic_iff {h : Header} {d : Bytes} {p : Nat} :
    TinyWaveformPreview.read h d p = .panic ↔ p + 4 ≤ d.length ∧ h.Short :=
  short_only fun _ _ _ => (NP.bind (NP.require _ _) fun _ => NP.bind NP.u32be fun _ =>
    NP.bind (NP.many TinyWaveformPreviewColumn.np _) fun _ => NP.pure _) _ _

theorem Path.panic_iff {h : Header} {d : Bytes} {p : Nat} (hd : d.length + 80 ≤ 2 ^ 32) :
    Path.read h d p = .panic ↔ p + 4 ≤ d.length ∧ h.Short := by
  refine short_only fun v n hn hp => ?_
  obtain ⟨_, hp⟩ := panic_check hp
  obtain ⟨us, q, hus, hp⟩ := panic_skip readWideUnits_np hp
  rcases panic_compute hp with hp | ⟨n', hn', hp⟩
  · rw [hn] at hp; cases hp
  obtain ⟨_, hp⟩ := panic_check hp
  rcases panic_compute hp with hp | ⟨m, hm, hp⟩
  · obtain ⟨bs, hb, _, rfl, _⟩ := readWideUnits_inv _ _ _ _ hus
    have hbound := hb.bound (by intro hc; have := congrArg List.length hc; rw [encWideUnits_length] at this; simp at this)
    rw [encWideUnits_length] at hbound
    rw [Path.lenPath_eq (by simp only; omega)] at hp
    cases hp
  · obtain ⟨_, hp⟩ := panic_check hp
    cases hp

theorem Unknown.panic_iff {h : Header} {d : Bytes} {p : Nat} (hd : p + 12 ≤ d.length) :
    Unknown.read h d (p + 12) = .panic ↔ h.size.toNat < 12 ∨ p + h.size.toNat ≤ d.length ∧ h.Short := by
  unfold Unknown.read
  rw [lift_panic_iff, Header.remainingSize_panic]
  by_cases h12 : h.size.toNat < 12
  · exact ⟨fun _ => .inl h12, fun _ => .inl h12⟩
  refine or_congr Iff.rfl ?_
  simp only [bytes_panic_iff, lift_panic_iff, Header.contentSize_panic]
  have hr : h.remainingSize = .ok (h.size.toNat - 12) := by
    unfold Header.remainingSize subU
    rw [if_pos (by omega)]
  rw [hr]
  constructor
  · rintro ⟨n, hn, bs, hl, hb, hs | ⟨m, _, _, _, _, hp⟩⟩
    · refine ⟨?_, hs⟩
      injection hn with hn
      by_cases h0 : bs = []
      · rw [h0] at hl
        simp at hl
        omega
      · have := hb.bound h0
        omega
    · cases hp
  · rintro ⟨hl, hs⟩
    refine ⟨h.size.toNat - 12, rfl, (d.drop (p + 12)).take (h.size.toNat - 12), ?_, hasAt_take_drop _ _ _, .inl hs⟩
    rw [List.length_take, List.length_drop]; omega

theorem mulU32_panic {a b : Nat} : mulU32 a b = .panic ↔ 2 ^ 32 ≤ a * b := by
  unfold mulU32
  split
  · simp only [reduceCtorEq, false_iff]; omega
  · simp only [true_iff]; omega

theorem entries_panic_iff {α : Type} {h : Header} {e : UInt32} {k : UInt32 → Rd α} {d : Bytes} {p : Nat}
    (hk : ∀ n, NP (k n)) : (readEntryLens h e >>= k) d (p + 12) = .panic ↔ BadEntries d p h e.toNat := by
  have : (readEntryLens h e >>= k) d (p + 12) = .panic ↔ readEntryLens h e d (p + 12) = .panic := by
    rw [bind_eq_panic]
    exact ⟨fun hx => hx.elim id fun ⟨n, q, _, hp⟩ => no_panic (hk n) hp, .inl⟩
  rw [this]
  unfold readEntryLens
  rw [u32_panic_iff]
  simp only [require_panic_iff, u32_panic_iff, lift_panic_iff, mulU32_panic, Header.contentSize_panic]
  constructor
  · rintro ⟨m, hm, he, n, hn, hp⟩
    simp only [beq_iff_eq] at he
    have em : (UInt32.ofNat m).toNat = m := by rw [UInt32.toNat_ofNat']; exact Nat.mod_eq_of_lt hm.lt
    have en : (UInt32.ofNat n).toNat = n := by rw [UInt32.toNat_ofNat']; exact Nat.mod_eq_of_lt hn.lt
    rw [em, en] at hp
    rw [← he, em]
    refine ⟨hm, n, hn, ?_⟩
    rcases hp with hp | ⟨_, _, hp | ⟨_, _, _, hp⟩⟩
    · exact .inl hp
    · exact .inr hp
    · cases hp
  · rintro ⟨hm, n, hn, hp⟩
    have en : (UInt32.ofNat n).toNat = n := by rw [UInt32.toNat_ofNat']; exact Nat.mod_eq_of_lt hn.lt
    refine ⟨e.toNat, hm, by simp, n, hn, ?_⟩
    rw [en, UInt32.ofNat_toNat]
    by_cases ho : 2 ^ 32 ≤ e.toNat * n
    · exact .inl ho
    · refine .inr ⟨e.toNat * n, ?_, .inl (hp.resolve_left ho)⟩
      unfold mulU32
      rw [if_pos (by omega)]

/-! ## Song structures -/

theorem getKey_no_err {n : UInt16} {e : Err} : ∀ {xs : Bytes}, SongStructureData.getKey n xs ≠ .err e
  | [], hg => by cases hg
  | y :: ys, hg => by
    unfold SongStructureData.getKey SongStructureData.keyByteOf addU16 at hg
    split at hg
    · cases hr : SongStructureData.getKey n ys with
      | ok ks => rw [hr] at hg; cases hg
      | err e' => exact getKey_no_err hr
      | panic => rw [hr] at hg; cases hg
    · cases hg

theorem getKey_panic_iff {n : UInt16} {xs : Bytes} :
    SongStructureData.getKey n xs = .panic ↔ ∃ x ∈ xs, 65536 ≤ x.toNat + n.toNat := by
  refine ⟨getKey_panic, fun ⟨x, hx, hle⟩ => ?_⟩
  cases hg : SongStructureData.getKey n xs with
  | ok ks => have := getKey_eq_ok hg x hx; omega
  | panic => rfl
  | err e => exact absurd hg getKey_no_err

theorem key_panic_iff {n : UInt16} :
    SongStructureData.getKey n SongStructureData.keyData = .panic ↔ 65286 ≤ n.toNat := by
  rw [getKey_panic_iff]
  constructor
  · rintro ⟨x, hx, hle⟩
    have := keyData_le x hx
    omega
  · intro h
    exact ⟨0xFA, by decide, by have e : (0xFA : UInt8).toNat = 250 := rfl; omega⟩

theorem key_two_panic_iff {n : UInt16} :
    SongStructureData.getKey n (SongStructureData.keyData.take 2) = .panic ↔ 65311 ≤ n.toNat := by
  rw [getKey_panic_iff]
  constructor
  · rintro ⟨x, hx, hle⟩
    have : ∀ x ∈ SongStructureData.keyData.take 2, x.toNat ≤ 225 := by decide
    have := this x hx
    omega
  · intro h
    exact ⟨0xE1, by decide, by have e : (0xE1 : UInt8).toNat = 225 := rfl; omega⟩

theorem check_two {n : UInt16} (hn : n.toNat < 65311) (a b : UInt8) :
    ∃ e, SongStructureData.checkIfEncrypted [a, b] n = .ok e ∧
      (e = true ↔ ∃ m : Mood, a = UInt8.ofNat (203 + n.toNat) ∧ b = m.low8 ^^^ UInt8.ofNat (225 + n.toNat)) := by
  unfold SongStructureData.checkIfEncrypted
  rw [getKey_two hn, Res.ok_bind]
  simp only [List.zipWith_cons_cons, List.zipWith_nil_left]
  cases h : Mood.read [a ^^^ UInt8.ofNat (203 + n.toNat), b ^^^ UInt8.ofNat (225 + n.toNat)] 0 with
  | ok r =>
    obtain ⟨m, q⟩ := r
    obtain ⟨h1, h2⟩ := Mood.read_two h
    refine ⟨true, rfl, fun _ => ⟨m, UInt8.xor_eq_zero_iff.1 h1, ?_⟩, fun _ => rfl⟩
    rw [← h2, UInt8.xor_cancel]
  | err e =>
    refine ⟨false, rfl, fun hc => (by cases hc), ?_⟩
    rintro ⟨m, rfl, rfl⟩
    rw [UInt8.xor_self, UInt8.xor_cancel, ← Mood.enc_eq, Mood.rt m _ _ (hasAt_self _)] at h
    cases h
  | panic => exact absurd h (Mood.np _ _)

theorem mood_codes {P : UInt8 → Prop} : (∃ m : Mood, P m.low8) ↔ ∃ m : UInt8, (m = 1 ∨ m = 2 ∨ m = 3) ∧ P m := by
  constructor
  · rintro ⟨m, h⟩
    exact ⟨_, by cases m <;> decide, h⟩
  · rintro ⟨m, rfl | rfl | rfl, h⟩
    · exact ⟨.high, h⟩
    · exact ⟨.mid, h⟩
    · exact ⟨.low, h⟩

/-- The part of a song structure behind the length fields. -/
theorem song_rest_panic_iff {n : UInt16} {f : Bool → SongStructureData → SongStructure} {d : Bytes} {p : Nat} :
    ((Rd.restore (Rd.bytes 2 >>= fun rawMood => Rd.lift (SongStructureData.checkIfEncrypted rawMood n))) >>= fun e =>
      SongStructureData.readEncrypted e n >>= fun x => Pure.pure (f e x)) d p = .panic ↔
      p + 2 ≤ d.length ∧ (65311 ≤ n.toNat ∨ 65286 ≤ n.toNat ∧ EncryptedMoodAt d p n.toNat) := by
  by_cases hl : p + 2 ≤ d.length
  rotate_left
  · have hb : ∃ e, Rd.bytes 2 d p = .err e := by
      cases hx : Rd.bytes 2 d p with
      | ok r =>
        obtain ⟨bs, q⟩ := r
        obtain ⟨h1, h2, -⟩ := bytes_eq_ok.1 hx
        have := h2.bound (by intro hc; rw [hc] at h1; simp at h1)
        omega
      | err e => exact ⟨e, rfl⟩
      | panic => exact absurd hx (NP.bytes _ _ _)
    obtain ⟨e, hb⟩ := hb
    have : Rd.restore (Rd.bytes 2 >>= fun rawMood => Rd.lift (SongStructureData.checkIfEncrypted rawMood n)) d p =
        .err e := by
      unfold Rd.restore
      rw [bind_of_err hb]
    rw [bind_of_err this]
    simp [hl]
  have ha : d[p]? = some d[p] := List.getElem?_eq_getElem (by omega)
  have hb : d[p + 1]? = some d[p + 1] := List.getElem?_eq_getElem (by omega)
  generalize d[p] = a at ha
  generalize d[p + 1] = b at hb
  have hread : Rd.bytes 2 d p = .ok ([a, b], p + 2) := by
    refine bytes_eq_ok.2 ⟨rfl, ?_, rfl⟩
    intro i hi
    match i, hi with
    | 0, _ => simpa using ha
    | 1, _ => simpa using hb
  have hm : EncryptedMoodAt d p n.toNat ↔
      ∃ m : Mood, a = UInt8.ofNat (203 + n.toNat) ∧ b = m.low8 ^^^ UInt8.ofNat (225 + n.toNat) := by
    rw [mood_codes (P := fun m => a = UInt8.ofNat (203 + n.toNat) ∧ b = m ^^^ UInt8.ofNat (225 + n.toNat))]
    unfold EncryptedMoodAt ByteAt
    rw [ha, hb]
    simp only [Option.some.injEq]
  simp only [hl, true_and]
  by_cases hn : n.toNat < 65311
  · obtain ⟨e, he, hiff⟩ := check_two hn a b
    have hr : Rd.restore (Rd.bytes 2 >>= fun rawMood => Rd.lift (SongStructureData.checkIfEncrypted rawMood n)) d p =
        .ok (e, p) := by
      unfold Rd.restore
      rw [bind_of_ok hread]
      simp only [he, Rd.lift]
    rw [bind_of_ok hr, bind_eq_panic]
    have hx : ¬ 65311 ≤ n.toNat := by omega
    simp only [hx, false_or, hm, ← hiff]
    constructor
    · rintro (h | ⟨_, _, _, h⟩)
      · unfold SongStructureData.readEncrypted at h
        cases e with
        | false => exact absurd h (SongStructureData.np n _ _)
        | true =>
          refine ⟨?_, rfl⟩
          rw [if_pos rfl] at h
          split at h
          · exact absurd h (SongStructureData.np n _ _)
          · cases h
          · rename_i hk; exact key_panic_iff.1 hk
      · cases h
    · rintro ⟨h1, rfl⟩
      left
      unfold SongStructureData.readEncrypted
      rw [if_pos rfl, key_panic_iff.2 h1]
  · have hx : 65311 ≤ n.toNat := by omega
    simp only [hx, true_or, iff_true]
    refine bind_of_panic ?_
    unfold Rd.restore
    rw [bind_of_ok hread]
    unfold SongStructureData.checkIfEncrypted
    rw [key_two_panic_iff.2 hx]
    rfl

theorem SongStructure.panic_iff {h : Header} {d : Bytes} {p : Nat} :
    SongStructure.read h d (p + 12) = .panic ↔ BadSong d p h := by
  unfold SongStructure.read
  rw [u32_panic_iff]
  simp only [require_panic_iff, u16_panic_iff, lift_panic_iff, Header.contentSize_panic, song_rest_panic_iff,
    Header.contentSize_ok]
  unfold BadSong
  constructor
  · rintro ⟨m, hm, he, n, hn, hp⟩
    have em : (UInt32.ofNat m).toNat = m := by rw [UInt32.toNat_ofNat']; exact Nat.mod_eq_of_lt hm.lt
    have en : (UInt16.ofNat n).toNat = n := by rw [UInt16.toNat_ofNat']; exact Nat.mod_eq_of_lt hn.lt
    have e24 : m = 24 := by
      simp only [beq_iff_eq] at he
      rw [he] at em
      exact em.symm
    subst e24
    have hn16 := hn.lt
    refine ⟨hm, n, hn, ?_⟩
    rw [em, en] at hp
    have hmul : mulU32 24 n = .ok (24 * n) := by unfold mulU32; rw [if_pos (by omega)]
    rw [hmul] at hp
    rcases hp with hp | ⟨a, ha, hp⟩
    · cases hp
    · injection ha with ha
      subst ha
      rcases hp with hp | ⟨k, hk, hkk, hp⟩
      · exact .inl hp
      · simp only [beq_iff_eq] at hkk
        exact .inr ⟨by omega, by omega, hp.2⟩
  · rintro ⟨hm, n, hn, hp⟩
    have en : (UInt16.ofNat n).toNat = n := by rw [UInt16.toNat_ofNat']; exact Nat.mod_eq_of_lt hn.lt
    have hn16 := hn.lt
    have hmul : mulU32 24 n = .ok (24 * n) := by unfold mulU32; rw [if_pos (by omega)]
    refine ⟨24, hm, rfl, n, hn, .inr ⟨24 * n, ?_, ?_⟩⟩
    · rw [en]; exact hmul
    · rcases hp with hp | ⟨h1, h2, h3⟩
      · exact .inl hp
      · exact .inr ⟨24 * n, h1, by simp, by omega, by rw [en]; exact h3⟩

/-! ## Sections -/

theorem variant_panic_iff {α : Type} {g : Bool} {r : Rd α} {f : α → Content} {d : Bytes} {p : Nat} :
    Content.variant g r f d p = .panic ↔ g = true ∧ r d p = .panic := by
  unfold Content.variant
  rw [require_panic_iff, bind_eq_panic]
  exact and_congr Iff.rfl ⟨fun h => h.elim id fun ⟨_, _, _, hp⟩ => (by cases hp), .inl⟩

theorem orElse_false {α : Type} {g : Bool} {r : Rd α} {f : α → Content} {s : Rd Content} {d : Bytes} {p : Nat}
    {P : Prop} (hg : g = false) (h : s d p = .panic ↔ P) : ((Content.variant g r f).orElse s) d p = .panic ↔ P := by
  subst hg
  exact h

theorem orElse_true {α : Type} {g : Bool} {r : Rd α} {f : α → Content} {s : Rd Content} {d : Bytes} {p : Nat}
    {P : Prop} (hg : g = true) (h : r d p = .panic ↔ P) (hs : s d p ≠ .panic) :
    ((Content.variant g r f).orElse s) d p = .panic ↔ P := by
  rw [← h]
  constructor
  · intro hp
    rcases orElse_panic hp with hp | hp
    · exact (variant_panic hp).2
    · exact absurd hp hs
  · intro hp
    unfold Rd.orElse
    rw [variant_panic_iff.2 ⟨hg, hp⟩]

theorem not_panic {α : Type} {x : Res α} {e : Err} (h : x = .err e) : x ≠ .panic := by
  rw [h]
  exact fun hc => by cases hc

macro "other_variant" : tactic => `(tactic| refine orElse_false rfl ?_)
macro "this_variant " h:term : tactic => `(tactic| refine orElse_true rfl $h (not_panic rfl))

theorem Content.panic_iff_of {h : Header} {d : Bytes} {p : Nat} {P E : Prop} (hp : p + 12 ≤ d.length)
    (hP : Path.read h d (p + 12) = .panic ↔ P) (hE : ExtendedCueList.read d (p + 12) = .panic ↔ E) :
    Content.read h d (p + 12) = .panic ↔ match h.kind with
      | .path => P
      | .extendedCueList => E
      | _ => BadSection d p h := by
  obtain ⟨kind, size, total⟩ := h
  unfold Content.read
  cases kind with
  | file => exact ⟨fun hc => absurd hc (not_panic rfl), False.elim⟩
  | extendedCue => exact ⟨fun hc => absurd hc (not_panic rfl), False.elim⟩
  | cue => exact ⟨fun hc => absurd hc (not_panic rfl), False.elim⟩
  | beatGrid => this_variant (np_iff BeatGrid.np)
  | cueList =>
    other_variant
    this_variant (np_iff CueList.np)
  | extendedCueList =>
    iterate 2 other_variant
    this_variant hE
  | path =>
    iterate 3 other_variant
    this_variant hP
  | vbr =>
    iterate 4 other_variant
    this_variant Vbr.panic_iff
  | waveformPreview =>
    iterate 5 other_variant
    this_variant WaveformPreview.panic_iff
  | tinyWaveformPreview =>
    iterate 6 other_variant
    this_variant TinyWaveformPreview.panic_iff
  | waveformDetail =>
    iterate 7 other_variant
    this_variant (entries_panic_iff fun n => NP.bind NP.u32be fun _ => NP.bind (NP.require _ _) fun _ =>
      NP.bind (NP.many WaveformPreviewColumn.np _) fun _ => NP.pure _)
  | waveformColorPreview =>
    iterate 8 other_variant
    this_variant (entries_panic_iff fun n => NP.bind NP.u32be fun _ =>
      NP.bind (NP.many WaveformColorPreviewColumn.np _) fun _ => NP.pure _)
  | waveformColorDetail =>
    iterate 9 other_variant
    this_variant (entries_panic_iff fun n => NP.bind NP.u32be fun _ =>
      NP.bind (NP.many WaveformColorDetailColumn.np _) fun _ => NP.pure _)
  | waveform3BandPreview =>
    iterate 10 other_variant
    this_variant (entries_panic_iff fun n => NP.bind (NP.many Waveform3BandPreviewColumn.np _) fun _ => NP.pure _)
  | waveform3BandDetail =>
    iterate 11 other_variant
    this_variant (entries_panic_iff fun n => NP.bind NP.u32be fun _ => NP.bind (NP.require _ _) fun _ =>
      NP.bind (NP.many Waveform3BandDetailColumn.np _) fun _ => NP.pure _)
  | songStructure =>
    iterate 12 other_variant
    this_variant SongStructure.panic_iff
  | unknown a b c e =>
    iterate 13 other_variant
    exact variant_panic_iff.trans ⟨fun hx => (Unknown.panic_iff hp).1 hx.2, fun hx => ⟨rfl, (Unknown.panic_iff hp).2 hx⟩⟩

theorem Content.panic_iff {h : Header} {d : Bytes} {p : Nat} (hd : d.length + 80 ≤ 2 ^ 32) (hp : p + 12 ≤ d.length) :
    Content.read h d (p + 12) = .panic ↔ BadSection d p h := by
  rw [Content.panic_iff_of hp (Path.panic_iff hd) ⟨fun hc => ExtendedCueList.np hd hc, False.elim⟩]
  unfold BadSection
  cases h.kind <;> exact Iff.rfl

/-- A header that is read as such stands at `p`. -/
theorem header_read_iff {d : Bytes} {p q : Nat} {h : Header} :
    Header.read d p = .ok (h, q) ↔ HeaderAt d p h ∧ h.kind.Proper ∧ q = p + 12 := by
  constructor
  · intro hr
    obtain ⟨bs, hb, rfl, rfl, hk⟩ := Header.inv _ _ _ _ hr
    exact ⟨Header.headerAt hb, hk, by rw [Header.enc_length]⟩
  · rintro ⟨⟨h1, h2, h3⟩, hk, rfl⟩
    have hb : HasAt d p h.enc := by
      unfold Header.enc
      rw [HasAt.append_iff, HasAt.append_iff, Kind.enc_length, encU32be_length]
      exact ⟨h1, h2.hasAt, h3.hasAt⟩
    have := Header.rt hk d p hb
    rwa [Header.enc_length] at this

theorem section_panic_of {d : Bytes} {p : Nat} {Bad : Header → Prop}
    (hb : ∀ h, p + 12 ≤ d.length → (Content.read h d (p + 12) = .panic ↔ Bad h)) :
    AnlzSection.read d p = .panic ↔ ∃ h, HeaderAt d p h ∧ h.kind.Proper ∧ Bad h := by
  have len : ∀ {h : Header}, HeaderAt d p h → p + 12 ≤ d.length := fun hh => u32_there.1 ⟨_, hh.totalSize⟩
  unfold AnlzSection.read
  constructor
  · intro hp
    obtain ⟨h, q, h1, hp⟩ := panic_skip Header.np hp
    obtain ⟨h2, h3, rfl⟩ := header_read_iff.1 h1
    refine ⟨h, h2, h3, ?_⟩
    rcases bind_eq_panic.1 hp with hp | ⟨_, _, _, hp⟩
    · exact (hb _ (len h2)).1 hp
    · cases hp
  · rintro ⟨h, h1, h2, h3⟩
    rw [bind_of_ok (header_read_iff.2 ⟨h1, h2, rfl⟩)]
    exact bind_of_panic ((hb _ (len h1)).2 h3)

/-- C47, exact for a section: reading the section at `p` of a file of less than 4 GiB panics exactly if there
is a header at `p` and `BadSection` describes what is there. -/
theorem section_read_panic_iff {d : Bytes} {p : Nat} (hd : d.length + 80 ≤ 2 ^ 32) :
    AnlzSection.read d p = .panic ↔ ∃ h, HeaderAt d p h ∧ h.kind.Proper ∧ BadSection d p h :=
  section_panic_of fun _ => Content.panic_iff hd

/-! ## Files -/

theorem parseSections_panic_iff {fin : Nat} {d : Bytes} {p : Nat} :
    AnlzFile.parseSections fin d p = .panic ↔
      ∃ q, SectionsTo fin d p q ∧ q < fin ∧ AnlzSection.read d q = .panic := by
  by_cases hp : p < fin
  · cases hs : AnlzSection.read d p with
    | ok r =>
      obtain ⟨s, q⟩ := r
      have hq := AnlzSection.read_progress hs
      have ih := parseSections_panic_iff (fin := fin) (d := d) (p := q)
      rw [parseSections_step hp hs]
      have e : ∀ x : Res (List AnlzSection × Nat), (match x with
          | .ok (ss, r) => .ok (s :: ss, r)
          | .err e => .err e
          | .panic => .panic : Res (List AnlzSection × Nat)) = .panic ↔ x = .panic := by
        intro x
        cases x <;> simp
      refine (e _).trans (ih.trans ?_)
      constructor
      · rintro ⟨r, h1, h2, h3⟩
        exact ⟨r, .step hp hs h1, h2, h3⟩
      · rintro ⟨r, h1, h2, h3⟩
        cases h1 with
        | here => rw [hs] at h3; cases h3
        | step h hs' ht =>
          rw [hs] at hs'
          injection hs' with hs'
          injection hs' with e1 e2
          subst e2
          exact ⟨r, ht, h2, h3⟩
    | err e =>
      rw [AnlzFile.parseSections.eq_def, dif_pos hp]
      constructor
      · intro h
        split at h
        · rename_i hs'; rw [hs] at hs'; cases hs'
        · cases h
        · rename_i hs'; rw [hs] at hs'; cases hs'
      · rintro ⟨r, h1, h2, h3⟩
        cases h1 with
        | here => rw [hs] at h3; cases h3
        | step h hs' ht => rw [hs] at hs'; cases hs'
    | panic =>
      refine ⟨fun _ => ⟨p, .here p, hp, hs⟩, fun _ => ?_⟩
      rw [AnlzFile.parseSections.eq_def, dif_pos hp]
      split
      · rename_i hs'; rw [hs] at hs'; cases hs'
      · rename_i hs'; rw [hs] at hs'; cases hs'
      · rfl
  · rw [parseSections_done hp]
    constructor
    · intro h; cases h
    · rintro ⟨q, h1, h2, -⟩
      cases h1 with
      | here => exact absurd h2 hp
      | step h _ _ => exact absurd h hp
termination_by fin - p

theorem anlz_panic_of {d : Bytes} {p : Nat} {Bad : Nat → Prop} (hb : ∀ q, AnlzSection.read d q = .panic ↔ Bad q) :
    AnlzFile.read d p = .panic ↔ ∃ x, HeaderAt d p x ∧ x.kind = .file ∧
      (x.size.toNat < 12 ∨
        p + x.size.toNat ≤ d.length ∧ (x.Short ∨
          ∃ q, SectionsTo (p + x.totalSize.toNat) d (p + x.size.toNat) q ∧ q < p + x.totalSize.toNat ∧ Bad q)) := by
  have head : AnlzFile.read d p = .panic ↔ ∃ x, HeaderAt d p x ∧ x.kind = .file ∧
      (Rd.lift x.remainingSize >>= fun n => Rd.bytes n >>= fun hdata => Rd.lift x.contentSize >>= fun m =>
        AnlzFile.readSections m >>= fun ss => Pure.pure (AnlzFile.mk x hdata ss)) d (p + 12) = .panic := by
    unfold AnlzFile.read
    constructor
    · intro h
      obtain ⟨x, q, h1, h⟩ := panic_skip Header.np h
      obtain ⟨h2, -, rfl⟩ := header_read_iff.1 h1
      obtain ⟨hk, h⟩ := panic_check h
      simp only [beq_iff_eq] at hk
      exact ⟨x, h2, hk, h⟩
    · rintro ⟨x, h1, hk, h⟩
      rw [bind_of_ok (header_read_iff.2 ⟨h1, (by rw [hk]; intro hc; cases hc), rfl⟩)]
      exact require_panic_iff.2 ⟨by rw [hk]; rfl, h⟩
  rw [head]
  refine exists_congr fun x => and_congr_right fun hx => and_congr_right fun hk => ?_
  have hlen : p + 12 ≤ d.length := u32_there.1 ⟨_, hx.totalSize⟩
  rw [lift_panic_iff, Header.remainingSize_panic]
  by_cases h12 : x.size.toNat < 12
  · exact ⟨fun _ => .inl h12, fun _ => .inl h12⟩
  refine or_congr Iff.rfl ?_
  have hr : x.remainingSize = .ok (x.size.toNat - 12) := by
    unfold Header.remainingSize subU
    rw [if_pos (by omega)]
  have sec : ∀ m : Nat, ∀ hdata : Bytes, (AnlzFile.readSections m >>= fun ss => Pure.pure (AnlzFile.mk x hdata ss)) d
      (p + x.size.toNat) = .panic ↔ ∃ q, SectionsTo (p + x.size.toNat + m) d (p + x.size.toNat) q ∧
        q < p + x.size.toNat + m ∧ Bad q := by
    intro m hdata
    simp only [← hb]
    rw [← parseSections_panic_iff, bind_eq_panic]
    exact ⟨fun h => h.elim id fun ⟨_, _, _, hp⟩ => (by cases hp), .inl⟩
  have e12 : p + 12 + (x.size.toNat - 12) = p + x.size.toNat := by omega
  rw [hr]
  simp only [bytes_panic_iff, lift_panic_iff, Header.contentSize_panic, Header.contentSize_ok]
  constructor
  · rintro ⟨n, hn, bs, hl, hb, hs⟩
    injection hn with hn
    subst hn
    rw [e12] at hs
    refine ⟨?_, ?_⟩
    · by_cases h0 : bs = []
      · rw [h0] at hl
        simp at hl
        omega
      · have := hb.bound h0
        omega
    · rcases hs with hs | ⟨m, hm, hs⟩
      · exact .inl hs
      · right
        rw [sec] at hs
        rw [hm, ← Nat.add_assoc]
        exact hs
  · rintro ⟨hl, hs⟩
    refine ⟨x.size.toNat - 12, rfl, (d.drop (p + 12)).take (x.size.toNat - 12), ?_, hasAt_take_drop _ _ _, ?_⟩
    · rw [List.length_take, List.length_drop]; omega
    · rw [e12]
      by_cases hsh : x.totalSize.toNat < x.size.toNat
      · exact .inl hsh
      · right
        rcases hs with hs | hs
        · exact absurd hs hsh
        · refine ⟨x.totalSize.toNat - x.size.toNat, by omega, ?_⟩
          rw [sec]
          rwa [show p + x.size.toNat + (x.totalSize.toNat - x.size.toNat) = p + x.totalSize.toNat by omega]

/-- C47, exact: reading a file of less than 4 GiB panics exactly if there is a file header and either it is said
to be shorter than 12 bytes, or it is there in full and the file is said to be shorter than it, or sections
that can be read lead to a section described by `BadSection`, which starts before the end of the file that the
header gives. -/
theorem anlz_read_panic_iff {d : Bytes} {p : Nat} (hd : d.length + 80 ≤ 2 ^ 32) :
    AnlzFile.read d p = .panic ↔ ∃ x, HeaderAt d p x ∧ x.kind = .file ∧
      (x.size.toNat < 12 ∨
        p + x.size.toNat ≤ d.length ∧ (x.Short ∨
          ∃ q, SectionsTo (p + x.totalSize.toNat) d (p + x.size.toNat) q ∧ q < p + x.totalSize.toNat ∧
            ∃ h, HeaderAt d q h ∧ h.kind.Proper ∧ BadSection d q h)) :=
  anlz_panic_of fun _ => section_read_panic_iff hd

/-- An empty file with one section of kind `PVBR` that is said to be shorter than its header. -/
example : ∃ x, HeaderAt [0x50, 0x4d, 0x41, 0x49, 0, 0, 0, 12, 0, 0, 0, 28,
      0x50, 0x56, 0x42, 0x52, 0, 0, 0, 16, 0, 0, 0, 15, 0, 0, 0, 0] 0 x ∧ x.kind = .file ∧
    ∃ q h, SectionsTo 28 [0x50, 0x4d, 0x41, 0x49, 0, 0, 0, 12, 0, 0, 0, 28,
      0x50, 0x56, 0x42, 0x52, 0, 0, 0, 16, 0, 0, 0, 15, 0, 0, 0, 0] 12 q ∧ BadSection [0x50, 0x4d, 0x41, 0x49, 0, 0, 0, 12, 0, 0, 0, 28,
      0x50, 0x56, 0x42, 0x52, 0, 0, 0, 16, 0, 0, 0, 15, 0, 0, 0, 0] q h ∧ h.kind = .vbr ∧
    AnlzFile.read [0x50, 0x4d, 0x41, 0x49, 0, 0, 0, 12, 0, 0, 0, 28,
      0x50, 0x56, 0x42, 0x52, 0, 0, 0, 16, 0, 0, 0, 15, 0, 0, 0, 0] 0 = .panic := by
  refine ⟨⟨.file, 12, 28⟩, ⟨?_, ⟨0, 0, 0, 12, rfl, rfl, rfl, rfl, rfl⟩, ⟨0, 0, 0, 28, rfl, rfl, rfl, rfl, rfl⟩⟩, rfl,
    12, ⟨.vbr, 16, 15⟩, .here _, ⟨?_, ?_⟩, rfl, ?_⟩
  · intro i hi
    match i, hi with
    | 0, _ => rfl
    | 1, _ => rfl
    | 2, _ => rfl
    | 3, _ => rfl
  · decide
  · show (15 : Nat) < 16; decide
  · decide +kernel

/-- A song structure with 65286 phrases panics if its mood looks encrypted, and is an error otherwise (the rest
is missing). -/
example :
    AnlzSection.read [0x50, 0x53, 0x53, 0x49, 0, 0, 0, 32, 0, 0x17, 0xe8, 0xb0, 0, 0, 0, 24, 0xff, 0x06, 0xd1, 0xe6] 0 =
      .panic ∧
    AnlzSection.read [0x50, 0x53, 0x53, 0x49, 0, 0, 0, 32, 0, 0x17, 0xe8, 0xb0, 0, 0, 0, 24, 0xff, 0x06, 0, 1] 0 ≠
      .panic := by decide +kernel

end Anlz
end Rekordcrate
