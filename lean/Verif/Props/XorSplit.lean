import Verif.Props.Xor

/-! # C43: exactly what a XOR stream does when transfers are split -/

namespace Rekordcrate
open XorStream

/-! ## Specification -/

/-- The number of key bytes that are used up before part `i` of a transfer of `n` bytes in parts: each earlier part
uses up as many as were still missing, not as many as were transferred. -/
def keySteps (n : Nat) (parts : List Nat) (i : Nat) : Nat :=
  ((List.range i).map fun m => n - (parts.take m).sum).sum

/-- A transfer of `n` bytes in parts, none of them empty. -/
def Parts (n : Nat) (parts : List Nat) : Prop := parts.sum = n ∧ ∀ t ∈ parts, 0 < t

/-- The key bytes that are used for the parts are the right ones. -/
def PartsInStep (key : Bytes) (n : Nat) (parts : List Nat) : Prop :=
  ∀ i t j, parts[i]? = some t → j < t →
    keyByteAt key 0 (keySteps n parts i + j) = keyByteAt key 0 ((parts.take i).sum + j)

/-! ## Lemmas -/

theorem keySteps_succ (n t : Nat) (ts : List Nat) (i : Nat) :
    keySteps n (t :: ts) (i + 1) = n + keySteps (n - t) ts i := by
  unfold keySteps
  rw [List.range_succ_eq_map, List.map_cons, List.map_map, List.sum_cons]
  simp only [List.take_zero, List.sum_nil, Nat.sub_zero]
  congr 2
  apply List.map_congr_left
  intro m _
  simp only [Function.comp, List.take_succ_cons, List.sum_cons]
  omega

theorem parts_index {n : Nat} {parts : List Nat} (hs : parts.sum = n) {x : Nat} (hx : x < n) :
    ∃ i t j, parts[i]? = some t ∧ j < t ∧ x = (parts.take i).sum + j := by
  induction parts generalizing n x with
  | nil => simp at hs; omega
  | cons t ts ih =>
    rw [List.sum_cons] at hs
    by_cases h : x < t
    · exact ⟨0, t, x, rfl, h, by simp⟩
    · obtain ⟨i, t', j, h1, h2, h3⟩ := ih rfl (x := x - t) (by omega)
      exact ⟨i + 1, t', j, h1, h2, by rw [List.take_succ_cons, List.sum_cons]; omega⟩

theorem parts_lt {parts : List Nat} {i t j : Nat} (h : parts[i]? = some t) (hj : j < t) :
    (parts.take i).sum + j < parts.sum := by
  induction parts generalizing i with
  | nil => simp at h
  | cons a ts ih =>
    cases i with
    | zero =>
      simp only [List.getElem?_cons_zero, Option.some.injEq] at h
      subst h
      simp
      omega
    | succ i =>
      have := ih (i := i) (by simpa using h)
      rw [List.take_succ_cons, List.sum_cons, List.sum_cons]
      omega

theorem readExact_parts {s : XorStream} {n : Nat} {parts : List Nat} (hp : Parts n parts)
    (hn : s.pos + n ≤ s.data.length) :
    (s.readExact n parts).2.length = n ∧
    ∀ i t j, parts[i]? = some t → j < t →
      (s.readExact n parts).2[(parts.take i).sum + j]? =
        s.data[s.pos + (parts.take i).sum + j]?.map (· ^^^ keyByte s.key (s.idx + (keySteps n parts i + j))) := by
  induction parts generalizing s n with
  | nil =>
    obtain ⟨h1, -⟩ := hp
    simp at h1
    subst h1
    exact ⟨rfl, fun i t j h => by simp at h⟩
  | cons t ts ih =>
    obtain ⟨h1, h2⟩ := hp
    rw [List.sum_cons] at h1
    have ht : 0 < t := h2 t (by simp)
    have hgot : ((s.data.drop s.pos).take (min t n)).length = t := by simp; omega
    have hmin : min t n = t := by omega
    have hread : s.read (List.replicate n 0) t = ({ s with pos := s.pos + t, idx := s.idx + n },
        xorBuf s.key s.idx ((s.data.drop s.pos).take t ++ (List.replicate n 0).drop t), t) := by
      unfold XorStream.read
      simp only [List.length_replicate, hmin]
      rw [hmin] at hgot
      simp only [hgot]
    rw [hmin] at hgot
    have hfirst : ∀ j, j < t → (xorBuf s.key s.idx ((s.data.drop s.pos).take t ++ (List.replicate n 0).drop t))[j]? =
        s.data[s.pos + j]?.map (· ^^^ keyByte s.key (s.idx + j)) := by
      intro j hj
      rw [xorBuf_getElem?, List.getElem?_append_left (by omega), List.getElem?_take, if_pos hj, List.getElem?_drop]
    unfold XorStream.readExact
    rw [hread]
    simp only
    by_cases hall : t = n
    · rw [if_pos hall]
      have hts : ts = [] := by
        cases ts with
        | nil => rfl
        | cons a ts =>
          have := h2 a (by simp)
          rw [List.sum_cons] at h1
          omega
      subst hts
      refine ⟨by simp; omega, fun i u j hi hj => ?_⟩
      cases i with
      | zero =>
        simp only [List.getElem?_cons_zero, Option.some.injEq] at hi
        subst hi
        simp only [List.take_zero, List.sum_nil, Nat.zero_add, Nat.add_zero]
        rw [hfirst j hj]
        simp [keySteps]
      | succ i => simp at hi
    · rw [if_neg hall]
      obtain ⟨g1, g2⟩ := ih (s := { s with pos := s.pos + t, idx := s.idx + n }) (n := n - t)
        ⟨by omega, fun a ha => h2 a (by simp [ha])⟩ (by simp only; omega)
      have htake : ((xorBuf s.key s.idx ((s.data.drop s.pos).take t ++ (List.replicate n 0).drop t)).take t).length = t := by
        simp; omega
      refine ⟨by rw [List.length_append, g1, htake]; omega, fun i u j hi hj => ?_⟩
      cases i with
      | zero =>
        simp only [List.getElem?_cons_zero, Option.some.injEq] at hi
        subst hi
        simp only [List.take_zero, List.sum_nil, Nat.zero_add, Nat.add_zero]
        rw [List.getElem?_append_left (by omega), List.getElem?_take, if_pos hj, hfirst j hj]
        simp [keySteps]
      | succ i =>
        have := g2 i u j (by simpa using hi) hj
        rw [List.take_succ_cons, List.sum_cons, List.getElem?_append_right (by omega), htake,
          show t + (ts.take i).sum + j - t = (ts.take i).sum + j by omega, this, keySteps_succ]
        simp only
        rw [show s.pos + (t + (ts.take i).sum) + j = s.pos + t + (ts.take i).sum + j by omega,
          show s.idx + n + (keySteps (n - t) ts i + j) = s.idx + (n + keySteps (n - t) ts i + j) by omega]

theorem writeAll_parts {s : XorStream} {buf : Bytes} {parts : List Nat} (hp : Parts buf.length parts)
    (hn : s.pos ≤ s.data.length) :
    (s.writeAll buf parts).data.length = max s.data.length (s.pos + buf.length) ∧
    (∀ i, i < s.data.length → (i < s.pos ∨ s.pos + buf.length ≤ i) → (s.writeAll buf parts).data[i]? = s.data[i]?) ∧
    ∀ i t j, parts[i]? = some t → j < t →
      (s.writeAll buf parts).data[s.pos + (parts.take i).sum + j]? =
        buf[(parts.take i).sum + j]?.map (· ^^^ keyByte s.key (s.idx + (keySteps buf.length parts i + j))) := by
  induction parts generalizing s buf with
  | nil =>
    obtain ⟨h1, -⟩ := hp
    simp at h1
    unfold XorStream.writeAll
    exact ⟨by omega, fun i _ _ => rfl, fun i t j h => by simp at h⟩
  | cons t ts ih =>
    obtain ⟨h1, h2⟩ := hp
    rw [List.sum_cons] at h1
    have ht : 0 < t := h2 t (by simp)
    have htl : ((xorBuf s.key s.idx buf).take t).length = t := by simp; omega
    have hne : (xorBuf s.key s.idx buf).take t ≠ [] := by
      intro h
      rw [h] at htl
      simp at htl
      omega
    have hlen : (Patch.apply s.data ⟨s.pos, (xorBuf s.key s.idx buf).take t⟩).length = max s.data.length (s.pos + t) := by
      unfold Patch.apply
      rw [if_neg hne]
      simp only [List.length_append, List.length_take, List.length_replicate, List.length_drop, xorBuf_length]
      omega
    have hget : ∀ i, (Patch.apply s.data ⟨s.pos, (xorBuf s.key s.idx buf).take t⟩)[i]? =
        if s.pos ≤ i ∧ i < s.pos + t then buf[i - s.pos]?.map (· ^^^ keyByte s.key (s.idx + (i - s.pos)))
        else s.data[i]? := by
      intro i
      rw [Patch.apply_getElem?]
      simp only [htl]
      split
      · rename_i h
        rw [List.getElem?_take, if_pos (by omega), xorBuf_getElem?]
      · split
        · rfl
        · rw [if_neg (by omega), List.getElem?_eq_none (by omega)]
    unfold XorStream.writeAll XorStream.write
    simp only [htl]
    by_cases hall : t = buf.length
    · rw [if_pos hall]
      have hts : ts = [] := by
        cases ts with
        | nil => rfl
        | cons a ts =>
          have := h2 a (by simp)
          rw [List.sum_cons] at h1
          omega
      subst hts
      refine ⟨by simp only [hlen]; omega, fun i _ hi => ?_, fun i u j hi hj => ?_⟩
      · simp only [hget]
        rw [if_neg (by omega)]
      · cases i with
        | zero =>
          simp only [List.getElem?_cons_zero, Option.some.injEq] at hi
          subst hi
          simp only [List.take_zero, List.sum_nil, Nat.zero_add, Nat.add_zero, hget]
          rw [if_pos (by omega), show s.pos + j - s.pos = j by omega]
          simp [keySteps]
        | succ i => simp at hi
    · rw [if_neg hall]
      obtain ⟨g1, g2, g3⟩ := ih (s := { s with
          data := Patch.apply s.data ⟨s.pos, (xorBuf s.key s.idx buf).take t⟩
          pos := s.pos + t
          idx := s.idx + buf.length }) (buf := buf.drop t)
        ⟨by simp; omega, fun a ha => h2 a (by simp [ha])⟩ (by simp only [hlen]; omega)
      simp only [List.length_drop] at g1 g2 g3
      refine ⟨by rw [g1, hlen]; omega, fun i hi hi' => ?_, fun i u j hi hj => ?_⟩
      · rw [g2 i (by rw [hlen]; omega) (by omega), hget, if_neg (by omega)]
      · cases i with
        | zero =>
          simp only [List.getElem?_cons_zero, Option.some.injEq] at hi
          subst hi
          simp only [List.take_zero, List.sum_nil, Nat.zero_add, Nat.add_zero]
          rw [g2 _ (by rw [hlen]; omega) (by omega), hget, if_pos (by omega), show s.pos + j - s.pos = j by omega]
          simp [keySteps]
        | succ i =>
          have := g3 i u j (by simpa using hi) hj
          rw [List.take_succ_cons, List.sum_cons, keySteps_succ,
            show s.pos + (t + (ts.take i).sum) + j = s.pos + t + (ts.take i).sum + j by omega, this, List.getElem?_drop,
            show t + ((ts.take i).sum + j) = t + (ts.take i).sum + j by omega,
            show s.idx + buf.length + (keySteps (buf.length - t) ts i + j) =
              s.idx + (buf.length + keySteps (buf.length - t) ts i + j) by omega]

theorem withKey_byte (data key : Bytes) (p0 j : Nat) :
    keyByte (withKey data p0 key).key j = keyByteAt key 0 j := by
  have hal : KeyAligned (if key.isEmpty then [0] else key) 0 0 0 := by simp [KeyAligned]
  have := keyByte_eq (key_ne key) hal j
  rw [Nat.zero_add, keyByteAt_norm] at this
  exact this

theorem keyByteAt_shift (key : Bytes) (p0 j : Nat) : keyByteAt key p0 (p0 + j) = keyByteAt key 0 j := by
  unfold keyByteAt
  rw [show (((p0 + j : Nat) : Int) - (p0 : Int)) = ((j : Nat) : Int) - ((0 : Nat) : Int) by omega]

theorem UInt8.xor_right_inj (a b c : UInt8) : a ^^^ b = a ^^^ c ↔ b = c := by
  constructor
  · intro h
    have := congrArg (a ^^^ ·) h
    simpa [← UInt8.xor_assoc] using this
  · rintro rfl; rfl

/-! ## Theorems -/

/-- C43: reading `n` bytes that the wrapped stream delivers in parts: byte `j` of part `i` is deciphered with the
key byte that `keySteps` gives. -/
theorem xor_split_read (key data : Bytes) (p0 n : Nat) (parts : List Nat) (hp : Parts n parts)
    (hn : p0 + n ≤ data.length) :
    ((withKey data p0 key).readExact n parts).2.length = n ∧
    ∀ i t j, parts[i]? = some t → j < t →
      ((withKey data p0 key).readExact n parts).2[(parts.take i).sum + j]? =
        data[p0 + (parts.take i).sum + j]?.map (· ^^^ keyByteAt key 0 (keySteps n parts i + j)) := by
  obtain ⟨h1, h2⟩ := readExact_parts (s := withKey data p0 key) hp hn
  refine ⟨h1, fun i t j hi hj => ?_⟩
  rw [h2 i t j hi hj]
  have : ((withKey data p0 key).idx + (keySteps n parts i + j)) = keySteps n parts i + j := Nat.zero_add _
  rw [this, withKey_byte]
  rfl

/-- C43: the data read in parts is right exactly if the key bytes used are the right ones. -/
theorem xor_split_read_right_iff (key data : Bytes) (p0 n : Nat) (parts : List Nat) (hp : Parts n parts)
    (hn : p0 + n ≤ data.length) :
    ((withKey data p0 key).readExact n parts).2 = ((xorImage key p0 data).drop p0).take n ↔
      PartsInStep key n parts := by
  obtain ⟨h1, h2⟩ := xor_split_read key data p0 n parts hp hn
  have right : ∀ x, x < n → (((xorImage key p0 data).drop p0).take n)[x]? =
      data[p0 + x]?.map (· ^^^ keyByteAt key 0 x) := by
    intro x hx
    rw [List.getElem?_take, if_pos hx, List.getElem?_drop, xorImage_getElem?, keyByteAt_shift]
  constructor
  · intro h i t j hi hj
    have hlt := parts_lt hi hj
    rw [hp.1] at hlt
    have h3 := h2 i t j hi hj
    rw [h, right _ hlt, Nat.add_assoc, List.getElem?_eq_getElem (by omega), Option.map_some, Option.map_some,
      Option.some.injEq, UInt8.xor_right_inj] at h3
    exact h3.symm
  · intro h
    apply List.ext_getElem?
    intro x
    by_cases hx : x < n
    · obtain ⟨i, t, j, hi, hj, rfl⟩ := parts_index hp.1 hx
      rw [h2 i t j hi hj, right _ hx, h i t j hi hj, Nat.add_assoc]
    · rw [List.getElem?_eq_none (by omega), List.getElem?_eq_none (by simp; omega)]

/-- C43: the same for writing. -/
theorem xor_split_write_right_iff (key data plain : Bytes) (p0 : Nat) (parts : List Nat) (hp : Parts plain.length parts)
    (hn : p0 ≤ data.length) :
    ((withKey data p0 key).writeAll plain parts).data =
        xorImage key p0 (((xorImage key p0 data).take p0 ++ plain) ++ (xorImage key p0 data).drop (p0 + plain.length)) ↔
      PartsInStep key plain.length parts := by
  obtain ⟨h1, h2, h3⟩ := writeAll_parts (s := withKey data p0 key) hp hn
  simp only [show (withKey data p0 key).data = data from rfl, show (withKey data p0 key).pos = p0 from rfl,
    show (withKey data p0 key).idx = 0 from rfl, Nat.zero_add, withKey_byte] at h1 h2 h3
  have outside : ∀ x, x < data.length → (x < p0 ∨ p0 + plain.length ≤ x) →
      (xorImage key p0 (((xorImage key p0 data).take p0 ++ plain) ++
        (xorImage key p0 data).drop (p0 + plain.length)))[x]? = data[x]? := by
    intro x hx hx'
    rw [xorImage_getElem?]
    have : (((xorImage key p0 data).take p0 ++ plain) ++ (xorImage key p0 data).drop (p0 + plain.length))[x]? =
        (xorImage key p0 data)[x]? := by
      have hl : ((xorImage key p0 data).take p0 ++ plain).length = p0 + plain.length := by simp; omega
      rcases hx' with hx' | hx'
      · rw [List.getElem?_append_left (by omega), List.getElem?_append_left (by simp; omega), List.getElem?_take,
          if_pos hx']
      · rw [List.getElem?_append_right (by omega), hl, List.getElem?_drop, show p0 + plain.length + (x - (p0 + plain.length)) = x by omega]
    rw [this, ← xorImage_getElem?, xorImage_xorImage]
  have right : ∀ x, x < plain.length → (xorImage key p0 (((xorImage key p0 data).take p0 ++ plain) ++
      (xorImage key p0 data).drop (p0 + plain.length)))[p0 + x]? = plain[x]?.map (· ^^^ keyByteAt key 0 x) := by
    intro x hx
    have hl : ((xorImage key p0 data).take p0).length = p0 := by simp; omega
    rw [xorImage_getElem?, keyByteAt_shift, List.getElem?_append_left (by rw [List.length_append]; omega),
      List.getElem?_append_right (by omega), hl, show p0 + x - p0 = x by omega]
  constructor
  · intro h i t j hi hj
    have hlt := parts_lt hi hj
    rw [hp.1] at hlt
    have h4 := h3 i t j hi hj
    rw [h, Nat.add_assoc, right _ hlt, List.getElem?_eq_getElem hlt, Option.map_some, Option.map_some,
      Option.some.injEq, UInt8.xor_right_inj] at h4
    exact h4.symm
  · intro h
    apply List.ext_getElem?
    intro x
    by_cases hx : p0 ≤ x ∧ x < p0 + plain.length
    · obtain ⟨i, t, j, hi, hj, hxj⟩ := parts_index hp.1 (x := x - p0) (by omega)
      have hxe : x = p0 + ((parts.take i).sum + j) := by omega
      rw [hxe, right _ (by omega), ← Nat.add_assoc, h3 i t j hi hj, h i t j hi hj]
    · by_cases hx2 : x < data.length
      · rw [h2 x hx2 (by omega), outside x hx2 (by omega)]
      · rw [List.getElem?_eq_none (by omega), List.getElem?_eq_none (by simp; omega)]

/-- C43: a transfer in one part is always right. -/
theorem parts_in_step_single (key : Bytes) (n : Nat) : PartsInStep key n [n] := by
  intro i t j hi hj
  cases i with
  | zero => simp [keySteps]
  | succ i => simp at hi

/-- C43: with a key of different bytes, a transfer in two parts is right exactly if the second part is a multiple of
the length of the key. -/
theorem parts_in_step_two {key : Bytes} (hk : key ≠ []) (hd : key.Nodup) (a b : Nat) (hb : 0 < b) :
    PartsInStep key (a + b) [a, b] ↔ key.length ∣ b := by
  have hlen : 0 < key.length := List.length_pos_iff.2 hk
  have hbyte : ∀ x y, keyByteAt key 0 x = keyByteAt key 0 y ↔ x % key.length = y % key.length := by
    intro x y
    unfold keyByteAt
    rw [if_neg hk, if_neg hk]
    have e : ∀ z : Nat, ((((z : Nat) : Int) - ((0 : Nat) : Int)) % (key.length : Int)).toNat = z % key.length := by
      intro z
      rw [show ((z : Int) - ((0 : Nat) : Int)) = (z : Int) by omega, ← Int.natCast_emod, Int.toNat_natCast]
    rw [e, e]
    have hx := Nat.mod_lt x hlen
    have hy := Nat.mod_lt y hlen
    rw [List.getD_eq_getElem?_getD, List.getD_eq_getElem?_getD, List.getElem?_eq_getElem hx,
      List.getElem?_eq_getElem hy, Option.getD_some, Option.getD_some]
    refine ⟨fun h => ?_, fun h => by simp only [h]⟩
    refine (List.getElem?_inj hx hd).1 ?_
    rw [List.getElem?_eq_getElem hx, List.getElem?_eq_getElem hy, h]
  have step : ∀ j, keyByteAt key 0 (a + b + j) = keyByteAt key 0 (a + j) ↔ key.length ∣ b := by
    intro j
    rw [hbyte, show a + b + j = (a + j) + b by omega]
    constructor
    · intro h
      have := Nat.sub_mod_eq_zero_of_mod_eq h
      rw [Nat.add_sub_cancel_left] at this
      exact Nat.dvd_of_mod_eq_zero this
    · rintro ⟨c, rfl⟩
      rw [Nat.add_mul_mod_self_left]
  constructor
  · intro h
    have := h 1 b 0 rfl hb
    simp only [keySteps, List.range_succ, List.range_zero, List.nil_append, List.map_cons, List.map_nil, List.take_zero,
      List.sum_cons, List.sum_nil, Nat.sub_zero, Nat.add_zero, List.take_succ_cons] at this
    exact (step 0).1 this
  · intro h i t j hi hj
    match i with
    | 0 => simp [keySteps]
    | 1 =>
      simp only [keySteps, List.range_succ, List.range_zero, List.nil_append, List.map_cons, List.map_nil, List.take_zero,
        List.sum_cons, List.sum_nil, Nat.sub_zero, Nat.add_zero, List.take_succ_cons]
      exact (step j).2 h
    | i + 2 => simp at hi

/-- C43: seven bytes with a key of three bytes: 4 + 3 is right, 5 + 2 is not. -/
example : PartsInStep [1, 2, 4] 7 [4, 3] ∧ ¬ PartsInStep [1, 2, 4] 7 [5, 2] ∧ Parts 7 [4, 3] ∧ Parts 7 [5, 2] :=
  ⟨(parts_in_step_two (by decide) (by decide) 4 3 (by decide)).2 (by decide),
    fun h => absurd ((parts_in_step_two (by decide) (by decide) 5 2 (by decide)).1 h) (by decide),
    ⟨rfl, by decide⟩, ⟨rfl, by decide⟩⟩

end Rekordcrate
