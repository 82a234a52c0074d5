import Verif.Spec.Xml

/-! # Lemmas about the XML part -/

namespace Rekordcrate
namespace Xml

/-! ## Numbers -/

theorem digitValue_digit {d : Nat} (h : d < 10) : digitValue (Char.ofNat (48 + d)) = some d := by
  have : ∀ d : Fin 10, digitValue (Char.ofNat (48 + d.val)) = some d.val := by decide
  exact this ⟨d, h⟩

theorem digit_of_value {c : Char} {d : Nat} (h : digitValue c = some d) : d < 10 ∧ c = Char.ofNat (48 + d) := by
  unfold digitValue at h
  split at h
  · rename_i hc
    injection h with h
    refine ⟨by omega, ?_⟩
    rw [show 48 + d = c.toNat by omega]
    exact (Char.ofNat_toNat c).symm
  · cases h

theorem digitsValue_append (acc : Nat) (cs : List Char) (c : Char) :
    digitsValue acc (cs ++ [c]) = match digitsValue acc cs, digitValue c with
      | some n, some d => some (10 * n + d)
      | _, _ => none := by
  induction cs generalizing acc with
  | nil =>
    simp only [List.nil_append, digitsValue]
    cases digitValue c <;> rfl
  | cons a cs ih =>
    simp only [List.cons_append, digitsValue]
    cases digitValue a with
    | none => rfl
    | some d => exact ih _

theorem naturalValue_iff (cs : List Char) (n : Nat) : naturalValue cs = some n ↔ Decimal cs n := by
  constructor
  · have key : ∀ (k : Nat) (cs : List Char), cs.length = k + 1 → ∀ n, digitsValue 0 cs = some n → Decimal cs n := by
      intro k
      induction k with
      | zero =>
        intro cs hl n h
        match cs, hl with
        | [c], _ =>
          simp only [digitsValue] at h
          cases hd : digitValue c with
          | none => rw [hd] at h; cases h
          | some d =>
            rw [hd] at h
            injection h with h
            obtain ⟨h1, rfl⟩ := digit_of_value hd
            obtain rfl : d = n := by omega
            exact .digit h1
      | succ k ih =>
        intro cs hl n h
        have hne : cs ≠ [] := by rintro rfl; simp at hl
        rw [← List.dropLast_concat_getLast hne] at h ⊢
        rw [digitsValue_append] at h
        cases h1 : digitsValue 0 cs.dropLast with
        | none => rw [h1] at h; cases h
        | some m =>
          cases h2 : digitValue (cs.getLast hne) with
          | none => rw [h1, h2] at h; cases h
          | some d =>
            rw [h1, h2] at h
            injection h with h
            obtain ⟨h3, h4⟩ := digit_of_value h2
            rw [h4, ← h]
            exact .snoc (ih _ (by rw [List.length_dropLast]; omega) m h1) h3
    intro h
    cases cs with
    | nil => cases h
    | cons c cs => exact key cs.length (c :: cs) rfl n h
  · intro h
    have : cs ≠ [] ∧ digitsValue 0 cs = some n := by
      induction h with
      | digit h => simp [digitsValue, digitValue_digit h]
      | snoc t h ih =>
        refine ⟨by simp, ?_⟩
        rw [digitsValue_append, ih.2, digitValue_digit h]
    cases cs with
    | nil => exact absurd rfl this.1
    | cons c cs => exact this.2

theorem Decimal.digits_only {cs : List Char} {n : Nat} (h : Decimal cs n) : ∀ c ∈ cs, c ≠ '+' ∧ c ≠ '-' := by
  have key : ∀ d : Fin 10, Char.ofNat (48 + d.val) ≠ '+' ∧ Char.ofNat (48 + d.val) ≠ '-' := by decide
  induction h with
  | digit h =>
    intro c hc
    rw [List.mem_singleton] at hc
    subst hc
    exact key ⟨_, h⟩
  | snoc t h ih =>
    intro c hc
    rw [List.mem_append, List.mem_singleton] at hc
    rcases hc with hc | rfl
    · exact ih c hc
    · exact key ⟨_, h⟩

theorem Decimal.unique {cs : List Char} {n m : Nat} (h : Decimal cs n) (h' : Decimal cs m) : n = m := by
  rw [← naturalValue_iff] at h h'
  rw [h] at h'
  injection h'

theorem digits_decimal (n : Nat) : Decimal (digits n) n := by
  induction n using Nat.strongRecOn with
  | _ n ih =>
    rw [digits]
    split
    · rename_i h
      have : digitChar n = Char.ofNat (48 + n) := by unfold digitChar; rw [Nat.mod_eq_of_lt h]
      rw [this]
      exact .digit h
    · rename_i h
      have h1 := Decimal.snoc (ih (n / 10) (by omega)) (Nat.mod_lt n (by decide : 10 > 0))
      have h2 : 10 * (n / 10) + n % 10 = n := by omega
      rw [h2] at h1
      exact h1

theorem unsigned_iff (l : List Char) (n : Nat) :
    (match l with
      | '+' :: cs => naturalValue cs
      | cs => naturalValue cs) = some n ↔ (Decimal l n ∨ ∃ cs, l = '+' :: cs ∧ Decimal cs n) := by
  split
  · rename_i cs
    rw [naturalValue_iff]
    constructor
    · exact fun h => .inr ⟨cs, rfl, h⟩
    · rintro (h | ⟨cs', h1, h2⟩)
      · exact absurd rfl (h.digits_only '+' (by simp)).1
      · injection h1 with _ h1
        subst h1
        exact h2
  · rename_i hne
    rw [naturalValue_iff]
    constructor
    · exact fun h => .inl h
    · rintro (h | ⟨cs', h1, h2⟩)
      · exact h
      · exact absurd h1 (hne _)

theorem parseUsize_iff (s : String) (n : Nat) : parseUsize s = some n ↔ UsizeText s n := by
  unfold parseUsize UsizeText
  have key := unsigned_iff s.toList
  simp only
  split
  · rename_i m hm
    have h1 := (key m).1 hm
    split
    · rename_i h
      simp only [Option.some.injEq]
      constructor
      · rintro rfl
        exact ⟨h, h1⟩
      · rintro ⟨-, h2⟩
        have h3 := hm.symm.trans ((key n).2 h2)
        injection h3
    · rename_i h
      simp only [reduceCtorEq, false_iff]
      rintro ⟨h0, h2⟩
      have h3 := hm.symm.trans ((key n).2 h2)
      injection h3 with h3
      exact h (h3 ▸ h0)
  · rename_i hm
    simp only [reduceCtorEq, false_iff]
    rintro ⟨h0, h2⟩
    have h3 := hm.symm.trans ((key n).2 h2)
    cases h3

theorem parseI32_iff (s : String) (n : Int) : parseI32 s = some n ↔ I32Text s n := by
  unfold parseI32 I32Text
  generalize s.toList = l
  have hr : ∀ k : Int, (if - 2 ^ 31 ≤ k ∧ k < 2 ^ 31 then some k else none) = some n ↔
      k = n ∧ -2147483648 ≤ n ∧ n ≤ 2147483647 := by
    intro k
    split
    · rename_i h
      simp only [Option.some.injEq]
      constructor
      · rintro rfl; exact ⟨rfl, by omega, by omega⟩
      · exact fun h => h.1
    · rename_i h
      simp only [reduceCtorEq, false_iff]
      rintro ⟨rfl, h1, h2⟩
      exact h ⟨by omega, by omega⟩
  simp only
  split
  · rename_i v k hk
    rw [hr]
    split at hk
    · rename_i cs
      rw [Option.map_eq_some_iff] at hk
      obtain ⟨m, hm, rfl⟩ := hk
      rw [naturalValue_iff] at hm
      constructor
      · rintro ⟨rfl, h1, h2⟩
        exact ⟨h1, h2, .inl ⟨m, rfl, .inr ⟨cs, rfl, hm⟩⟩⟩
      · rintro ⟨h1, h2, ⟨m', rfl, h | ⟨cs', h3, h4⟩⟩ | ⟨m', cs', rfl, h3, h4⟩⟩
        · exact absurd rfl (h.digits_only '+' (by simp)).1
        · injection h3 with _ h3
          subst h3
          rw [hm.unique h4] at *
          exact ⟨rfl, h1, h2⟩
        · injection h3 with h3 _
          exact absurd h3 (by decide)
    · rename_i cs
      rw [Option.map_eq_some_iff] at hk
      obtain ⟨m, hm, rfl⟩ := hk
      rw [naturalValue_iff] at hm
      constructor
      · rintro ⟨rfl, h1, h2⟩
        exact ⟨h1, h2, .inr ⟨m, cs, rfl, rfl, hm⟩⟩
      · rintro ⟨h1, h2, ⟨m', rfl, h | ⟨cs', h3, h4⟩⟩ | ⟨m', cs', rfl, h3, h4⟩⟩
        · exact absurd rfl (h.digits_only '-' (by simp)).2
        · injection h3 with h3 _
          exact absurd h3 (by decide)
        · injection h3 with _ h3
          subst h3
          rw [hm.unique h4] at *
          exact ⟨rfl, h1, h2⟩
    · rename_i hp hmi
      rw [Option.map_eq_some_iff] at hk
      obtain ⟨m, hm, rfl⟩ := hk
      rw [naturalValue_iff] at hm
      constructor
      · rintro ⟨rfl, h1, h2⟩
        exact ⟨h1, h2, .inl ⟨m, rfl, .inl hm⟩⟩
      · rintro ⟨h1, h2, ⟨m', rfl, h | ⟨cs', h3, h4⟩⟩ | ⟨m', cs', rfl, h3, h4⟩⟩
        · rw [hm.unique h] at *
          exact ⟨rfl, h1, h2⟩
        · exact absurd h3 (hp _)
        · exact absurd h3 (hmi _)
  · rename_i v hk
    simp only [reduceCtorEq, false_iff]
    rintro ⟨-, -, h⟩
    split at hk
    · rename_i cs
      rw [Option.map_eq_none_iff] at hk
      rcases h with ⟨m', -, h | ⟨cs', h3, h4⟩⟩ | ⟨m', cs', -, h3, h4⟩
      · exact absurd rfl (h.digits_only '+' (by simp)).1
      · injection h3 with _ h3
        subst h3
        rw [← naturalValue_iff, hk] at h4
        cases h4
      · injection h3 with h3 _
        exact absurd h3 (by decide)
    · rename_i cs
      rw [Option.map_eq_none_iff] at hk
      rcases h with ⟨m', -, h | ⟨cs', h3, h4⟩⟩ | ⟨m', cs', -, h3, h4⟩
      · exact absurd rfl (h.digits_only '-' (by simp)).2
      · injection h3 with h3 _
        exact absurd h3 (by decide)
      · injection h3 with _ h3
        subst h3
        rw [← naturalValue_iff, hk] at h4
        cases h4
    · rename_i hp hmi
      rw [Option.map_eq_none_iff] at hk
      rcases h with ⟨m', -, h | ⟨cs', h3, h4⟩⟩ | ⟨m', cs', -, h3, h4⟩
      · rw [← naturalValue_iff, hk] at h
        cases h
      · exact absurd h3 (hp _)
      · exact absurd h3 (hmi _)

theorem showNat_text {n : Nat} (h : n < 2 ^ 64) : UsizeText (showNat n) n := by
  refine ⟨h, .inl ?_⟩
  rw [showNat, String.toList_ofList]
  exact digits_decimal n

theorem showInt_text {n : Int} (h1 : -2147483648 ≤ n) (h2 : n ≤ 2147483647) : I32Text (showInt n) n := by
  refine ⟨h1, h2, ?_⟩
  unfold showInt
  split
  · rename_i h
    exact .inr ⟨n.natAbs, digits n.natAbs, by omega, by rw [String.toList_ofList], digits_decimal _⟩
  · rename_i h
    exact .inl ⟨n.natAbs, by omega, .inl (by rw [String.toList_ofList]; exact digits_decimal _)⟩

/-! ## Attributes -/

theorem checkAttrs_iff (seen : List String) (l : List (String × String)) :
    checkAttrs seen l = .ok () ↔ (l.map Prod.fst).Nodup ∧ ∀ a ∈ l, a.1 ∉ seen := by
  induction l generalizing seen with
  | nil => simp [checkAttrs]
  | cons a l ih =>
    obtain ⟨k, x⟩ := a
    rw [checkAttrs]
    split
    · rename_i h
      simp [h]
    · rename_i h
      rw [ih, List.map_cons, List.nodup_cons]
      constructor
      · rintro ⟨h1, h2⟩
        refine ⟨⟨?_, h1⟩, ?_⟩
        · intro hm
          obtain ⟨b, hb, e⟩ := List.mem_map.1 hm
          exact h2 b hb (by rw [e]; simp)
        · intro b hb
          rcases List.mem_cons.1 hb with rfl | hb
          · exact h
          · exact fun e => h2 b hb (by simp [e])
      · rintro ⟨⟨h1, h2⟩, h3⟩
        refine ⟨h2, fun b hb e => ?_⟩
        rcases List.mem_cons.1 e with e | e
        · exact h1 (List.mem_map.2 ⟨b, hb, e⟩)
        · exact h3 b (by simp [hb]) e

/-- The variables hold what the attributes say. -/
structure Holds (v : Vars) (l : List (String × String)) : Prop where
  nodeType : ∀ t, v.nodeType = some t ↔ ("Type", t) ∈ l
  name : ∀ t, v.name = some t ↔ ("Name", t) ∈ l
  count : v.count.isSome ↔ ∃ t, ("Count", t) ∈ l
  keyType : ∀ t, v.keyType = some t ↔ ("KeyType", t) ∈ l
  entries : v.entries.isSome ↔ ∃ t, ("Entries", t) ∈ l

/-- The attributes say what is needed. -/
def Complete (l : List (String × String)) : Found → Prop
  | .folder n => ("Type", "0") ∈ l ∧ ("Name", n) ∈ l ∧ ∃ c, ("Count", c) ∈ l
  | .playlist n k => ("Type", "1") ∈ l ∧ ("Name", n) ∈ l ∧ ("KeyType", k) ∈ l ∧ ∃ c, ("Entries", c) ∈ l

theorem mem_unique {l : List (String × String)} (h : (l.map Prod.fst).Nodup) {k x y : String} (hx : (k, x) ∈ l)
    (hy : (k, y) ∈ l) : x = y := by
  induction l with
  | nil => cases hx
  | cons a l ih =>
    rw [List.map_cons, List.nodup_cons] at h
    rcases List.mem_cons.1 hx with ex | hx
    · rcases List.mem_cons.1 hy with ey | hy
      · have := ex.trans ey.symm
        injection this
      · exact absurd (List.mem_map.2 ⟨(k, y), hy, by rw [← ex]⟩) h.1
    · rcases List.mem_cons.1 hy with ey | hy
      · exact absurd (List.mem_map.2 ⟨(k, x), hx, by rw [← ey]⟩) h.1
      · exact ih h.2 hx hy

theorem Complete.unique {l : List (String × String)} (h : (l.map Prod.fst).Nodup) {f g : Found} (hf : Complete l f)
    (hg : Complete l g) : f = g := by
  cases f with
  | folder n =>
    cases g with
    | folder m => rw [mem_unique h hf.2.1 hg.2.1]
    | playlist m k => exact absurd (mem_unique h hf.1 hg.1) (by decide)
  | playlist n k =>
    cases g with
    | folder m => exact absurd (mem_unique h hf.1 hg.1) (by decide)
    | playlist m k' => rw [mem_unique h hf.2.1 hg.2.1, mem_unique h hf.2.2.1 hg.2.2.1]

theorem Complete.mono {l l' : List (String × String)} (h : ∀ a ∈ l, a ∈ l') {f : Found} (hf : Complete l f) :
    Complete l' f := by
  cases f with
  | folder n => exact ⟨h _ hf.1, h _ hf.2.1, hf.2.2.imp fun _ => h _⟩
  | playlist n k => exact ⟨h _ hf.1, h _ hf.2.1, h _ hf.2.2.1, hf.2.2.2.imp fun _ => h _⟩

theorem Holds.found_some {v : Vars} {l : List (String × String)} (h : Holds v l) (f : Found) :
    v.found = .ok (some f) ↔ Complete l f := by
  unfold Vars.found
  cases f with
  | folder n =>
    show _ ↔ ("Type", "0") ∈ l ∧ ("Name", n) ∈ l ∧ ∃ c, ("Count", c) ∈ l
    rw [← h.nodeType, ← h.name, ← h.count]
    cases v.nodeType with
    | none => simp
    | some t =>
      by_cases h0 : t = "0"
      · subst h0
        cases v.name <;> cases v.count <;> simp
      · simp only [h0, if_false, Option.some.injEq, false_and, iff_false]
        split
        · split <;> simp
        · simp
  | playlist n k =>
    show _ ↔ ("Type", "1") ∈ l ∧ ("Name", n) ∈ l ∧ ("KeyType", k) ∈ l ∧ ∃ c, ("Entries", c) ∈ l
    rw [← h.nodeType, ← h.name, ← h.entries, ← h.keyType]
    cases v.nodeType with
    | none => simp
    | some t =>
      by_cases h0 : t = "0"
      · subst h0
        simp only [if_true, Option.some.injEq, show ("0" : String) ≠ "1" from by decide, false_and, iff_false]
        split <;> simp
      · simp only [h0, if_false, Option.some.injEq]
        by_cases h1 : t = "1"
        · subst h1
          cases v.name <;> cases v.entries <;> cases v.keyType <;> simp
        · simp [h1]

theorem Holds.found_error {v : Vars} {l : List (String × String)} (h : Holds v l) {e : XmlErr}
    (he : v.found = .error e) : ∃ t, ("Type", t) ∈ l ∧ t ≠ "0" ∧ t ≠ "1" := by
  unfold Vars.found at he
  cases ht : v.nodeType with
  | none => rw [ht] at he; cases he
  | some t =>
    rw [ht] at he
    simp only at he
    refine ⟨t, (h.nodeType t).1 ht, ?_⟩
    split at he
    · split at he <;> cases he
    · split at he
      · split at he <;> cases he
      · exact ⟨‹_›, ‹_›⟩

theorem Holds.set {v v' : Vars} {l : List (String × String)} (h : Holds v l) {k x : String}
    (hk : k ∉ l.map Prod.fst) (hs : v.set k x = .ok v') : Holds v' (l ++ [(k, x)]) ∧ GoodAttr (k, x) := by
  have hn : ∀ y, (k, y) ∉ l := fun y hy => hk (List.mem_map.2 ⟨_, hy, rfl⟩)
  have mem : ∀ (k' y : String), (k', y) ∈ l ++ [(k, x)] ↔ (k', y) ∈ l ∨ (k' = k ∧ y = x) := by
    intro k' y
    rw [List.mem_append, List.mem_singleton, Prod.mk.injEq]
  have num : ∀ {n : Nat}, parseUsize x = some n → ∃ n, UsizeText x n := fun h => ⟨_, (parseUsize_iff _ _).1 h⟩
  unfold Vars.set at hs
  split at hs
  · rename_i e
    subst e
    injection hs with hs
    subst hs
    refine ⟨⟨?_, ?_, ?_, ?_, ?_⟩, .inr (.inl rfl)⟩
    · intro t; rw [mem, ← h.nodeType]; simp
    · intro t; rw [mem]; simp only [Option.some.injEq, true_and]
      exact ⟨fun e => .inr e.symm, fun e => e.elim (fun e => absurd e (hn t)) (fun e => e.symm)⟩
    · simp only [mem]; rw [h.count]; simp
    · intro t; rw [mem, ← h.keyType]; simp
    · simp only [mem]; rw [h.entries]; simp
  split at hs
  · rename_i e
    subst e
    injection hs with hs
    subst hs
    refine ⟨⟨?_, ?_, ?_, ?_, ?_⟩, .inl rfl⟩
    · intro t; rw [mem]; simp only [Option.some.injEq, true_and]
      exact ⟨fun e => .inr e.symm, fun e => e.elim (fun e => absurd e (hn t)) (fun e => e.symm)⟩
    · intro t; rw [mem, ← h.name]; simp
    · simp only [mem]; rw [h.count]; simp
    · intro t; rw [mem, ← h.keyType]; simp
    · simp only [mem]; rw [h.entries]; simp
  split at hs
  · rename_i e
    subst e
    split at hs
    · rename_i n hp
      injection hs with hs
      subst hs
      refine ⟨⟨?_, ?_, ?_, ?_, ?_⟩, .inr (.inr (.inr ⟨.inl rfl, num hp⟩))⟩
      · intro t; rw [mem, ← h.nodeType]; simp
      · intro t; rw [mem, ← h.name]; simp
      · simp only [mem]; simp
      · intro t; rw [mem, ← h.keyType]; simp
      · simp only [mem]; rw [h.entries]; simp
    · cases hs
  split at hs
  · rename_i e
    subst e
    injection hs with hs
    subst hs
    refine ⟨⟨?_, ?_, ?_, ?_, ?_⟩, .inr (.inr (.inl rfl))⟩
    · intro t; rw [mem, ← h.nodeType]; simp
    · intro t; rw [mem, ← h.name]; simp
    · simp only [mem]; rw [h.count]; simp
    · intro t; rw [mem]; simp only [Option.some.injEq, true_and]
      exact ⟨fun e => .inr e.symm, fun e => e.elim (fun e => absurd e (hn t)) (fun e => e.symm)⟩
    · simp only [mem]; rw [h.entries]; simp
  split at hs
  · rename_i e
    subst e
    split at hs
    · rename_i n hp
      injection hs with hs
      subst hs
      refine ⟨⟨?_, ?_, ?_, ?_, ?_⟩, .inr (.inr (.inr ⟨.inr rfl, num hp⟩))⟩
      · intro t; rw [mem, ← h.nodeType]; simp
      · intro t; rw [mem, ← h.name]; simp
      · simp only [mem]; rw [h.count]; simp
      · intro t; rw [mem, ← h.keyType]; simp
      · simp only [mem]; simp
    · cases hs
  · cases hs

theorem Vars.set_ok (v : Vars) {a : String × String} (h : GoodAttr a) : ∃ v', v.set a.1 a.2 = .ok v' := by
  obtain ⟨k, x⟩ := a
  unfold Vars.set
  rcases h with h | h | h | ⟨h | h, n, hn⟩
  all_goals
    simp only at h
    subst h
  · exact ⟨_, rfl⟩
  · exact ⟨_, rfl⟩
  · exact ⟨_, rfl⟩
  · rw [← parseUsize_iff] at hn
    simp [hn]
  · rw [← parseUsize_iff] at hn
    simp [hn]

theorem scan_sound {v : Vars} {seen : List String} {nc : Bool} {attrs : List (String × String)} {f : Found}
    (h : scan v seen nc attrs = .ok f) {done : List (String × String)} (hv : Holds v done)
    (hs : ∀ k, k ∈ seen ↔ k ∈ done.map Prod.fst) (hd : (done.map Prod.fst).Nodup) :
    ∃ pre rest, attrs = pre ++ rest ∧ ((done ++ attrs).map Prod.fst).Nodup ∧ (∀ a ∈ pre, GoodAttr a) ∧
      Complete (done ++ pre) f := by
  induction attrs generalizing v seen done with
  | nil =>
    rw [scan] at h
    split at h <;> cases h
  | cons a attrs ih =>
    obtain ⟨k, x⟩ := a
    rw [scan] at h
    split at h
    · cases h
    · rename_i hk
      rw [hs] at hk
      cases hset : v.set k x with
      | error e => rw [hset] at h; cases h
      | ok v' =>
        rw [hset] at h
        simp only at h
        obtain ⟨h1, h2⟩ := hv.set hk hset
        have hd' : ((done ++ [(k, x)]).map Prod.fst).Nodup := by
          rw [List.map_append, List.nodup_append]
          refine ⟨hd, by simp, ?_⟩
          intro y hy z hz e
          simp only [List.map_cons, List.map_nil, List.mem_singleton] at hz
          subst hz
          subst e
          exact hk hy
        have hs' : ∀ k', k' ∈ k :: seen ↔ k' ∈ (done ++ [(k, x)]).map Prod.fst := by
          intro k'
          rw [List.mem_cons, hs, List.map_append, List.mem_append]
          simp [or_comm]
        cases hf : v'.found with
        | error e => rw [hf] at h; cases h
        | ok o =>
          rw [hf] at h
          cases o with
          | none =>
            obtain ⟨pre, rest, e1, e2, e3, e4⟩ := ih h h1 hs' hd'
            refine ⟨(k, x) :: pre, rest, by rw [e1]; rfl, ?_, ?_, ?_⟩
            · rw [List.append_assoc] at e2
              exact e2
            · intro a ha
              rcases List.mem_cons.1 ha with rfl | ha
              · exact h2
              · exact e3 a ha
            · rw [List.append_assoc] at e4
              exact e4
          | some g =>
            simp only at h
            cases hc : checkAttrs (k :: seen) attrs with
            | error e => rw [hc] at h; cases h
            | ok u =>
              rw [hc] at h
              injection h with h
              subst h
              obtain ⟨c1, c2⟩ := (checkAttrs_iff _ _).1 hc
              refine ⟨[(k, x)], attrs, rfl, ?_, ?_, (h1.found_some _).1 hf⟩
              · rw [show done ++ (k, x) :: attrs = (done ++ [(k, x)]) ++ attrs by simp, List.map_append,
                  List.nodup_append]
                refine ⟨hd', c1, ?_⟩
                intro y hy z hz e
                subst e
                obtain ⟨a, ha, rfl⟩ := List.mem_map.1 hz
                exact c2 a ha ((hs' _).2 hy)
              · intro a ha
                rw [List.mem_singleton] at ha
                subst ha
                exact h2

theorem scan_complete {v : Vars} {seen : List String} {nc : Bool} {pre rest : List (String × String)} {f : Found}
    {done : List (String × String)} (hv : Holds v done)
    (hs : ∀ k, k ∈ seen ↔ k ∈ done.map Prod.fst) (hd : ((done ++ (pre ++ rest)).map Prod.fst).Nodup)
    (hg : ∀ a ∈ pre, GoodAttr a) (hc : Complete (done ++ pre) f) (hn : ∀ g, ¬ Complete done g) :
    scan v seen nc (pre ++ rest) = .ok f := by
  induction pre generalizing v seen done with
  | nil =>
    rw [List.append_nil] at hc
    exact absurd hc (hn f)
  | cons a pre ih =>
    obtain ⟨k, x⟩ := a
    rw [List.cons_append, scan]
    have hk : k ∉ done.map Prod.fst := by
      rw [List.map_append, List.nodup_append] at hd
      exact fun e => hd.2.2 k e k (by simp) rfl
    rw [if_neg (fun e => hk ((hs k).1 e))]
    obtain ⟨v', hset⟩ := v.set_ok (hg (k, x) (by simp))
    simp only at hset
    rw [hset]
    simp only
    obtain ⟨h1, -⟩ := hv.set hk hset
    have hall : done ++ ((k, x) :: pre ++ rest) = (done ++ [(k, x)]) ++ (pre ++ rest) := by simp
    have hs' : ∀ k', k' ∈ k :: seen ↔ k' ∈ (done ++ [(k, x)]).map Prod.fst := by
      intro k'
      rw [List.mem_cons, hs, List.map_append, List.mem_append]
      simp [or_comm]
    have hc' : Complete ((done ++ [(k, x)]) ++ pre) f := by
      rw [List.append_assoc]
      exact hc
    have hnd : ((done ++ (k, x) :: pre).map Prod.fst).Nodup := by
      rw [show done ++ ((k, x) :: pre ++ rest) = (done ++ (k, x) :: pre) ++ rest by simp, List.map_append,
        List.nodup_append] at hd
      exact hd.1
    cases hf : v'.found with
    | error e =>
      obtain ⟨t, t1, t2, t3⟩ := h1.found_error hf
      have t4 : ("Type", t) ∈ done ++ (k, x) :: pre := by
        rw [List.mem_append] at t1 ⊢
        rcases t1 with t1 | t1
        · exact .inl t1
        · exact .inr (by rw [List.mem_singleton] at t1; rw [t1]; simp)
      cases f with
      | folder n => exact absurd (mem_unique hnd t4 hc.1) t2
      | playlist n kt => exact absurd (mem_unique hnd t4 hc.1) t3
    | ok o =>
      cases o with
      | none =>
        refine ih h1 hs' (by rw [← hall]; exact hd) (fun a ha => hg a (by simp [ha])) hc' ?_
        intro g hgc
        rw [← h1.found_some, hf] at hgc
        injection hgc with hgc
        cases hgc
      | some g =>
        simp only
        have hgc := (h1.found_some g).1 hf
        have : g = f := Complete.unique hnd (hgc.mono (by
          intro a ha
          rw [List.mem_append] at ha ⊢
          rcases ha with ha | ha
          · exact .inl ha
          · exact .inr (by rw [List.mem_singleton] at ha; rw [ha]; simp))) hc
        subst this
        rw [(checkAttrs_iff (k :: seen) (pre ++ rest)).2]
        rw [hall, List.map_append, List.nodup_append] at hd
        refine ⟨hd.2.1, fun a ha e => ?_⟩
        exact hd.2.2 a.1 ((hs' _).1 e) a.1 (List.mem_map.2 ⟨a, ha, rfl⟩) rfl

theorem Holds.empty : Holds {} [] := ⟨by simp, by simp, by simp, by simp, by simp⟩

/-- Exactly when the attributes of a node are accepted. -/
theorem scan_iff (nc : Bool) (attrs : List (String × String)) (f : Found) : scan {} [] nc attrs = .ok f ↔
    DistinctAttrs attrs ∧ ∃ pre rest, attrs = pre ++ rest ∧ (∀ a ∈ pre, GoodAttr a) ∧ Complete pre f := by
  constructor
  · intro h
    obtain ⟨pre, rest, h1, h2, h3, h4⟩ := scan_sound h Holds.empty (by simp) (by simp)
    exact ⟨h2, pre, rest, h1, h3, h4⟩
  · rintro ⟨h0, pre, rest, rfl, h2, h3⟩
    refine scan_complete Holds.empty (by simp) h0 h2 h3 ?_
    intro g hg
    cases g with
    | folder n => exact absurd hg.1 (by simp)
    | playlist n k => exact absurd hg.1 (by simp)

end Xml
end Rekordcrate
