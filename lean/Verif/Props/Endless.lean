import Mathlib.Data.Fintype.EquivFin
import Verif.Spec.Endless
import Verif.Props.Device

/-! # C57: the outcome of loading the playlists, for all tables -/

namespace Rekordcrate

instance : Finite UInt32 := Finite.of_injective (fun x : UInt32 => x.toFin) fun _ _ h =>
  UInt32.toNat_inj.1 (congrArg Fin.val h)

section

variable {m : ChildMap}

theorem nodeOf_mono {r : PlaylistTreeNode} {n : Nat} {x : Res PlaylistNode} (h : nodeOf (childNodes m n) r = some x)
    (k : Nat) : nodeOf (childNodes m (n + k)) r = some x := by
  unfold nodeOf at h ⊢
  split
  · rename_i hf
    rw [if_pos hf] at h
    split
    · rename_i name hname
      rw [hname] at h
      simp only at h
      cases hs : childNodes m n r.id with
      | none => rw [hs] at h; cases h
      | some z =>
        rw [childNodes_mono hs k]
        rw [hs] at h
        exact h
    · rename_i e hname
      rw [hname] at h
      exact h
    · rename_i hname
      rw [hname] at h
      exact h
  · rename_i hf
    rw [if_neg hf] at h
    exact h

theorem collectNodes_mono {rs : List PlaylistTreeNode} {n : Nat} {x : Res (List PlaylistNode)}
    (h : collectNodes (childNodes m n) rs = some x) (k : Nat) : collectNodes (childNodes m (n + k)) rs = some x :=
  collectNodes_congr (fun _ _ _ hy => childNodes_mono hy k) h

/-- A list that is never finished has a first node that is never finished. -/
theorem collectNodes_never {rs : List PlaylistTreeNode} (h : ∀ n, collectNodes (childNodes m n) rs = none) :
    ∃ before r after, rs = before ++ r :: after ∧ (∀ n, nodeOf (childNodes m n) r = none) ∧
      ∀ x ∈ before, ∃ n y, nodeOf (childNodes m n) x = some (.ok y) := by
  induction rs with
  | nil => cases h 0
  | cons r rs ih =>
    by_cases hr : ∀ n, nodeOf (childNodes m n) r = none
    · exact ⟨[], r, rs, rfl, hr, fun _ h => by cases h⟩
    · rw [Classical.not_forall] at hr
      obtain ⟨n, hr⟩ := hr
      cases hx : nodeOf (childNodes m n) r with
      | none => exact absurd hx hr
      | some x =>
        cases x with
        | err e => have := h n; rw [collectNodes, hx] at this; cases this
        | panic => have := h n; rw [collectNodes, hx] at this; cases this
        | ok y =>
          have hrs : ∀ k, collectNodes (childNodes m k) rs = none := by
            intro k
            cases hk : collectNodes (childNodes m k) rs with
            | none => rfl
            | some z =>
              have h1 := collectNodes_mono hk n
              have h2 := h (k + n)
              rw [collectNodes, Nat.add_comm k n, nodeOf_mono hx k, Nat.add_comm n k, h1] at h2
              cases z <;> cases h2
          obtain ⟨before, r', after, h1, h2, h3⟩ := ih hrs
          refine ⟨r :: before, r', after, by rw [h1]; rfl, h2, fun x hx' => ?_⟩
          rcases List.mem_cons.1 hx' with e | hx'
          · rw [e]
            exact ⟨n, y, hx⟩
          · exact h3 x hx'

theorem nodeOf_never {r : PlaylistTreeNode} (h : ∀ n, nodeOf (childNodes m n) r = none) :
    r.nodeIsFolder ≠ 0 ∧ r.Named ∧ ∀ n, childNodes m n r.id = none := by
  have h' : ∀ n, r.nodeIsFolder ≠ 0 ∧ r.Named ∧ childNodes m n r.id = none := by
    intro n
    have h := h n
    unfold nodeOf at h
    split at h
    · rename_i hf
      split at h
      · rename_i name hname
        split at h
        · cases h
        · cases h
        · cases h
        · rename_i hs
          exact ⟨(isFolder_iff r).1 hf, ⟨name, hname⟩, hs⟩
      · cases h
      · cases h
    · split at h <;> cases h
  exact ⟨(h' 0).1, (h' 0).2.1, fun n => (h' n).2.2⟩

end

variable {rows : List PlaylistTreeNode}

theorem childNodes_fine {n : Nat} {id : UInt32} {l : List PlaylistNode}
    (h : childNodes (ChildMap.build rows) n id = some (.ok l)) : Fine rows id := by
  induction n generalizing id l with
  | zero => cases h
  | succ n ih =>
    rw [childNodes, ChildMap.build_getD] at h
    obtain ⟨h1, h2⟩ := collectNodes_ok h
    have key : ∀ r ∈ rows, r.parentId = id → ∃ x ∈ l, Shows r x := by
      intro r hr hp
      exact h1.mem_left (List.mem_filter.2 ⟨hr, by simpa using hp⟩)
    refine .mk (fun r hr hp => ?_) fun r hr hp hf => ?_
    · obtain ⟨x, -, hx⟩ := key r hr hp
      cases x with
      | folder i name cs => exact ⟨name, hx.2.2⟩
      | playlist i name => exact ⟨name, hx.2.2⟩
    · obtain ⟨x, hl, hx⟩ := key r hr hp
      cases x with
      | folder i name cs =>
        rw [← hx.2.1]
        exact ih (h2 i name cs hl)
      | playlist i name => exact absurd hx.1 hf

theorem nodeOf_named {sub : UInt32 → Option (Res (List PlaylistNode))} {r : PlaylistTreeNode} (hn : r.Named)
    (hs : r.nodeIsFolder ≠ 0 → sub r.id = none ∨ ∃ l, sub r.id = some (.ok l)) :
    nodeOf sub r = none ∨ ∃ x, nodeOf sub r = some (.ok x) := by
  obtain ⟨name, hname⟩ := hn
  unfold nodeOf
  rw [hname]
  split
  · rename_i hf
    rcases hs ((isFolder_iff r).1 hf) with h | ⟨l, h⟩
    · rw [h]; exact .inl rfl
    · rw [h]; exact .inr ⟨_, rfl⟩
  · exact .inr ⟨_, rfl⟩

theorem collectNodes_named {sub : UInt32 → Option (Res (List PlaylistNode))} {rs : List PlaylistTreeNode}
    (hs : ∀ r ∈ rs, r.Named ∧ (r.nodeIsFolder ≠ 0 → sub r.id = none ∨ ∃ l, sub r.id = some (.ok l))) :
    collectNodes sub rs = none ∨ ∃ l, collectNodes sub rs = some (.ok l) := by
  induction rs with
  | nil => exact .inr ⟨_, rfl⟩
  | cons r rs ih =>
    rw [collectNodes]
    rcases nodeOf_named (hs r (by simp)).1 (hs r (by simp)).2 with h | ⟨x, h⟩
    · rw [h]; exact .inl rfl
    · rw [h]
      simp only
      rcases ih fun r hr => hs r (by simp [hr]) with h | ⟨l, h⟩
      · rw [h]; exact .inl rfl
      · rw [h]; exact .inr ⟨_, rfl⟩

theorem Fine.childNodes {id : UInt32} (h : Fine rows id) (n : Nat) :
    childNodes (ChildMap.build rows) n id = none ∨ ∃ l, childNodes (ChildMap.build rows) n id = some (.ok l) := by
  induction n generalizing id with
  | zero => exact .inl rfl
  | succ n ih =>
    obtain ⟨h1, h2⟩ := h
    rw [Rekordcrate.childNodes, ChildMap.build_getD]
    refine collectNodes_named fun r hr => ?_
    rw [List.mem_filter] at hr
    have hp : r.parentId = id := by simpa using hr.2
    exact ⟨h1 r hr.1 hp, fun hf => ih (h2 r hr.1 hp hf)⟩

theorem childNodes_never {id : UInt32} (h : ∀ n, childNodes (ChildMap.build rows) n id = none) :
    ∃ b, Enters rows id b ∧ ∀ n, childNodes (ChildMap.build rows) n b = none := by
  obtain ⟨before, r, after, h1, h2, h3⟩ := collectNodes_never (m := ChildMap.build rows)
    (rs := rows.filter fun r => r.parentId = id) fun n => by
      have := h (n + 1)
      rw [childNodes, ChildMap.build_getD] at this
      exact this
  obtain ⟨g1, g2, g3⟩ := nodeOf_never h2
  refine ⟨r.id, ⟨before, r, after, h1, g1, rfl, g2, fun x hx => ?_⟩, g3⟩
  obtain ⟨n, y, hy⟩ := h3 x hx
  obtain ⟨s1, s2⟩ := nodeOf_ok hy
  cases y with
  | folder i name cs =>
    refine ⟨⟨name, s1.2.2⟩, fun _ => ?_⟩
    rw [← s1.2.1]
    exact childNodes_fine (s2 i name cs rfl)
  | playlist i name => exact ⟨⟨name, s1.2.2⟩, fun hf => absurd s1.1 hf⟩

theorem Fine.finished {id : UInt32} (h : Fine rows id) : ∃ n l, Rekordcrate.childNodes (ChildMap.build rows) n id =
    some (.ok l) := by
  induction h with
  | @mk id h1 h2 ih =>
    by_cases hn : ∀ n, Rekordcrate.childNodes (ChildMap.build rows) n id = none
    · obtain ⟨b, ⟨before, r, after, e, hf, rfl, -⟩, hb⟩ := childNodes_never hn
      have hr : r ∈ rows.filter fun r => r.parentId = id := by rw [e]; simp
      rw [List.mem_filter] at hr
      obtain ⟨n, l, h⟩ := ih r hr.1 (by simpa using hr.2) hf
      rw [hb n] at h
      cases h
    · rw [Classical.not_forall] at hn
      obtain ⟨n, hn⟩ := hn
      rcases (Fine.mk h1 h2).childNodes n with h | ⟨l, h⟩
      · exact absurd h hn
      · exact ⟨n, l, h⟩

theorem collectNodes_blocked {sub : UInt32 → Option (Res (List PlaylistNode))} {before after : List PlaylistTreeNode}
    {r : PlaylistTreeNode} (hr : nodeOf sub r = none)
    (hb : ∀ x ∈ before, nodeOf sub x = none ∨ ∃ y, nodeOf sub x = some (.ok y)) :
    collectNodes sub (before ++ r :: after) = none := by
  induction before with
  | nil => rw [List.nil_append, collectNodes, hr]
  | cons x xs ih =>
    rw [List.cons_append, collectNodes]
    rcases hb x (by simp) with h | ⟨y, h⟩
    · rw [h]
    · rw [h]
      simp only
      rw [ih fun x hx => hb x (by simp [hx])]

/-- If every id of a set leads to an id of the set, the walk never ends. -/
theorem childNodes_endless {S : UInt32 → Prop} (hS : ∀ a, S a → ∃ b, Enters rows a b ∧ S b) (n : Nat) {a : UInt32}
    (ha : S a) : childNodes (ChildMap.build rows) n a = none := by
  induction n generalizing a with
  | zero => rfl
  | succ n ih =>
    obtain ⟨b, ⟨before, r, after, e, hf, rfl, ⟨name, hname⟩, hb⟩, hSb⟩ := hS a ha
    rw [childNodes, ChildMap.build_getD, e]
    refine collectNodes_blocked ?_ fun x hx => nodeOf_named (hb x hx).1 fun hf => ((hb x hx).2 hf).childNodes n
    unfold nodeOf
    rw [if_pos ((isFolder_iff r).2 hf), hname]
    simp only
    rw [ih hSb]

open Relation

theorem transGen_cases_head {R : UInt32 → UInt32 → Prop} {a c : UInt32} (h : TransGen R a c) :
    ∃ b, R a b ∧ (b = c ∨ TransGen R b c) := by
  induction h with
  | single h => exact ⟨_, h, .inl rfl⟩
  | tail _ h ih =>
    obtain ⟨b, h1, h2⟩ := ih
    refine ⟨b, h1, .inr ?_⟩
    rcases h2 with rfl | h2
    · exact .single h
    · exact .tail h2 h

theorem Endless.childNodes (h : Endless rows) (n : Nat) : childNodes (ChildMap.build rows) n 0 = none := by
  obtain ⟨id, h1, h2⟩ := h
  refine childNodes_endless (S := fun a => a = id ∨ TransGen (Enters rows) a id) (fun a ha => ?_) n (a := 0) ?_
  · have hc : TransGen (Enters rows) a id := by
      rcases ha with rfl | ha
      · exact h2
      · exact ha
    obtain ⟨b, g1, g2⟩ := transGen_cases_head hc
    exact ⟨b, g1, g2⟩
  · rcases h1 with h1 | h1
    · exact .inl h1.symm
    · exact .inr h1

theorem endless_of_never (h : ∀ n, childNodes (ChildMap.build rows) n 0 = none) : Endless rows := by
  let D := { a : UInt32 // ∀ n, childNodes (ChildMap.build rows) n a = none }
  have hstep : ∀ a : D, ∃ b : D, Enters rows a.1 b.1 := fun a => by
    obtain ⟨b, h1, h2⟩ := childNodes_never a.2
    exact ⟨⟨b, h2⟩, h1⟩
  let next : D → D := fun a => (hstep a).choose
  have hnext : ∀ a, Enters rows a.1 (next a).1 := fun a => (hstep a).choose_spec
  let f : Nat → D := fun k => Nat.rec ⟨0, h⟩ (fun _ a => next a) k
  have hf : ∀ k, Enters rows (f k).1 (f (k + 1)).1 := fun k => hnext (f k)
  have hlt : ∀ i k, TransGen (Enters rows) (f i).1 (f (i + k + 1)).1 := by
    intro i k
    induction k with
    | zero => exact .single (hf i)
    | succ k ih => exact .tail ih (hf (i + k + 1))
  have hni : ¬ Function.Injective fun k => (f k).1 := not_injective_infinite_finite _
  have hij : ∃ i k, (f i).1 = (f (i + k + 1)).1 := by
    apply Classical.byContradiction
    intro hno
    refine hni fun i j hij => ?_
    have hij : (f i).1 = (f j).1 := hij
    rcases Nat.lt_trichotomy i j with hl | hl | hl
    · exact absurd ⟨i, j - i - 1, by rw [show i + (j - i - 1) + 1 = j by omega]; exact hij⟩ hno
    · exact hl
    · exact absurd ⟨j, i - j - 1, by rw [show j + (i - j - 1) + 1 = i by omega]; exact hij.symm⟩ hno
  obtain ⟨i, k, e⟩ := hij
  refine ⟨(f i).1, ?_, ?_⟩
  · cases i with
    | zero => exact .inl rfl
    | succ i =>
      have := hlt 0 i
      rw [Nat.zero_add] at this
      exact .inr this
  · have := hlt i k
    rw [← e] at this
    exact this

/-! ## The theorems -/

/-- C57, exactly and for all tables: `get_playlists` returns if and only if the walk through the rows, which ends at
the first name that is not valid, does not come to a folder that it enters again inside of itself. -/
theorem get_playlists_returns_iff {d : Database} (hr : (d.allRows PlaylistTreeNode).1 = .ok rows) :
    (∃ r, PlaylistsReturn d r) ↔ ¬ Endless rows := by
  have e : ∀ n, getPlaylists n d = childNodes (ChildMap.build rows) n 0 := fun n => by
    unfold getPlaylists
    rw [hr]
  constructor
  · rintro ⟨r, n, h⟩ he
    rw [e, he.childNodes n] at h
    cases h
  · intro hne
    apply Classical.byContradiction
    intro hno
    refine hne (endless_of_never fun n => ?_)
    cases hn : childNodes (ChildMap.build rows) n 0 with
    | none => rfl
    | some r => exact absurd ⟨r, n, by rw [e]; exact hn⟩ hno

/-- C57, C58: `get_playlists` returns a tree if and only if all names below the root are valid and no folder there is
below itself. -/
theorem get_playlists_ok_iff {d : Database} (hr : (d.allRows PlaylistTreeNode).1 = .ok rows) :
    (∃ tree, PlaylistsReturn d (.ok tree)) ↔ Fine rows 0 := by
  have e : ∀ n, getPlaylists n d = childNodes (ChildMap.build rows) n 0 := fun n => by
    unfold getPlaylists
    rw [hr]
  constructor
  · rintro ⟨l, n, h⟩
    rw [e] at h
    exact childNodes_fine h
  · intro h
    obtain ⟨n, l, h⟩ := h.finished
    exact ⟨l, n, by rw [e]; exact h⟩

theorem nodeOf_outcome {sub : UInt32 → Option (Res (List PlaylistNode))} {r : PlaylistTreeNode} {x : Res PlaylistNode}
    (hs : ∀ id y, sub id = some y → (∃ l, y = .ok l) ∨ y = .err .encoding) (h : nodeOf sub r = some x) :
    (∃ y, x = .ok y) ∨ x = .err .encoding := by
  unfold nodeOf at h
  split at h
  · rcases intoString_cases r.name with ⟨name, hn⟩ | hn
    · rw [hn] at h
      simp only at h
      split at h
      · injection h with h; exact .inl ⟨_, h.symm⟩
      · rename_i e hsub
        injection h with h
        rcases hs _ _ hsub with ⟨l, e'⟩ | e'
        · cases e'
        · injection e' with e'
          rw [e'] at h; exact .inr h.symm
      · rename_i hsub
        rcases hs _ _ hsub with ⟨l, e'⟩ | e' <;> cases e'
      · cases h
    · rw [hn] at h
      injection h with h
      exact .inr h.symm
  · rcases intoString_cases r.name with ⟨name, hn⟩ | hn
    · rw [hn] at h
      injection h with h
      exact .inl ⟨_, h.symm⟩
    · rw [hn] at h
      injection h with h
      exact .inr h.symm

theorem collectNodes_outcome {sub : UInt32 → Option (Res (List PlaylistNode))} {rs : List PlaylistTreeNode}
    {x : Res (List PlaylistNode)} (hs : ∀ id y, sub id = some y → (∃ l, y = .ok l) ∨ y = .err .encoding)
    (h : collectNodes sub rs = some x) : (∃ y, x = .ok y) ∨ x = .err .encoding := by
  induction rs generalizing x with
  | nil => injection h with h; exact .inl ⟨_, h.symm⟩
  | cons r rs ih =>
    rw [collectNodes] at h
    split at h
    · split at h
      · injection h with h; exact .inl ⟨_, h.symm⟩
      · exact ih h
    · rename_i e hn
      injection h with h
      rcases nodeOf_outcome hs hn with ⟨l, e'⟩ | e'
      · cases e'
      · injection e' with e'
        rw [e'] at h; exact .inr h.symm
    · rename_i hn
      rcases nodeOf_outcome hs hn with ⟨l, e'⟩ | e' <;> cases e'
    · cases h

/-- C57: the only other way to return is the error for a name that is not valid; it is returned if and only if there is
such a problem and the walk ends. -/
theorem get_playlists_err_iff {d : Database} (hr : (d.allRows PlaylistTreeNode).1 = .ok rows) {r : Res (List PlaylistNode)}
    (hne : ∀ tree, r ≠ .ok tree) :
    PlaylistsReturn d r ↔ r = .err .encoding ∧ ¬ Endless rows ∧ ¬ Fine rows 0 := by
  have out : ∀ n id y, childNodes (ChildMap.build rows) n id = some y → (∃ l, y = .ok l) ∨ y = .err .encoding := by
    intro n
    induction n with
    | zero => intro id y h; cases h
    | succ n ih =>
      intro id y h
      rw [childNodes] at h
      exact collectNodes_outcome ih h
  have out' : ∀ r, PlaylistsReturn d r → (∃ l, r = .ok l) ∨ r = .err .encoding := by
    rintro r ⟨n, h⟩
    unfold getPlaylists at h
    rw [hr] at h
    exact out n 0 r h
  constructor
  · intro h
    refine ⟨?_, (get_playlists_returns_iff hr).1 ⟨r, h⟩, fun hf => ?_⟩
    · rcases out' r h with ⟨l, e⟩ | e
      · exact absurd e (hne l)
      · exact e
    · obtain ⟨tree, ht⟩ := (get_playlists_ok_iff hr).2 hf
      exact hne tree (get_playlists_deterministic h ht)
  · rintro ⟨e, h1, h2⟩
    obtain ⟨r', h'⟩ := (get_playlists_returns_iff hr).2 h1
    rcases out' r' h' with ⟨l, e'⟩ | e'
    · exact absurd ((get_playlists_ok_iff hr).1 ⟨l, by rw [← e']; exact h'⟩) h2
    · rw [e, ← e']
      exact h'

/-! ## Examples -/

/-- A name that is not valid, in front of a folder that is below itself. -/
def badNameFirst : List PlaylistTreeNode :=
  [treeRow 0 3 0 0xFF, treeRow 0 1 1 0x41, treeRow 1 1 1 0x42, treeRow 1 4 0 0x44]

theorem badNameFirst_rows : ((treeDb badNameFirst).allRows PlaylistTreeNode).1 = .ok badNameFirst :=
  treeDb_rows (by decide +kernel) (by decide +kernel) (by decide +kernel)

/-- The same rows with the name that is not valid after the folder that is below itself. -/
def badNameLast : List PlaylistTreeNode :=
  [treeRow 0 1 1 0x41, treeRow 1 1 1 0x42, treeRow 1 4 0 0x44, treeRow 0 3 0 0xFF]

theorem badNameLast_rows : ((treeDb badNameLast).allRows PlaylistTreeNode).1 = .ok badNameLast :=
  treeDb_rows (by decide +kernel) (by decide +kernel) (by decide +kernel)

/-- C57: the name that comes first ends the walk with an error. -/
example : PlaylistsReturn (treeDb badNameFirst) (.err .encoding) := by
  refine (get_playlists_err_iff badNameFirst_rows (fun _ h => by cases h)).2 ⟨rfl, ?_, ?_⟩
  · rintro ⟨id, h1, h2⟩
    have h0 : ∀ b, ¬ Enters badNameFirst 0 b := by
      rintro b ⟨before, r, after, e, hf, -, ⟨s, hs⟩, hb⟩
      have e' : [treeRow 0 3 0 0xFF, treeRow 0 1 1 0x41] = before ++ r :: after := by
        rw [← e]
        decide +kernel
      cases before with
      | nil =>
        injection e' with e' _
        rw [← e'] at hf
        exact hf rfl
      | cons x xs =>
        injection e' with e' _
        obtain ⟨s, hs⟩ := (hb x (by simp)).1
        rw [← e'] at hs
        have : (treeRow 0 3 0 0xFF).name.intoString = .err .encoding := by decide +kernel
        rw [this] at hs
        cases hs
    rcases h1 with rfl | h1
    · obtain ⟨b, hb, -⟩ := transGen_cases_head h2
      exact h0 b hb
    · obtain ⟨b, hb, -⟩ := transGen_cases_head h1
      exact h0 b hb
  · rintro ⟨h, -⟩
    obtain ⟨s, hs⟩ := h (treeRow 0 3 0 0xFF) (by decide +kernel) rfl
    have : (treeRow 0 3 0 0xFF).name.intoString = .err .encoding := by decide +kernel
    rw [this] at hs
    cases hs

/-- C57: in the other order the walk does not end. -/
example : ¬ ∃ r, PlaylistsReturn (treeDb badNameLast) r := by
  rw [get_playlists_returns_iff badNameLast_rows]
  refine fun h => h ⟨1, .inr (.single ?_), .single ?_⟩
  · refine ⟨[], treeRow 0 1 1 0x41, [treeRow 0 3 0 0xFF], by decide +kernel, by decide, rfl, ⟨"A", by decide +kernel⟩,
      fun _ h => by cases h⟩
  · refine ⟨[], treeRow 1 1 1 0x42, [treeRow 1 4 0 0x44], by decide +kernel, by decide, rfl, ⟨"B", by decide +kernel⟩,
      fun _ h => by cases h⟩

/-- C57, C58: the tree of the example has valid names and no folder below itself. -/
example : Fine exampleTree 0 := (get_playlists_ok_iff exampleTree_rows).1 ⟨_, exampleTree_tree⟩

end Rekordcrate
