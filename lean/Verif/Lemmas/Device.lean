import Verif.Spec.Device
import Verif.Lemmas.RowIter

/-! # Lemmas about the playlist tree -/

namespace Rekordcrate

theorem mapRes_ok {α : Type} (l : List α) : mapRes Res.ok l = .ok l := by
  induction l with
  | nil => rfl
  | cons x xs ih => simp [mapRes, ih]

/-- The loop over the rows, in terms of the rows. -/
theorem RowIterator.collect_of_runs {α β : Type} [RowVariant α] (f : α → Res β) {it it' : RowIterator}
    {l : List (Nat × UInt16 × α)} (h : it.Runs α l it') :
    (it.collect α f).1 = mapRes f (l.map fun x => x.2.2) ∧
      ((∃ ys, mapRes f (l.map fun x => x.2.2) = .ok ys) → (it.collect α f).2 = it') := by
  induction h with
  | done h =>
    rw [RowIterator.collect]
    split <;> simp_all [mapRes]
  | step h _ ih =>
    rw [RowIterator.collect]
    split
    · simp_all
    · rename_i hh
      rw [h] at hh
      injection hh with h1 h2
      injection h1 with h1
      injection h1 with h1
      subst h1 h2
      rename_i it1 _ _ _ a _ _
      rw [List.map_cons, mapRes]
      simp only
      cases hy : f a with
      | ok y =>
        simp only
        cases hc : RowIterator.collect α f it1 with
        | mk r it2 =>
          rw [hc] at ih
          rw [← ih.1]
          cases r with
          | ok ys => exact ⟨rfl, fun _ => ih.2 ⟨ys, ih.1.symm⟩⟩
          | err e => exact ⟨rfl, fun ⟨_, e⟩ => by cases e⟩
          | panic => exact ⟨rfl, fun ⟨_, e⟩ => by cases e⟩
      | err e => exact ⟨rfl, fun ⟨_, e⟩ => by cases e⟩
      | panic => exact ⟨rfl, fun ⟨_, e⟩ => by cases e⟩
    · simp_all
    · simp_all

theorem RowIterator.drain_of_runs {α : Type} [RowVariant α] {it it' : RowIterator}
    {l : List (Nat × UInt16 × α)} (h : it.Runs α l it') :
    it.collect α Res.ok = (.ok (l.map fun x => x.2.2), it') := by
  obtain ⟨h1, h2⟩ := RowIterator.collect_of_runs Res.ok h
  rw [mapRes_ok] at h1 h2
  exact Prod.ext h1 (h2 ⟨_, rfl⟩)

theorem ChildMap.foldl_push (rows : List PlaylistTreeNode) (m : ChildMap) (k : UInt32) :
    ((rows.foldl ChildMap.push m) k).getD [] = (m k).getD [] ++ rows.filter fun r => r.parentId = k := by
  induction rows generalizing m with
  | nil => simp
  | cons r rs ih =>
    rw [List.foldl_cons, ih, List.filter_cons]
    unfold ChildMap.push
    by_cases h : r.parentId = k
    · subst h
      simp
    · have h' : ¬ k = r.parentId := fun e => h e.symm
      simp [h, h']

theorem ChildMap.build_getD (rows : List PlaylistTreeNode) (k : UInt32) :
    ((ChildMap.build rows) k).getD [] = rows.filter fun r => r.parentId = k := by
  unfold ChildMap.build
  rw [ChildMap.foldl_push]
  rfl

theorem isFolder_iff (r : PlaylistTreeNode) : r.isFolder = true ↔ r.nodeIsFolder ≠ 0 := by
  unfold PlaylistTreeNode.isFolder
  simp only [gt_iff_lt, decide_eq_true_eq]
  have : (0 : UInt32) < r.nodeIsFolder ↔ 0 < r.nodeIsFolder.toNat := UInt32.lt_iff_toNat_lt
  rw [this, ne_eq, ← UInt32.toNat_inj]
  simp only [UInt32.toNat_zero]
  omega

theorem intoString_cases (s : DString) : (∃ t, s.intoString = .ok t) ∨ s.intoString = .err .encoding := by
  have h : ∀ o : Option String, (∃ t, Res.ofOption .encoding o = .ok t) ∨ Res.ofOption .encoding o = .err .encoding := by
    intro o
    cases o with
    | none => exact .inr rfl
    | some t => exact .inl ⟨t, rfl⟩
  unfold DString.intoString
  split <;> exact h _

namespace Below

theorem head {rows : List PlaylistTreeNode} {a b c : UInt32} (h : FolderIn rows a b) (t : Below rows b c) :
    Below rows a c := by
  induction t with
  | one h' => exact .step (.one h) h'
  | step _ h' ih => exact .step ih h'

theorem trans {rows : List PlaylistTreeNode} {a b c : UInt32} (s : Below rows a b) (t : Below rows b c) :
    Below rows a c := by
  induction t with
  | one h' => exact .step s h'
  | step _ h' ih => exact .step ih h'

/-- The first step of a descent. -/
theorem first {rows : List PlaylistTreeNode} {a c : UInt32} (t : Below rows a c) :
    ∃ b, FolderIn rows a b ∧ (b = c ∨ Below rows b c) := by
  induction t with
  | one h => exact ⟨_, h, .inl rfl⟩
  | step _ h ih =>
    obtain ⟨b, h1, h2⟩ := ih
    refine ⟨b, h1, .inr ?_⟩
    rcases h2 with rfl | h2
    · exact .one h
    · exact .step h2 h

theorem last {rows : List PlaylistTreeNode} {a c : UInt32} (t : Below rows a c) :
    ∃ b, (a = b ∨ Below rows a b) ∧ FolderIn rows b c := by
  cases t with
  | one h => exact ⟨_, .inl rfl, h⟩
  | step t h => exact ⟨_, .inr t, h⟩

end Below

theorem Reached.step {rows : List PlaylistTreeNode} {a b : UInt32} (h : Reached rows a) (f : FolderIn rows a b) :
    Reached rows b := by
  rcases h with rfl | h
  · exact .inr (.one f)
  · exact .inr (.step h f)

theorem Reached.below {rows : List PlaylistTreeNode} {a b : UInt32} (h : Reached rows a) (f : Below rows a b) :
    Reached rows b := by
  rcases h with rfl | h
  · exact .inr f
  · exact .inr (h.trans f)

theorem ProperIds.row_unique {rows : List PlaylistTreeNode} (h : ProperIds rows) {r s : PlaylistTreeNode}
    (hr : r ∈ rows) (hs : s ∈ rows) (e : r.id = s.id) : r = s := by
  have hu := h.unique
  clear h
  induction rows with
  | nil => cases hr
  | cons a rows ih =>
    rw [List.map_cons, List.nodup_cons] at hu
    rcases List.mem_cons.1 hr with rfl | hr'
    · rcases List.mem_cons.1 hs with rfl | hs'
      · rfl
      · exact absurd (by rw [e]; exact List.mem_map_of_mem hs') hu.1
    · rcases List.mem_cons.1 hs with rfl | hs'
      · exact absurd (by rw [← e]; exact List.mem_map_of_mem hr') hu.1
      · exact ih hr' hs' hu.2

theorem FolderIn.parent_unique {rows : List PlaylistTreeNode} (hp : ProperIds rows) {a b c : UInt32}
    (h : FolderIn rows a c) (h' : FolderIn rows b c) : a = b := by
  obtain ⟨r, hr, -, ha, hc⟩ := h
  obtain ⟨s, hs, -, hb, hc'⟩ := h'
  rw [← ha, ← hb, hp.row_unique hr hs (by rw [hc, hc'])]

/-- With unique ids, two folders above the same folder are above each other. -/
theorem Below.linear {rows : List PlaylistTreeNode} (hp : ProperIds rows) {a b c : UInt32} (h : Below rows a c)
    (h' : Below rows b c) : a = b ∨ Below rows a b ∨ Below rows b a := by
  induction h with
  | one h =>
    obtain ⟨b', h1, h2⟩ := h'.last
    have e := h.parent_unique hp h2
    subst e
    rcases h1 with rfl | h1
    · exact .inl rfl
    · exact .inr (.inr h1)
  | step t h ih =>
    obtain ⟨b', h1, h2⟩ := h'.last
    have e := h.parent_unique hp h2
    subst e
    rcases h1 with rfl | h1
    · exact .inr (.inl t)
    · exact ih h1

theorem not_below_zero {rows : List PlaylistTreeNode} (hp : ProperIds rows) {a : UInt32} : ¬ Below rows a 0 := by
  intro h
  obtain ⟨_, -, r, hr, -, -, e⟩ := h.last
  exact hp.nonzero r hr e

/-- With unique ids that are not 0 there are no cycles that can be reached. -/
theorem ProperIds.cycleFree {rows : List PlaylistTreeNode} (hp : ProperIds rows) : CycleFree rows := by
  intro id hr hc
  rcases hr with rfl | hr
  · exact not_below_zero hp hc
  · -- every folder below the root that is on a cycle has a parent on a cycle
    induction hr with
    | one h =>
      obtain ⟨b, h1, h2⟩ := hc.last
      have e := h.parent_unique hp h2
      subst e
      rcases h1 with rfl | h1
      · exact not_below_zero hp (.one h)
      · exact not_below_zero hp h1
    | step t h ih =>
      obtain ⟨b, h1, h2⟩ := hc.last
      have e := h.parent_unique hp h2
      subst e
      apply ih
      rcases h1 with rfl | h1
      · exact .one h
      · exact Below.head h h1

/-! ## The functions -/

theorem nodeOf_isSome {sub : UInt32 → Option (Res (List PlaylistNode))} {r : PlaylistTreeNode}
    (h : r.nodeIsFolder ≠ 0 → (sub r.id).isSome = true) : (nodeOf sub r).isSome = true := by
  unfold nodeOf
  split
  · rename_i hf
    have h := h ((isFolder_iff r).1 hf)
    split
    · split
      · rfl
      · rfl
      · rfl
      · rename_i e
        rw [e] at h
        cases h
    · rfl
    · rfl
  · split <;> rfl

theorem collectNodes_isSome {sub : UInt32 → Option (Res (List PlaylistNode))} {rs : List PlaylistTreeNode}
    (h : ∀ r ∈ rs, r.nodeIsFolder ≠ 0 → (sub r.id).isSome = true) : (collectNodes sub rs).isSome = true := by
  induction rs with
  | nil => rfl
  | cons r rs ih =>
    have h1 := nodeOf_isSome (h r (by simp))
    have h2 := ih fun s hs => h s (by simp [hs])
    rw [collectNodes]
    split
    · split
      · rfl
      · exact h2
    · rfl
    · rfl
    · rename_i e
      rw [e] at h1
      cases h1

theorem collectNodes_congr {sub sub' : UInt32 → Option (Res (List PlaylistNode))} {rs : List PlaylistTreeNode}
    (h : ∀ r ∈ rs, ∀ x, sub r.id = some x → sub' r.id = some x) {x : Res (List PlaylistNode)}
    (e : collectNodes sub rs = some x) : collectNodes sub' rs = some x := by
  induction rs generalizing x with
  | nil => exact e
  | cons r rs ih =>
    have hn : ∀ y, nodeOf sub r = some y → nodeOf sub' r = some y := by
      intro y hy
      unfold nodeOf at hy ⊢
      split
      · rename_i hf
        rw [if_pos hf] at hy
        split
        · rename_i name hname
          rw [hname] at hy
          simp only at hy
          cases hs : sub r.id with
          | none => rw [hs] at hy; cases hy
          | some z =>
            rw [h r (by simp) z hs]
            rw [hs] at hy
            exact hy
        · rename_i e hname
          rw [hname] at hy
          exact hy
        · rename_i hname
          rw [hname] at hy
          exact hy
      · rename_i hf
        rw [if_neg hf] at hy
        exact hy
    have ih' : ∀ x, collectNodes sub rs = some x → collectNodes sub' rs = some x :=
      fun x hx => ih (fun s hs => h s (by simp [hs])) hx
    rw [collectNodes] at e ⊢
    cases h1 : nodeOf sub r with
    | none => rw [h1] at e; cases e
    | some y =>
      rw [hn y h1]
      rw [h1] at e
      cases y with
      | err e' => exact e
      | panic => exact e
      | ok a =>
        simp only at e ⊢
        cases h2 : collectNodes sub rs with
        | none => rw [h2] at e; cases e
        | some z =>
          rw [ih' z h2]
          rw [h2] at e
          exact e

theorem childNodes_mono {m : ChildMap} {n : Nat} {id : UInt32} {x : Res (List PlaylistNode)}
    (h : childNodes m n id = some x) (k : Nat) : childNodes m (n + k) id = some x := by
  induction n generalizing id x with
  | zero => cases h
  | succ n ih =>
    rw [Nat.add_right_comm, childNodes]
    rw [childNodes] at h
    exact collectNodes_congr (fun r _ y hy => ih hy) h

theorem getPlaylists_mono {d : Database} {n : Nat} {x : Res (List PlaylistNode)}
    (h : getPlaylists n d = some x) (k : Nat) : getPlaylists (n + k) d = some x := by
  unfold getPlaylists at h ⊢
  split
  · rename_i hr
    rw [hr] at h
    exact childNodes_mono h k
  · rename_i hr
    rw [hr] at h
    exact h
  · rename_i hr
    rw [hr] at h
    exact h

theorem PlaylistsReturn.unique {d : Database} {x y : Res (List PlaylistNode)} (h : PlaylistsReturn d x)
    (h' : PlaylistsReturn d y) : x = y := by
  obtain ⟨n, h⟩ := h
  obtain ⟨k, h'⟩ := h'
  have h1 := getPlaylists_mono h k
  have h2 := getPlaylists_mono h' n
  rw [Nat.add_comm] at h2
  rw [h1] at h2
  injection h2

/-- The size of what is below an id. -/
noncomputable def belowCount (rows : List PlaylistTreeNode) (id : UInt32) : Nat :=
  rows.countP (p := fun r => @decide (Below rows id r.id) (Classical.propDecidable _))

theorem countP_lt {α : Type} {p q : α → Bool} {l : List α} (h : ∀ a ∈ l, p a = true → q a = true) {x : α}
    (hx : x ∈ l) (hp : p x = false) (hq : q x = true) : l.countP p < l.countP q := by
  induction l with
  | nil => cases hx
  | cons a l ih =>
    rw [List.countP_cons, List.countP_cons]
    rcases List.mem_cons.1 hx with rfl | hx'
    · have := List.countP_mono_left (l := l) (p := p) (q := q) fun a ha => h a (by simp [ha])
      simp only [hp, hq, Bool.false_eq_true, if_true, if_false]
      omega
    · have h1 := ih (fun a ha => h a (by simp [ha])) hx'
      have h2 := h a (by simp)
      cases ha : p a with
      | false => simp only [Bool.false_eq_true, if_false]; omega
      | true => simp only [h2 ha, if_true]; omega

theorem belowCount_lt {rows : List PlaylistTreeNode} {id : UInt32} {r : PlaylistTreeNode} (hr : r ∈ rows)
    (hf : r.nodeIsFolder ≠ 0) (hi : r.parentId = id) (hc : ¬ Below rows r.id r.id) :
    belowCount rows r.id < belowCount rows id := by
  have hb : FolderIn rows id r.id := ⟨r, hr, hf, hi, rfl⟩
  refine countP_lt (x := r) ?_ hr ?_ ?_
  · intro s _ hs
    simp only [decide_eq_true_eq] at hs ⊢
    exact .head hb hs
  · simpa using hc
  · simpa using Below.one hb

/-- Without cycles the recursion comes to an end. -/
theorem childNodes_isSome {rows : List PlaylistTreeNode} (hc : CycleFree rows) {n : Nat} {id : UInt32}
    (hr : Reached rows id) (hn : belowCount rows id < n) : (childNodes (ChildMap.build rows) n id).isSome = true := by
  induction n generalizing id with
  | zero => omega
  | succ n ih =>
    rw [childNodes, ChildMap.build_getD]
    apply collectNodes_isSome
    intro r hr' hf
    rw [List.mem_filter] at hr'
    have hi : r.parentId = id := by simpa using hr'.2
    have hreach : Reached rows r.id := hr.step ⟨r, hr'.1, hf, hi, rfl⟩
    have := belowCount_lt hr'.1 hf hi (hc _ hreach)
    exact ih hreach (by omega)

/-- What `nodeOf` gives. -/
theorem nodeOf_ok {sub : UInt32 → Option (Res (List PlaylistNode))} {r : PlaylistTreeNode} {x : PlaylistNode}
    (h : nodeOf sub r = some (.ok x)) : Shows r x ∧
      ∀ id name cs, x = .folder id name cs → sub id = some (.ok cs) := by
  unfold nodeOf at h
  split at h
  · rename_i hf
    rw [isFolder_iff] at hf
    split at h
    · rename_i name hname
      split at h
      · rename_i cs hcs
        injection h with h
        injection h with h
        subst h
        refine ⟨⟨hf, rfl, hname⟩, fun _ _ _ e => ?_⟩
        injection e with e1 e2 e3
        subst e1 e3
        exact hcs
      all_goals cases h
    all_goals cases h
  · rename_i hf
    rw [isFolder_iff, Classical.not_not] at hf
    split at h
    · rename_i name hname
      injection h with h
      injection h with h
      subst h
      exact ⟨⟨hf, rfl, hname⟩, fun _ _ _ e => by cases e⟩
    all_goals cases h

theorem collectNodes_ok {sub : UInt32 → Option (Res (List PlaylistNode))} {rs : List PlaylistTreeNode}
    {l : List PlaylistNode} (h : collectNodes sub rs = some (.ok l)) : Pointwise Shows rs l ∧
      ∀ id name cs, .folder id name cs ∈ l → sub id = some (.ok cs) := by
  induction rs generalizing l with
  | nil =>
    injection h with h
    injection h with h
    subst h
    exact ⟨.nil, fun _ _ _ h => by cases h⟩
  | cons r rs ih =>
    rw [collectNodes] at h
    split at h
    · rename_i x hx
      split at h
      · rename_i xs hxs
        injection h with h
        injection h with h
        subst h
        obtain ⟨g1, g2⟩ := nodeOf_ok hx
        obtain ⟨g3, g4⟩ := ih hxs
        refine ⟨.cons g1 g3, fun id name cs hm => ?_⟩
        rcases List.mem_cons.1 hm with e | hm
        · exact g2 id name cs e.symm
        · exact g4 id name cs hm
      · rename_i o ho
        exact absurd h (ho l)
    all_goals cases h

/-- An unsuccessful end. -/
theorem collectNodes_not_ok {sub : UInt32 → Option (Res (List PlaylistNode))} {rs : List PlaylistTreeNode}
    {x : Res (List PlaylistNode)} (h : collectNodes sub rs = some x) (hx : ∀ l, x ≠ .ok l) :
    (∃ r ∈ rs, r.name.intoString = .err .encoding ∧ x = .err .encoding) ∨
      ∃ r ∈ rs, r.nodeIsFolder ≠ 0 ∧ sub r.id = some x := by
  induction rs generalizing x with
  | nil =>
    injection h with h
    exact absurd h.symm (hx _)
  | cons r rs ih =>
    have hnode : ∀ y : Res PlaylistNode, nodeOf sub r = some y → (∀ a, y ≠ .ok a) →
        (r.name.intoString = .err .encoding ∧ y = .err .encoding) ∨
          (r.nodeIsFolder ≠ 0 ∧ ((∃ e, y = .err e ∧ sub r.id = some (.err e)) ∨ (y = .panic ∧ sub r.id = some .panic))) := by
      intro y hy hne
      unfold nodeOf at hy
      split at hy
      · rename_i hf
        rw [isFolder_iff] at hf
        rcases intoString_cases r.name with ⟨t, ht⟩ | ht
        · rw [ht] at hy
          simp only at hy
          split at hy
          · injection hy with hy
            exact absurd hy.symm (hne _)
          · rename_i e he
            injection hy with hy
            exact .inr ⟨hf, .inl ⟨e, hy.symm, he⟩⟩
          · rename_i he
            injection hy with hy
            exact .inr ⟨hf, .inr ⟨hy.symm, he⟩⟩
          · cases hy
        · rw [ht] at hy
          injection hy with hy
          exact .inl ⟨ht, hy.symm⟩
      · rcases intoString_cases r.name with ⟨t, ht⟩ | ht
        · rw [ht] at hy
          injection hy with hy
          exact absurd hy.symm (hne _)
        · rw [ht] at hy
          injection hy with hy
          exact .inl ⟨ht, hy.symm⟩
    rw [collectNodes] at h
    cases hn : nodeOf sub r with
    | none => rw [hn] at h; cases h
    | some y =>
      rw [hn] at h
      cases y with
      | ok a =>
        simp only at h
        cases hc : collectNodes sub rs with
        | none => rw [hc] at h; cases h
        | some z =>
          rw [hc] at h
          cases z with
          | ok l =>
            injection h with h
            exact absurd h.symm (hx _)
          | err e =>
            injection h with h
            subst h
            rcases ih hc hx with ⟨r', h1, h2⟩ | ⟨r', h1, h2⟩
            · exact .inl ⟨r', by simp [h1], h2⟩
            · exact .inr ⟨r', by simp [h1], h2⟩
          | panic =>
            injection h with h
            subst h
            rcases ih hc hx with ⟨r', h1, h2⟩ | ⟨r', h1, h2⟩
            · exact .inl ⟨r', by simp [h1], h2⟩
            · exact .inr ⟨r', by simp [h1], h2⟩
      | err e =>
        injection h with h
        subst h
        rcases hnode _ hn (by simp) with ⟨h1, h2⟩ | ⟨h1, ⟨e', h2, h3⟩ | ⟨h2, -⟩⟩
        · injection h2 with h2
          subst h2
          exact .inl ⟨r, by simp, h1, rfl⟩
        · injection h2 with h2
          subst h2
          exact .inr ⟨r, by simp, h1, h3⟩
        · cases h2
      | panic =>
        injection h with h
        subst h
        rcases hnode _ hn (by simp) with ⟨h1, h2⟩ | ⟨h1, ⟨e', h2, h3⟩ | ⟨h2, h3⟩⟩
        · cases h2
        · cases h2
        · exact .inr ⟨r, by simp, h1, h3⟩

/-- If the recursion ends without success, a name that can be reached is not valid. -/
theorem childNodes_not_ok {rows : List PlaylistTreeNode} {n : Nat} {id : UInt32} {x : Res (List PlaylistNode)}
    (h : childNodes (ChildMap.build rows) n id = some x) (hx : ∀ l, x ≠ .ok l) (hr : Reached rows id) :
    x = .err .encoding ∧ ∃ r ∈ rows, Reached rows r.parentId ∧ r.name.intoString = .err .encoding := by
  induction n generalizing id with
  | zero => cases h
  | succ n ih =>
    rw [childNodes, ChildMap.build_getD] at h
    rcases collectNodes_not_ok h hx with ⟨r, h1, h2, h3⟩ | ⟨r, h1, h2, h3⟩
    · rw [List.mem_filter] at h1
      have hi : r.parentId = id := by simpa using h1.2
      exact ⟨h3, r, h1.1, by rw [hi]; exact hr, h2⟩
    · rw [List.mem_filter] at h1
      have hi : r.parentId = id := by simpa using h1.2
      exact ih h3 (hr.step ⟨r, h1.1, h2, hi, rfl⟩)

theorem Pointwise.mem_left {α β : Type} {R : α → β → Prop} {as : List α} {bs : List β} (h : Pointwise R as bs)
    {a : α} (ha : a ∈ as) : ∃ b ∈ bs, R a b := by
  induction h with
  | nil => cases ha
  | cons h _ ih =>
    rcases List.mem_cons.1 ha with rfl | ha
    · exact ⟨_, by simp, h⟩
    · obtain ⟨b, h1, h2⟩ := ih ha
      exact ⟨b, by simp [h1], h2⟩

theorem Pointwise.mem_right {α β : Type} {R : α → β → Prop} {as : List α} {bs : List β} (h : Pointwise R as bs)
    {b : β} (hb : b ∈ bs) : ∃ a ∈ as, R a b := by
  induction h with
  | nil => cases hb
  | cons h _ ih =>
    rcases List.mem_cons.1 hb with rfl | hb
    · exact ⟨_, by simp, h⟩
    · obtain ⟨b, h1, h2⟩ := ih hb
      exact ⟨b, by simp [h1], h2⟩

/-- A cycle that can be reached keeps the recursion going, if no name stops it. -/
theorem childNodes_none {rows : List PlaylistTreeNode} (hv : NamesValid rows) {x : UInt32}
    (hx : Below rows x x) {n : Nat} {id : UInt32} (hr : Reached rows id) (hid : id = x ∨ Below rows id x) :
    childNodes (ChildMap.build rows) n id = none := by
  induction n generalizing id with
  | zero => rfl
  | succ n ih =>
    apply Classical.byContradiction
    intro hne
    cases hs : childNodes (ChildMap.build rows) (n + 1) id with
    | none => exact hne hs
    | some y =>
      have hok : ∃ l, y = .ok l := by
        apply Classical.byContradiction
        intro hno
        obtain ⟨-, r, h1, h2, h3⟩ := childNodes_not_ok hs (fun l e => hno ⟨l, e⟩) hr
        obtain ⟨s, h4⟩ := hv r h1 h2
        rw [h3] at h4
        cases h4
      obtain ⟨l, rfl⟩ := hok
      rw [childNodes, ChildMap.build_getD] at hs
      obtain ⟨h1, h2⟩ := collectNodes_ok hs
      have hstep : ∃ b, FolderIn rows id b ∧ (b = x ∨ Below rows b x) := by
        rcases hid with rfl | hid
        · exact hx.first
        · exact hid.first
      obtain ⟨b, hb, hbx⟩ := hstep
      have hb' := hb
      obtain ⟨r, g1, g2, g3, g4⟩ := hb
      obtain ⟨y, hy1, hy2⟩ := h1.mem_left (a := r) (by rw [List.mem_filter]; exact ⟨g1, by simpa using g3⟩)
      cases y with
      | playlist _ _ => exact g2 hy2.1
      | folder i nm cs =>
        have h3 := h2 _ _ _ hy1
        rw [hy2.2.1, g4, ih (hr.step hb') hbx] at h3
        cases h3

/-! ## The ids in the tree -/

/-- The id belongs to a row below `a`. -/
def UnderId (rows : List PlaylistTreeNode) (a x : UInt32) : Prop :=
  ∃ r ∈ rows, r.id = x ∧ (r.parentId = a ∨ Below rows a r.parentId)

theorem mem_idsOf {x : UInt32} {l : List PlaylistNode} : x ∈ idsOf l ↔ ∃ y ∈ l, x ∈ y.ids := by
  induction l with
  | nil => simp [idsOf]
  | cons y l ih => simp [idsOf, ih]

theorem Shows.id_mem {r : PlaylistTreeNode} {y : PlaylistNode} (h : Shows r y) : r.id ∈ y.ids := by
  cases y with
  | folder i nm cs => rw [PlaylistNode.ids, h.2.1]; simp
  | playlist i nm => rw [PlaylistNode.ids, h.2.1]; simp

theorem mem_idsOf_childNodes {rows : List PlaylistTreeNode} {n : Nat} {p x : UInt32} {l : List PlaylistNode}
    (h : childNodes (ChildMap.build rows) n p = some (.ok l)) : x ∈ idsOf l ↔ UnderId rows p x := by
  induction n generalizing p l with
  | zero => cases h
  | succ n ih =>
    rw [childNodes, ChildMap.build_getD] at h
    obtain ⟨h1, h2⟩ := collectNodes_ok h
    rw [mem_idsOf]
    constructor
    · rintro ⟨y, hy, hx⟩
      obtain ⟨r, hr, hs⟩ := h1.mem_right hy
      rw [List.mem_filter] at hr
      have hi : r.parentId = p := by simpa using hr.2
      cases y with
      | playlist i nm =>
        rw [PlaylistNode.ids, List.mem_singleton, hs.2.1] at hx
        exact ⟨r, hr.1, hx.symm, .inl hi⟩
      | folder i nm cs =>
        rw [PlaylistNode.ids, List.mem_cons, hs.2.1] at hx
        rcases hx with hx | hx
        · exact ⟨r, hr.1, hx.symm, .inl hi⟩
        · have h3 := h2 _ _ _ hy
          rw [hs.2.1] at h3
          obtain ⟨r', g1, g2, g3⟩ := (ih h3).1 hx
          have hf : FolderIn rows p r.id := ⟨r, hr.1, hs.1, hi, rfl⟩
          refine ⟨r', g1, g2, .inr ?_⟩
          rcases g3 with g3 | g3
          · rw [g3]
            exact .one hf
          · exact .head hf g3
    · rintro ⟨r, hr, rfl, hp | hp⟩
      · obtain ⟨y, hy, hs⟩ := h1.mem_left (a := r) (by rw [List.mem_filter]; exact ⟨hr, by simpa using hp⟩)
        exact ⟨y, hy, hs.id_mem⟩
      · obtain ⟨b, ⟨s, g1, g2, g3, g4⟩, hb⟩ := hp.first
        obtain ⟨y, hy, hs⟩ := h1.mem_left (a := s) (by rw [List.mem_filter]; exact ⟨g1, by simpa using g3⟩)
        refine ⟨y, hy, ?_⟩
        cases y with
        | playlist _ _ => exact absurd hs.1 g2
        | folder i nm cs =>
          have h3 := h2 _ _ _ hy
          rw [PlaylistNode.ids, List.mem_cons]
          refine .inr ((ih h3).2 ⟨r, hr, rfl, ?_⟩)
          rw [hs.2.1, g4]
          rcases hb with hb | hb
          · exact .inl hb.symm
          · exact .inr hb

/-- Siblings have nothing in common below them. -/
theorem siblings_disjoint {rows : List PlaylistTreeNode} (hp : ProperIds rows) {p : UInt32} (hr : Reached rows p)
    {r s : PlaylistTreeNode} (hr1 : r ∈ rows) (hs1 : s ∈ rows) (hr2 : r.parentId = p) (hs2 : s.parentId = p)
    (hne : r.id ≠ s.id) {x : UInt32} (hx : x = r.id ∨ (r.nodeIsFolder ≠ 0 ∧ UnderId rows r.id x))
    (hy : x = s.id ∨ (s.nodeIsFolder ≠ 0 ∧ UnderId rows s.id x)) : False := by
  have hcyc : ∀ t : PlaylistTreeNode, t ∈ rows → t.parentId = p → t.nodeIsFolder ≠ 0 →
      (p = t.id ∨ Below rows t.id p) → False := by
    intro t h1 h2 h3 h4
    have hf : FolderIn rows p t.id := ⟨t, h1, h3, h2, rfl⟩
    apply hp.cycleFree p hr
    rcases h4 with h4 | h4
    · rw [← h4] at hf
      exact .one hf
    · exact .head hf h4
  rcases hx with hx | ⟨fr, r', a1, a2, a3⟩
  · rcases hy with hy | ⟨fs, s', b1, b2, b3⟩
    · exact hne (hx.symm.trans hy)
    · have e := hp.row_unique b1 hr1 (b2.trans hx)
      subst e
      rw [hr2] at b3
      exact hcyc s hs1 hs2 fs b3
  · rcases hy with hy | ⟨fs, s', b1, b2, b3⟩
    · have e := hp.row_unique a1 hs1 (a2.trans hy)
      subst e
      rw [hs2] at a3
      exact hcyc r hr1 hr2 fr a3
    · have e := hp.row_unique a1 b1 (a2.trans b2.symm)
      subst e
      have key : ∀ t u : PlaylistTreeNode, t ∈ rows → u ∈ rows → t.parentId = p → u.parentId = p →
          t.nodeIsFolder ≠ 0 → u.nodeIsFolder ≠ 0 → Below rows t.id u.id → False := by
        intro t u ht hu ht2 hu2 ft fu hb
        obtain ⟨b, h1, h2⟩ := hb.last
        have e : b = p := h2.parent_unique hp ⟨u, hu, fu, hu2, rfl⟩
        subst e
        exact hcyc t ht ht2 ft (h1.imp Eq.symm id)
      rcases a3 with a3 | a3
      · rcases b3 with b3 | b3
        · exact hne (a3.symm.trans b3)
        · rw [a3] at b3
          exact key s r hs1 hr1 hs2 hr2 fs fr b3
      · rcases b3 with b3 | b3
        · rw [b3] at a3
          exact key r s hr1 hs1 hr2 hs2 fr fs a3
        · rcases a3.linear hp b3 with e | e | e
          · exact hne e
          · exact key r s hr1 hs1 hr2 hs2 fr fs e
          · exact key s r hs1 hr1 hs2 hr2 fs fr e

theorem nodup_idsOf {rows : List PlaylistTreeNode} (hp : ProperIds rows) {n : Nat} {p : UInt32}
    (hr : Reached rows p) {l : List PlaylistNode}
    (h : childNodes (ChildMap.build rows) n p = some (.ok l)) : (idsOf l).Nodup := by
  induction n generalizing p l with
  | zero => cases h
  | succ n ih =>
    rw [childNodes, ChildMap.build_getD] at h
    obtain ⟨h1, h2⟩ := collectNodes_ok h
    have hin : ∀ r ∈ rows.filter (fun r => r.parentId = p), r ∈ rows ∧ r.parentId = p := by
      intro r hr'
      rw [List.mem_filter] at hr'
      exact ⟨hr'.1, by simpa using hr'.2⟩
    have hu : ((rows.filter fun r => r.parentId = p).map PlaylistTreeNode.id).Nodup :=
      hp.unique.sublist (List.Sublist.map _ List.filter_sublist)
    clear h
    generalize rows.filter (fun r => r.parentId = p) = rs at h1 hin hu
    have hids : ∀ (r : PlaylistTreeNode) (y : PlaylistNode) (x : UInt32), Shows r y →
        (∀ id name cs, y = .folder id name cs → childNodes (ChildMap.build rows) n id = some (.ok cs)) →
        x ∈ y.ids → x = r.id ∨ (r.nodeIsFolder ≠ 0 ∧ UnderId rows r.id x) := by
      intro r y x hs hy hx
      cases y with
      | playlist i nm =>
        rw [PlaylistNode.ids, List.mem_singleton, hs.2.1] at hx
        exact .inl hx
      | folder i nm cs =>
        rw [PlaylistNode.ids, List.mem_cons] at hx
        rcases hx with hx | hx
        · exact .inl (hx.trans hs.2.1)
        · have := (mem_idsOf_childNodes (hy _ _ _ rfl)).1 hx
          rw [hs.2.1] at this
          exact .inr ⟨hs.1, this⟩
    induction h1 with
    | nil => simp [idsOf]
    | cons hs t iht =>
      rename_i r y rs ys
      rw [List.map_cons, List.nodup_cons] at hu
      have hr0 := hin r (by simp)
      rw [idsOf, List.nodup_append]
      refine ⟨?_, iht (fun id name cs hm => h2 id name cs (by simp [hm])) (fun r hm => hin r (by simp [hm])) hu.2, ?_⟩
      · cases y with
        | playlist i nm => simp [PlaylistNode.ids]
        | folder i nm cs =>
          have h3 := h2 i nm cs (by simp)
          have hf : FolderIn rows p i := ⟨r, hr0.1, hs.1, hr0.2, hs.2.1.symm⟩
          rw [PlaylistNode.ids, List.nodup_cons]
          refine ⟨fun hm => ?_, ih (hr.step hf) h3⟩
          obtain ⟨r', g1, g2, g3⟩ := (mem_idsOf_childNodes h3).1 hm
          have e := hp.row_unique g1 hr0.1 (g2.trans hs.2.1)
          subst e
          rw [hr0.2] at g3
          apply hp.cycleFree p hr
          rcases g3 with g3 | g3
          · rw [← g3] at hf
            exact .one hf
          · exact .head hf g3
      · intro x hx x' hx' e
        subst e
        rw [mem_idsOf] at hx'
        obtain ⟨y', hy', hx'⟩ := hx'
        obtain ⟨s, hs', hshow⟩ := t.mem_right hy'
        have hs0 := hin s (by simp [hs'])
        refine siblings_disjoint hp hr hr0.1 hs0.1 hr0.2 hs0.2 ?_
          (hids r y x hs (fun id name cs e => h2 id name cs (by simp [e])) hx)
          (hids s y' x hshow (fun id name cs e => h2 id name cs (by rw [← e]; simp [hy'])) hx')
        intro e
        exact hu.1 (by rw [e]; exact List.mem_map_of_mem hs')

/-- Every list of nodes in the tree is what a call of `get_child_nodes` gave. -/
theorem listedUnder_childNodes {rows : List PlaylistTreeNode} {n : Nat} {tree : List PlaylistNode}
    (h : childNodes (ChildMap.build rows) n 0 = some (.ok tree)) {p : UInt32} {l : List PlaylistNode}
    (hl : ListedUnder tree p l) : ∃ k, childNodes (ChildMap.build rows) (k + 1) p = some (.ok l) := by
  have aux : ∀ k p l, childNodes (ChildMap.build rows) k p = some (.ok l) → ∃ k', k = k' + 1 := by
    intro k p l h
    cases k with
    | zero => cases h
    | succ k => exact ⟨k, rfl⟩
  induction hl with
  | top =>
    obtain ⟨k, rfl⟩ := aux _ _ _ h
    exact ⟨k, h⟩
  | sub _ hm ih =>
    obtain ⟨k, hk⟩ := ih
    rw [childNodes, ChildMap.build_getD] at hk
    have := (collectNodes_ok hk).2 _ _ _ hm
    obtain ⟨k', rfl⟩ := aux _ _ _ this
    exact ⟨k', this⟩

end Rekordcrate
