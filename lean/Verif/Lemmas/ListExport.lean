import Verif.Spec.ListExport
import Verif.Lemmas.Listing
import Verif.Lemmas.Cli
import Verif.Lemmas.RowIter

/-! # Lemmas about comparing `list-playlists` and `export-playlists` -/

namespace Rekordcrate

/-- What the export visits is what the folders lead to. -/
theorem filed_of_nodes {rows : List PlaylistTreeNode} {sub : UInt32 → Option (Res (List PlaylistNode))}
    (hsub : ∀ id cs, sub id = some (.ok cs) → ∀ dir, ∃ ps,
      Filed rows dir (rows.filter fun s => s.parentId = id) ps ∧
      Pointwise (fun p y => y.1 = p.1.id ∧ p.1.name.intoString = .ok y.2.1 ∧ y.2.2 = p.2) ps (exportedOf dir cs))
    {rs : List PlaylistTreeNode} {l : List PlaylistNode} (h : collectNodes sub rs = some (.ok l)) (dir : FsPath) :
    ∃ ps, Filed rows dir rs ps ∧
      Pointwise (fun p y => y.1 = p.1.id ∧ p.1.name.intoString = .ok y.2.1 ∧ y.2.2 = p.2) ps (exportedOf dir l) := by
  induction rs generalizing l with
  | nil =>
    injection h with h
    injection h with h
    subst h
    exact ⟨[], .nil, .nil⟩
  | cons r rs ih =>
    rw [collectNodes] at h
    split at h
    · rename_i x hx
      split at h
      · rename_i xs hxs
        injection h with h
        injection h with h
        subst h
        obtain ⟨g1, g2⟩ := nodeOf_ok hx
        obtain ⟨ps, g3, g4⟩ := ih hxs
        cases x with
        | folder id name cs =>
          obtain ⟨a1, rfl, a3⟩ := g1
          obtain ⟨qs, g5, g6⟩ := hsub _ _ (g2 _ _ _ rfl) (dir.join name.toList)
          refine ⟨qs ++ ps, .folder a1 a3 g5 g3, ?_⟩
          rw [exportedOf, PlaylistNode.exported]
          exact g6.append g4
        | playlist id name =>
          obtain ⟨a1, rfl, a3⟩ := g1
          refine ⟨(r, dir) :: ps, .playlist a1 g3, ?_⟩
          rw [exportedOf, PlaylistNode.exported]
          exact .cons ⟨rfl, a3, rfl⟩ g4
      · rename_i o ho
        exact absurd h (ho l)
    all_goals cases h

theorem filed_of_childNodes {rows : List PlaylistTreeNode} {n : Nat} {id : UInt32} {l : List PlaylistNode}
    (h : childNodes (ChildMap.build rows) n id = some (.ok l)) (dir : FsPath) :
    ∃ ps, Filed rows dir (rows.filter fun s => s.parentId = id) ps ∧
      Pointwise (fun p y => y.1 = p.1.id ∧ p.1.name.intoString = .ok y.2.1 ∧ y.2.2 = p.2) ps (exportedOf dir l) := by
  induction n generalizing id l dir with
  | zero => cases h
  | succ n ih =>
    rw [childNodes, ChildMap.build_getD] at h
    exact filed_of_nodes (fun id cs hc dir => ih hc dir) h dir

theorem playlistsOf_append (a b : List (Nat × PlaylistTreeNode)) :
    playlistsOf (a ++ b) = playlistsOf a ++ playlistsOf b := by
  simp [playlistsOf]

theorem playlistsOf_cons (x : Nat × PlaylistTreeNode) (b : List (Nat × PlaylistTreeNode)) :
    playlistsOf (x :: b) = (if x.2.nodeIsFolder = 0 then [x.2] else []) ++ playlistsOf b := by
  unfold playlistsOf
  rw [List.map_cons, List.filter_cons]
  by_cases h : x.2.nodeIsFolder = 0 <;> simp [h]

/-- The playlists that the folders lead to are among the listed ones, in the same order. -/
theorem Outline.filed_sublist {rows : List PlaylistTreeNode} {depth : Nat} {rs : List PlaylistTreeNode}
    {hs : List (Nat × PlaylistTreeNode)} (h : Outline rows depth rs hs) {dir : FsPath}
    {ps : List (PlaylistTreeNode × FsPath)} (hp : Filed rows dir rs ps) :
    (ps.map Prod.fst).Sublist (playlistsOf hs) := by
  induction h generalizing dir ps with
  | nil => cases hp; exact .slnil
  | cons h t ih1 ih2 =>
    rw [playlistsOf_cons, playlistsOf_append]
    cases hp with
    | playlist hf t' =>
      simp only [hf, if_true, List.map_cons, List.cons_append, List.nil_append]
      exact .cons_cons _ ((ih2 t').trans (List.sublist_append_right _ _))
    | folder hf hn b t' =>
      simp only [hf, if_false, List.map_append, List.nil_append]
      exact (ih1 b).append (ih2 t')

theorem sublist_append_eq {α : Type} {a b c d : List α} (h1 : a.Sublist b) (h2 : c.Sublist d)
    (h : a ++ c = b ++ d) : a = b ∧ c = d := by
  have l1 := h1.length_le
  have l2 := h2.length_le
  have l3 := congrArg List.length h
  rw [List.length_append, List.length_append] at l3
  exact ⟨h1.eq_of_length (by omega), h2.eq_of_length (by omega)⟩

theorem playlistsOf_eq_nil {hs : List (Nat × PlaylistTreeNode)} :
    playlistsOf hs = [] ↔ ∀ x ∈ hs, x.2.nodeIsFolder ≠ 0 := by
  unfold playlistsOf
  rw [List.filter_eq_nil_iff]
  simp only [List.mem_map, decide_eq_true_eq]
  exact ⟨fun h x hx => h _ ⟨x, hx, rfl⟩, fun h r ⟨x, hx, e⟩ => e ▸ h x hx⟩

/-- They are all of them exactly if no playlist is listed below a playlist. -/
theorem Outline.filed_all_iff {rows : List PlaylistTreeNode} {depth : Nat} {rs : List PlaylistTreeNode}
    {hs : List (Nat × PlaylistTreeNode)} (h : Outline rows depth rs hs) {dir : FsPath}
    {ps : List (PlaylistTreeNode × FsPath)} (hp : Filed rows dir rs ps) :
    ps.map Prod.fst = playlistsOf hs ↔ ∀ x ∈ playlistsOf hs, ∀ r ∈ rows, r.nodeIsFolder = 0 →
      ¬ (r.parentId = x.id ∨ Under rows x.id r.parentId) := by
  induction h generalizing dir ps with
  | nil => cases hp; simp [playlistsOf]
  | cons h t ih1 ih2 =>
    rename_i depth r rs below rest
    have hb := h.mem_of_parent
    rw [playlistsOf_cons, playlistsOf_append]
    cases hp with
    | playlist hf t' =>
      rename_i ps
      have hsub := t.filed_sublist t'
      simp only [hf, if_true, List.map_cons, List.cons_append, List.nil_append, List.cons.injEq, true_and]
      have key : playlistsOf below = [] ↔ ∀ s ∈ rows, s.nodeIsFolder = 0 →
          ¬ (s.parentId = r.id ∨ Under rows r.id s.parentId) := by
        rw [playlistsOf_eq_nil]
        constructor
        · intro h1 s hs h2 h3
          obtain ⟨k, hk⟩ := (hb s).2 ⟨hs, h3⟩
          exact h1 _ hk h2
        · intro h1 x hx h2
          obtain ⟨h3, h4⟩ := (hb x.2).1 ⟨x.1, hx⟩
          exact h1 _ h3 h2 h4
      constructor
      · intro he
        obtain ⟨e1, e2⟩ := sublist_append_eq (List.nil_sublist (playlistsOf below)) hsub he
        have hr := (ih2 t').1 e2
        intro x hx
        rcases List.mem_cons.1 hx with rfl | hx
        · exact key.1 e1.symm
        · rw [← e1, List.nil_append] at hx
          exact hr x hx
      · intro hall
        have e1 := key.2 (hall r (by simp))
        rw [e1, List.nil_append]
        exact (ih2 t').2 fun x hx => hall x (by simp [hx])
    | folder hf hn b t' =>
      rename_i name qs ps
      simp only [hf, if_false, List.map_append, List.nil_append]
      constructor
      · intro he
        obtain ⟨e1, e2⟩ := sublist_append_eq (h.filed_sublist b) (t.filed_sublist t') he
        intro x hx
        rcases List.mem_append.1 hx with hx | hx
        · exact (ih1 b).1 e1 x hx
        · exact (ih2 t').1 e2 x hx
      · intro hall
        rw [(ih1 b).2 fun x hx => hall x (by simp [hx]), (ih2 t').2 fun x hx => hall x (by simp [hx])]

theorem pointwise_getLast {α β : Type} {R : α → β → Prop} {as : List α} {bs : List β} (h : Pointwise R as bs) :
    (as.getLast? = none ∧ bs.getLast? = none) ∨ ∃ a b, as.getLast? = some a ∧ bs.getLast? = some b ∧ R a b := by
  induction h with
  | nil => exact .inl ⟨rfl, rfl⟩
  | cons h _ ih =>
    rw [List.getLast?_cons, List.getLast?_cons]
    rcases ih with ⟨h1, h2⟩ | ⟨a, b, h1, h2, h3⟩
    · exact .inr ⟨_, _, rfl, rfl, by rw [h1, h2]; exact h⟩
    · exact .inr ⟨_, _, rfl, rfl, by rw [h1, h2]; exact h3⟩

theorem pointwise_filter {α β : Type} {R : α → β → Prop} {p : α → Bool} {q : β → Bool}
    (hpq : ∀ a b, R a b → p a = q b) {as : List α} {bs : List β} (h : Pointwise R as bs) :
    Pointwise R (as.filter p) (bs.filter q) := by
  induction h with
  | nil => exact .nil
  | cons h _ ih =>
    rename_i a b _ _ _
    rw [List.filter_cons, List.filter_cons, hpq _ _ h]
    split
    · exact .cons h ih
    · exact ih

end Rekordcrate
