import Verif.Spec.Listing
import Verif.Lemmas.Device
import Verif.Lemmas.Cli

/-! # Lemmas about `list-playlists` -/

namespace Rekordcrate

/-! ## Printing -/

namespace Printed

theorem andThen_ok {a b : Printed} {t : List Char} : a.andThen b = ⟨t, some (.ok ())⟩ ↔
    ∃ t1 t2, a = ⟨t1, some (.ok ())⟩ ∧ b = ⟨t2, some (.ok ())⟩ ∧ t = t1 ++ t2 := by
  obtain ⟨ta, oa⟩ := a
  obtain ⟨tb, ob⟩ := b
  unfold andThen
  rcases oa with _ | (⟨⟨⟩⟩ | e | _)
  · simp
  · simp only [mk.injEq, and_true]
    constructor
    · rintro ⟨h1, h2⟩
      exact ⟨ta, tb, rfl, ⟨rfl, h2⟩, h1.symm⟩
    · rintro ⟨t1, t2, rfl, ⟨rfl, h2⟩, h3⟩
      exact ⟨h3.symm, h2⟩
  · simp
  · simp

theorem andThen_some {a b : Printed} (ha : a.outcome.isSome = true) (hb : b.outcome.isSome = true) :
    (a.andThen b).outcome.isSome = true := by
  unfold andThen
  split
  · exact hb
  · exact ha

theorem andThen_fail {a b : Printed} {x : Res Unit} (h : (a.andThen b).outcome = some x) (hx : x ≠ .ok ()) :
    a.outcome = some x ∨ b.outcome = some x := by
  unfold andThen at h
  split at h
  · exact .inr h
  · exact .inl h

theorem say_ok {s : String} {t : List Char} : say s = ⟨t, some (.ok ())⟩ ↔ t = s.toList := by
  unfold say
  simp [eq_comm]

theorem say_fail {s : String} {x : Res Unit} (h : (say s).outcome = some x) : x = .ok () := by
  injection h with h
  exact h.symm

theorem showString_ok {lossy : Bytes → String} {s : DString} {t : List Char} :
    showString lossy s = ⟨t, some (.ok ())⟩ ↔ ∃ u, s.display lossy = .ok u ∧ t = u.toList := by
  unfold showString
  cases h : s.display lossy with
  | ok u => simp [say, eq_comm]
  | err e => simp
  | panic => simp

theorem display_not_err (lossy : Bytes → String) (s : DString) (e : Err) : s.display lossy ≠ .err e := by
  unfold DString.display
  split
  · split <;> simp
  · split <;> simp
  · split <;> simp
  · simp

theorem showString_fail {lossy : Bytes → String} {s : DString} {x : Res Unit}
    (h : (showString lossy s).outcome = some x) (hx : x ≠ .ok ()) : x = .panic ∧ ¬ Displayable lossy s := by
  unfold showString at h
  cases hd : s.display lossy with
  | ok u =>
    rw [hd] at h
    exact absurd (say_fail h) hx
  | err e => exact absurd hd (display_not_err lossy s e)
  | panic =>
    rw [hd] at h
    injection h with h
    refine ⟨h.symm, ?_⟩
    rintro ⟨t, ht⟩
    rw [hd] at ht
    cases ht

theorem showString_some (lossy : Bytes → String) (s : DString) : (showString lossy s).outcome.isSome = true := by
  unfold showString
  split <;> rfl

theorem say_some (s : String) : (say s).outcome.isSome = true := rfl

end Printed

open Printed

theorem indentation_eq (n : Nat) : indentation n = blanks n := by
  induction n with
  | zero => rfl
  | succ n ih =>
    rw [indentation, ih]
    apply String.ext
    simp only [blanks, String.toList_append, String.toList_ofList]
    rw [show 4 * (n + 1) = 4 * n + 1 + 1 + 1 + 1 from by omega]
    rfl

theorem idMap_eq {α : Type} (key : α → UInt32) (rows : List α) : idMap key rows = rowWith key rows := by
  have h : ∀ (ts done : List α),
      ts.foldl (fun m (t : α) k => if k = key t then some t else m k) (rowWith key done) = rowWith key (done ++ ts) := by
    intro ts
    induction ts with
    | nil => intro done; simp
    | cons t ts ih =>
      intro done
      rw [List.foldl_cons, show done ++ t :: ts = (done ++ [t]) ++ ts by simp, ← ih]
      congr 1
      funext k
      unfold rowWith
      rw [List.filter_append, List.filter_cons]
      by_cases hk : k = key t
      · rw [if_pos hk, if_pos (by simpa using hk.symm)]
        simp
      · rw [if_neg hk, if_neg (by simpa using fun e => hk e.symm)]
        simp
  exact h rows []

/-! ## Tracks and entries -/

theorem printTrack_ok {lossy : Bytes → String} {artists : List Artist} {tracks : List Track} {id : UInt32}
    {t : List Char} (h : printTrack lossy (rowWith Artist.id artists) (rowWith Track.id tracks) id = ⟨t, some (.ok ())⟩) :
    ∃ s, TrackText lossy artists tracks id s ∧ t = s.toList ++ ['\n'] := by
  unfold printTrack at h
  cases ht : rowWith Track.id tracks id with
  | none =>
    rw [ht] at h
    simp only [say_ok] at h
    exact ⟨_, .noTrack ht, by rw [h]; simp⟩
  | some tr =>
    rw [ht] at h
    simp only at h
    cases ha : rowWith Artist.id artists tr.artistId with
    | none =>
      rw [ha] at h
      simp only [andThen_ok, say_ok, showString_ok] at h
      obtain ⟨t1, t2, rfl, ⟨t3, t4, ⟨u, hu, rfl⟩, rfl, rfl⟩, rfl⟩ := h
      exact ⟨_, .noArtist ht ha hu, by simp⟩
    | some a =>
      rw [ha] at h
      simp only [andThen_ok, say_ok, showString_ok] at h
      obtain ⟨t1, t2, ⟨u, hu, rfl⟩, ⟨t3, t4, rfl, ⟨t5, t6, ⟨v, hv, rfl⟩, rfl, rfl⟩, rfl⟩, rfl⟩ := h
      exact ⟨_, .full ht ha hv hu, by simp⟩

theorem printTrack_fail {lossy : Bytes → String} {artists : List Artist} {tracks : List Track} {id : UInt32}
    {x : Res Unit} (h : (printTrack lossy (rowWith Artist.id artists) (rowWith Track.id tracks) id).outcome = some x)
    (hx : x ≠ .ok ()) : x = .panic ∧ ¬ ∃ s, TrackText lossy artists tracks id s := by
  unfold printTrack at h
  cases ht : rowWith Track.id tracks id with
  | none =>
    rw [ht] at h
    exact absurd (say_fail h) hx
  | some tr =>
    rw [ht] at h
    simp only at h
    have htitle : ¬ Displayable lossy tr.offsets.inner.title → ¬ ∃ s, TrackText lossy artists tracks id s := by
      rintro hn ⟨s, hs⟩
      cases hs with
      | full ht' _ h1 _ =>
        rw [ht] at ht'
        injection ht' with e
        subst e
        exact hn ⟨_, h1⟩
      | noArtist ht' _ h1 =>
        rw [ht] at ht'
        injection ht' with e
        subst e
        exact hn ⟨_, h1⟩
      | noTrack ht' =>
        rw [ht] at ht'
        cases ht'
    cases ha : rowWith Artist.id artists tr.artistId with
    | none =>
      rw [ha] at h
      rcases andThen_fail h hx with h | h
      · exact absurd (say_fail h) hx
      · rcases andThen_fail h hx with h | h
        · obtain ⟨h1, h2⟩ := showString_fail h hx
          exact ⟨h1, htitle h2⟩
        · exact absurd (say_fail h) hx
    | some a =>
      rw [ha] at h
      rcases andThen_fail h hx with h | h
      · obtain ⟨h1, h2⟩ := showString_fail h hx
        refine ⟨h1, ?_⟩
        rintro ⟨s, hs⟩
        cases hs with
        | full ht' ha' _ h3 =>
          rw [ht] at ht'
          injection ht' with e
          subst e
          rw [ha] at ha'
          injection ha' with e
          subst e
          exact h2 ⟨_, h3⟩
        | noArtist ht' ha' _ =>
          rw [ht] at ht'
          injection ht' with e
          subst e
          rw [ha] at ha'
          cases ha'
        | noTrack ht' =>
          rw [ht] at ht'
          cases ht'
      · rcases andThen_fail h hx with h | h
        · exact absurd (say_fail h) hx
        · rcases andThen_fail h hx with h | h
          · obtain ⟨h1, h2⟩ := showString_fail h hx
            exact ⟨h1, htitle h2⟩
          · exact absurd (say_fail h) hx

theorem printTrack_some (lossy : Bytes → String) (artists : UInt32 → Option Artist) (tracks : UInt32 → Option Track)
    (id : UInt32) : (printTrack lossy artists tracks id).outcome.isSome = true := by
  unfold printTrack
  split
  · rfl
  · split
    · exact andThen_some (say_some _) (andThen_some (showString_some _ _) (say_some _))
    · exact andThen_some (showString_some _ _) (andThen_some (say_some _)
        (andThen_some (showString_some _ _) (say_some _)))

theorem printEntries_ok {lossy : Bytes → String} {artists : List Artist} {tracks : List Track} {level : Nat}
    {es : List (UInt32 × UInt32)} {t : List Char}
    (h : printEntries lossy (rowWith Artist.id artists) (rowWith Track.id tracks) level es = ⟨t, some (.ok ())⟩) :
    ∃ texts, Pointwise (fun e t => ∃ s, TrackText lossy artists tracks e.2 s ∧
      t = blanks level ++ "  ♫ " ++ toString e.1.toNat ++ ": " ++ s) es texts ∧ t = linesText texts := by
  induction es generalizing t with
  | nil =>
    rw [printEntries, say_ok] at h
    exact ⟨[], .nil, h⟩
  | cons e es ih =>
    obtain ⟨i, id⟩ := e
    rw [printEntries] at h
    simp only [andThen_ok, say_ok] at h
    obtain ⟨t1, t2, rfl, ⟨t3, t4, h3, h4, rfl⟩, rfl⟩ := h
    obtain ⟨s, hs, rfl⟩ := printTrack_ok h3
    obtain ⟨texts, h5, rfl⟩ := ih h4
    refine ⟨_ :: texts, .cons ⟨s, hs, rfl⟩ h5, ?_⟩
    rw [indentation_eq]
    simp [linesText]

theorem printEntries_fail {lossy : Bytes → String} {artists : List Artist} {tracks : List Track} {level : Nat}
    {es : List (UInt32 × UInt32)} {x : Res Unit}
    (h : (printEntries lossy (rowWith Artist.id artists) (rowWith Track.id tracks) level es).outcome = some x)
    (hx : x ≠ .ok ()) : x = .panic ∧ ∃ e ∈ es, ¬ ∃ s, TrackText lossy artists tracks e.2 s := by
  induction es with
  | nil => exact absurd (say_fail h) hx
  | cons e es ih =>
    obtain ⟨i, id⟩ := e
    rw [printEntries] at h
    rcases andThen_fail h hx with h | h
    · exact absurd (say_fail h) hx
    · rcases andThen_fail h hx with h | h
      · obtain ⟨h1, h2⟩ := printTrack_fail h hx
        exact ⟨h1, _, List.mem_cons_self, h2⟩
      · obtain ⟨h1, e, h2, h3⟩ := ih h
        exact ⟨h1, e, List.mem_cons_of_mem _ h2, h3⟩

theorem printEntries_some (lossy : Bytes → String) (artists : UInt32 → Option Artist) (tracks : UInt32 → Option Track)
    (level : Nat) (es : List (UInt32 × UInt32)) : (printEntries lossy artists tracks level es).outcome.isSome = true := by
  induction es with
  | nil => rfl
  | cons e es ih => exact andThen_some (say_some _) (andThen_some (printTrack_some _ _ _ _) ih)

/-! ## Nodes -/

/-- The lines for a row can be made. -/
def RowShowable (lossy : Bytes → String) (artists : List Artist) (tracks : List Track) (entries : List PlaylistEntry)
    (r : PlaylistTreeNode) : Prop :=
  Displayable lossy r.name ∧
    ∀ i t, trackAt entries r.id i = some t → ∃ s, TrackText lossy artists tracks t s

section
variable {lossy : Bytes → String} {artists : List Artist} {tracks : List Track} {entries : List PlaylistEntry}

theorem printNode_ok {sub : UInt32 → Printed} {level : Nat} {r : PlaylistTreeNode} {t : List Char}
    (h : printNode lossy (EntryMap.build entries) (rowWith Artist.id artists) (rowWith Track.id tracks) sub level r =
      ⟨t, some (.ok ())⟩) :
    ∃ lines t', NodeText lossy artists tracks entries (level, r) lines ∧ sub r.id = ⟨t', some (.ok ())⟩ ∧
      t = linesText lines ++ t' := by
  unfold printNode at h
  simp only [andThen_ok, say_ok, showString_ok] at h
  obtain ⟨t1, t2, rfl, ⟨t3, t4, ⟨name, hname, rfl⟩, ⟨t5, t6, rfl, ⟨t7, t8, h7, h8, rfl⟩, rfl⟩, rfl⟩, rfl⟩ := h
  obtain ⟨b1, b2⟩ := EntryMap.build_spec entries r.id
  have hes : ∃ texts, Pointwise (fun e t => ∃ s, TrackText lossy artists tracks e.2 s ∧
      t = blanks level ++ "  ♫ " ++ toString e.1.toNat ++ ": " ++ s) (((EntryMap.build entries) r.id).getD []) texts ∧
      t7 = linesText texts := by
    cases he : (EntryMap.build entries) r.id with
    | none =>
      rw [he, say_ok] at h7
      exact ⟨[], .nil, h7⟩
    | some es =>
      rw [he] at h7
      exact printEntries_ok h7
  obtain ⟨texts, h9, rfl⟩ := hes
  refine ⟨_, t8, ⟨name, _, texts, hname, ⟨b1, b2⟩, h9, rfl⟩, h8, ?_⟩
  have hf : (if r.isFolder = true then "🗀" else "🗎") = if r.nodeIsFolder = 0 then "🗎" else "🗀" := by
    by_cases h0 : r.nodeIsFolder = 0
    · rw [if_pos h0, if_neg]
      rw [isFolder_iff]
      exact fun h => h h0
    · rw [if_neg h0, if_pos ((isFolder_iff r).2 h0)]
  rw [hf, indentation_eq]
  simp [linesText]

theorem printNode_fail {sub : UInt32 → Printed} {level : Nat} {r : PlaylistTreeNode} {x : Res Unit}
    (h : (printNode lossy (EntryMap.build entries) (rowWith Artist.id artists) (rowWith Track.id tracks) sub level
      r).outcome = some x) (hx : x ≠ .ok ()) :
    (x = .panic ∧ ¬ RowShowable lossy artists tracks entries r) ∨ (sub r.id).outcome = some x := by
  unfold printNode at h
  rcases andThen_fail h hx with h | h
  · exact absurd (say_fail h) hx
  rcases andThen_fail h hx with h | h
  · obtain ⟨h1, h2⟩ := showString_fail h hx
    exact .inl ⟨h1, fun h => h2 h.1⟩
  rcases andThen_fail h hx with h | h
  · exact absurd (say_fail h) hx
  rcases andThen_fail h hx with h | h
  · obtain ⟨-, b2⟩ := EntryMap.build_spec entries r.id
    cases he : (EntryMap.build entries) r.id with
    | none =>
      rw [he] at h
      exact absurd (say_fail h) hx
    | some es =>
      rw [he] at h b2
      obtain ⟨h1, e, h2, h3⟩ := printEntries_fail h hx
      exact .inl ⟨h1, fun hs => h3 (hs.2 e.1 e.2 ((b2 _ _).1 h2))⟩
  · exact .inr h

theorem printNode_some {m : EntryMap} {am : UInt32 → Option Artist} {tm : UInt32 → Option Track}
    {sub : UInt32 → Printed} {level : Nat} {r : PlaylistTreeNode} (h : (sub r.id).outcome.isSome = true) :
    (printNode lossy m am tm sub level r).outcome.isSome = true := by
  unfold printNode
  refine andThen_some (say_some _) (andThen_some (showString_some _ _) (andThen_some (say_some _)
    (andThen_some ?_ h)))
  split
  · exact printEntries_some _ _ _ _ _
  · rfl

theorem printNodes_ok {rows : List PlaylistTreeNode} {sub : UInt32 → Printed} {level : Nat}
    (hsub : ∀ id t, sub id = ⟨t, some (.ok ())⟩ → ∃ hs paras,
      Outline rows (level + 1) (rows.filter fun s => s.parentId = id) hs ∧
      Pointwise (NodeText lossy artists tracks entries) hs paras ∧ t = linesText paras.flatten)
    {rs : List PlaylistTreeNode} {t : List Char}
    (h : printNodes lossy (EntryMap.build entries) (rowWith Artist.id artists) (rowWith Track.id tracks) sub level rs =
      ⟨t, some (.ok ())⟩) :
    ∃ hs paras, Outline rows level rs hs ∧ Pointwise (NodeText lossy artists tracks entries) hs paras ∧
      t = linesText paras.flatten := by
  induction rs generalizing t with
  | nil =>
    rw [printNodes, say_ok] at h
    exact ⟨[], [], .nil, .nil, h⟩
  | cons r rs ih =>
    rw [printNodes, andThen_ok] at h
    obtain ⟨t1, t2, h1, h2, rfl⟩ := h
    obtain ⟨lines, t', h3, h4, rfl⟩ := printNode_ok h1
    obtain ⟨hs1, p1, a1, a2, rfl⟩ := hsub _ _ h4
    obtain ⟨hs2, p2, b1, b2, rfl⟩ := ih h2
    refine ⟨_, lines :: (p1 ++ p2), .cons a1 b1, .cons h3 (a2.append b2), ?_⟩
    simp [linesText]

theorem printNodes_fail {sub : UInt32 → Printed} {level : Nat} {rs : List PlaylistTreeNode} {x : Res Unit}
    (h : (printNodes lossy (EntryMap.build entries) (rowWith Artist.id artists) (rowWith Track.id tracks) sub level
      rs).outcome = some x) (hx : x ≠ .ok ()) :
    ∃ r ∈ rs, (x = .panic ∧ ¬ RowShowable lossy artists tracks entries r) ∨ (sub r.id).outcome = some x := by
  induction rs with
  | nil => exact absurd (say_fail h) hx
  | cons r rs ih =>
    rw [printNodes] at h
    rcases andThen_fail h hx with h | h
    · exact ⟨r, List.mem_cons_self, printNode_fail h hx⟩
    · obtain ⟨r', h1, h2⟩ := ih h
      exact ⟨r', List.mem_cons_of_mem _ h1, h2⟩

theorem printNodes_some {m : EntryMap} {am : UInt32 → Option Artist} {tm : UInt32 → Option Track}
    {sub : UInt32 → Printed} {level : Nat} {rs : List PlaylistTreeNode}
    (h : ∀ r ∈ rs, (sub r.id).outcome.isSome = true) :
    (printNodes lossy m am tm sub level rs).outcome.isSome = true := by
  induction rs with
  | nil => rfl
  | cons r rs ih =>
    rw [printNodes]
    exact andThen_some (printNode_some (h r List.mem_cons_self)) (ih fun s hs => h s (List.mem_cons_of_mem _ hs))

/-! ## Trees -/

theorem Linked.step {rows : List PlaylistTreeNode} {a b : UInt32} (h : Linked rows a) (f : NodeIn rows a b) :
    Linked rows b := by
  rcases h with rfl | h
  · exact .inr (.one f)
  · exact .inr (.step h f)

theorem printChildren_ok {rows : List PlaylistTreeNode} {n level : Nat} {id : UInt32} {t : List Char}
    (h : printChildren lossy (ChildMap.build rows) (EntryMap.build entries) (rowWith Artist.id artists)
      (rowWith Track.id tracks) n level id = ⟨t, some (.ok ())⟩) :
    ∃ hs paras, Outline rows level (rows.filter fun s => s.parentId = id) hs ∧
      Pointwise (NodeText lossy artists tracks entries) hs paras ∧ t = linesText paras.flatten := by
  induction n generalizing level id t with
  | zero => cases h
  | succ n ih =>
    rw [printChildren, ChildMap.build_getD] at h
    exact printNodes_ok (fun id t h => ih h) h

theorem printChildren_fail {rows : List PlaylistTreeNode} {n level : Nat} {id : UInt32} (hr : Linked rows id)
    {x : Res Unit} (h : (printChildren lossy (ChildMap.build rows) (EntryMap.build entries) (rowWith Artist.id artists)
      (rowWith Track.id tracks) n level id).outcome = some x) (hx : x ≠ .ok ()) :
    x = .panic ∧ ∃ r ∈ rows, Linked rows r.parentId ∧ ¬ RowShowable lossy artists tracks entries r := by
  induction n generalizing level id with
  | zero => cases h
  | succ n ih =>
    rw [printChildren, ChildMap.build_getD] at h
    obtain ⟨r, h1, h2⟩ := printNodes_fail h hx
    rw [List.mem_filter] at h1
    have hi : r.parentId = id := by simpa using h1.2
    rcases h2 with ⟨h2, h3⟩ | h2
    · exact ⟨h2, r, h1.1, by rw [hi]; exact hr, h3⟩
    · exact ih (hr.step ⟨r, h1.1, hi, rfl⟩) h2

end

/-! ## Nodes as folders -/

theorem one_ne_zero32 : (1 : UInt32) ≠ 0 := by decide

/-- The table with all nodes as folders. -/
def asFolders (rows : List PlaylistTreeNode) : List PlaylistTreeNode := rows.map fun r => { r with nodeIsFolder := 1 }

theorem nodeIn_iff {rows : List PlaylistTreeNode} {a b : UInt32} : NodeIn rows a b ↔ FolderIn (asFolders rows) a b := by
  constructor
  · rintro ⟨r, h1, h2, h3⟩
    exact ⟨_, List.mem_map_of_mem h1, one_ne_zero32, h2, h3⟩
  · rintro ⟨r, h1, -, h2, h3⟩
    obtain ⟨s, h4, rfl⟩ := List.mem_map.1 h1
    exact ⟨s, h4, h2, h3⟩

theorem under_iff {rows : List PlaylistTreeNode} {a b : UInt32} : Under rows a b ↔ Below (asFolders rows) a b := by
  constructor
  · intro h
    induction h with
    | one h => exact .one (nodeIn_iff.1 h)
    | step _ h ih => exact .step ih (nodeIn_iff.1 h)
  · intro h
    induction h with
    | one h => exact .one (nodeIn_iff.2 h)
    | step _ h ih => exact .step ih (nodeIn_iff.2 h)

theorem linked_iff {rows : List PlaylistTreeNode} {a : UInt32} : Linked rows a ↔ Reached (asFolders rows) a := by
  unfold Linked Reached
  rw [under_iff]

theorem ProperIds.asFolders {rows : List PlaylistTreeNode} (h : ProperIds rows) : ProperIds (asFolders rows) := by
  refine ⟨?_, ?_⟩
  · have : (Rekordcrate.asFolders rows).map PlaylistTreeNode.id = rows.map PlaylistTreeNode.id := by
      unfold Rekordcrate.asFolders
      rw [List.map_map]
      rfl
    rw [this]
    exact h.unique
  · intro r hr
    obtain ⟨s, h4, rfl⟩ := List.mem_map.1 hr
    exact h.nonzero s h4

theorem printChildren_some {lossy : Bytes → String} {rows : List PlaylistTreeNode} {m : EntryMap}
    {am : UInt32 → Option Artist} {tm : UInt32 → Option Track}
    (hc : ∀ id, Linked rows id → ¬ Under rows id id) {n level : Nat} {id : UInt32}
    (hr : Linked rows id) (hn : belowCount (asFolders rows) id < n) :
    (printChildren lossy (ChildMap.build rows) m am tm n level id).outcome.isSome = true := by
  induction n generalizing id level with
  | zero => omega
  | succ n ih =>
    rw [printChildren, ChildMap.build_getD]
    apply printNodes_some
    intro r hr'
    rw [List.mem_filter] at hr'
    have hi : r.parentId = id := by simpa using hr'.2
    have hreach : Linked rows r.id := hr.step ⟨r, hr'.1, hi, rfl⟩
    have := belowCount_lt (rows := asFolders rows) (id := id) (r := { r with nodeIsFolder := 1 })
      (List.mem_map_of_mem hr'.1) one_ne_zero32 hi (fun h => hc _ hreach (under_iff.2 h))
    have : belowCount (asFolders rows) r.id < belowCount (asFolders rows) id := this
    exact ih hreach (by omega)

/-! ## Outlines -/

theorem Under.head {rows : List PlaylistTreeNode} {a b c : UInt32} (h : NodeIn rows a b) (t : Under rows b c) :
    Under rows a c := under_iff.2 ((nodeIn_iff.1 h).elim fun r hr => Below.head ⟨r, hr⟩ (under_iff.1 t))

theorem Under.first {rows : List PlaylistTreeNode} {a c : UInt32} (t : Under rows a c) :
    ∃ b, NodeIn rows a b ∧ (b = c ∨ Under rows b c) := by
  obtain ⟨b, h1, h2⟩ := (under_iff.1 t).first
  exact ⟨b, nodeIn_iff.2 h1, h2.imp id under_iff.2⟩

/-- Every row of the outline is one of the listed rows or below it. -/
theorem Outline.mem {rows : List PlaylistTreeNode} {depth : Nat} {rs : List PlaylistTreeNode}
    {hs : List (Nat × PlaylistTreeNode)} (h : Outline rows depth rs hs) (r : PlaylistTreeNode) :
    (∃ k, (k, r) ∈ hs) ↔ r ∈ rs ∨ (r ∈ rows ∧ ∃ s ∈ rs, r.parentId = s.id ∨ Under rows s.id r.parentId) := by
  induction h with
  | nil => simp
  | cons h t ih1 ih2 =>
    rename_i depth s rs below rest
    have e : (∃ k, (k, r) ∈ (depth, s) :: (below ++ rest)) ↔
        r = s ∨ (∃ k, (k, r) ∈ below) ∨ ∃ k, (k, r) ∈ rest := by
      constructor
      · rintro ⟨k, hk⟩
        rcases List.mem_cons.1 hk with hk | hk
        · injection hk with _ hk
          exact .inl hk
        · rcases List.mem_append.1 hk with hk | hk
          · exact .inr (.inl ⟨k, hk⟩)
          · exact .inr (.inr ⟨k, hk⟩)
      · rintro (rfl | ⟨k, hk⟩ | ⟨k, hk⟩)
        · exact ⟨depth, by simp⟩
        · exact ⟨k, by simp [hk]⟩
        · exact ⟨k, by simp [hk]⟩
    rw [e, ih1, ih2]
    constructor
    · rintro (rfl | (h1 | ⟨h1, u, h2, h3⟩) | h1 | ⟨h1, u, h2, h3⟩)
      · exact .inl (by simp)
      · rw [List.mem_filter] at h1
        exact .inr ⟨h1.1, s, by simp, .inl (by simpa using h1.2)⟩
      · rw [List.mem_filter] at h2
        have hu : NodeIn rows s.id u.id := ⟨u, h2.1, by simpa using h2.2, rfl⟩
        refine .inr ⟨h1, s, by simp, .inr ?_⟩
        rcases h3 with h3 | h3
        · rw [h3]
          exact .one hu
        · exact .head hu h3
      · exact .inl (by simp [h1])
      · exact .inr ⟨h1, u, by simp [h2], h3⟩
    · rintro (h1 | ⟨h1, u, h2, h3⟩)
      · rcases List.mem_cons.1 h1 with h1 | h1
        · exact .inl h1
        · exact .inr (.inr (.inl h1))
      · rcases List.mem_cons.1 h2 with rfl | h2
        · refine .inr (.inl ?_)
          rcases h3 with h3 | h3
          · exact .inl (List.mem_filter.2 ⟨h1, by simpa using h3⟩)
          · obtain ⟨b, ⟨v, g1, g2, g3⟩, g4⟩ := h3.first
            refine .inr ⟨h1, v, List.mem_filter.2 ⟨g1, by simpa using g2⟩, ?_⟩
            rw [g3]
            exact g4.imp Eq.symm id
        · exact .inr (.inr (.inr ⟨h1, u, h2, h3⟩))

theorem Outline.mem_of_parent {rows : List PlaylistTreeNode} {depth : Nat} {id : UInt32}
    {hs : List (Nat × PlaylistTreeNode)} (h : Outline rows depth (rows.filter fun s => s.parentId = id) hs)
    (r : PlaylistTreeNode) : (∃ k, (k, r) ∈ hs) ↔ r ∈ rows ∧ (r.parentId = id ∨ Under rows id r.parentId) := by
  rw [h.mem]
  constructor
  · rintro (h1 | ⟨h1, s, h2, h3⟩)
    · rw [List.mem_filter] at h1
      exact ⟨h1.1, .inl (by simpa using h1.2)⟩
    · rw [List.mem_filter] at h2
      have hu : NodeIn rows id s.id := ⟨s, h2.1, by simpa using h2.2, rfl⟩
      refine ⟨h1, .inr ?_⟩
      rcases h3 with h3 | h3
      · rw [h3]
        exact .one hu
      · exact .head hu h3
  · rintro ⟨h1, h2 | h2⟩
    · exact .inl (List.mem_filter.2 ⟨h1, by simpa using h2⟩)
    · obtain ⟨b, ⟨v, g1, g2, g3⟩, g4⟩ := h2.first
      refine .inr ⟨h1, v, List.mem_filter.2 ⟨g1, by simpa using g2⟩, ?_⟩
      rw [g3]
      exact g4.imp Eq.symm fun h => h

/-- The outline below a listed row is shorter. -/
theorem Outline.shorter {rows : List PlaylistTreeNode} {depth : Nat} {rs : List PlaylistTreeNode}
    {hs : List (Nat × PlaylistTreeNode)} (h : Outline rows depth rs hs) {r : PlaylistTreeNode} (hr : r ∈ rs) :
    ∃ depth' hs', Outline rows depth' (rows.filter fun s => s.parentId = r.id) hs' ∧ hs'.length < hs.length := by
  induction h with
  | nil => cases hr
  | cons h t _ ih =>
    rename_i below rest
    rcases List.mem_cons.1 hr with rfl | hr
    · exact ⟨_, _, h, by simp only [List.length_cons, List.length_append]; omega⟩
    · obtain ⟨d', hs', h1, h2⟩ := ih hr
      exact ⟨d', hs', h1, by simp only [List.length_cons, List.length_append]; omega⟩

theorem Outline.shorter_under {rows : List PlaylistTreeNode} {depth : Nat} {a b : UInt32} (hab : Under rows a b)
    {hs : List (Nat × PlaylistTreeNode)} (h : Outline rows depth (rows.filter fun s => s.parentId = a) hs) :
    ∃ depth' hs', Outline rows depth' (rows.filter fun s => s.parentId = b) hs' ∧ hs'.length < hs.length := by
  induction hab with
  | one hn =>
    obtain ⟨r, h1, h2, rfl⟩ := hn
    exact h.shorter (List.mem_filter.2 ⟨h1, by simpa using h2⟩)
  | step _ hn ih =>
    obtain ⟨r, h1, h2, rfl⟩ := hn
    obtain ⟨d', hs', h3, h4⟩ := ih
    obtain ⟨d2, hs2, h5, h6⟩ := h3.shorter (r := r) (List.mem_filter.2 ⟨h1, by simpa using h2⟩)
    exact ⟨d2, hs2, h5, by omega⟩

/-- There is no outline below a node that is below itself. -/
theorem Outline.no_cycle {rows : List PlaylistTreeNode} {a : UInt32} (hab : Under rows a a) {depth : Nat}
    {hs : List (Nat × PlaylistTreeNode)} (h : Outline rows depth (rows.filter fun s => s.parentId = a) hs) : False := by
  generalize hk : hs.length = k
  induction k using Nat.strongRecOn generalizing depth hs with
  | ind k ih =>
    obtain ⟨d', hs', h1, h2⟩ := h.shorter_under hab
    exact ih hs'.length (by omega) h1 rfl

theorem Outline.nodup {rows : List PlaylistTreeNode} (hp : ProperIds rows) {depth : Nat} {p : UInt32}
    (hr : Linked rows p) {rs : List PlaylistTreeNode} {hs : List (Nat × PlaylistTreeNode)}
    (h : Outline rows depth rs hs) (hin : ∀ r ∈ rs, r ∈ rows ∧ r.parentId = p)
    (hu : (rs.map PlaylistTreeNode.id).Nodup) : (hs.map fun x => x.2.id).Nodup := by
  induction h generalizing p with
  | nil => simp
  | cons h t ih1 ih2 =>
    rename_i depth s rs below rest
    rw [List.map_cons, List.nodup_cons] at hu
    obtain ⟨s1, s2⟩ := hin s (by simp)
    have hs' : Linked rows s.id := hr.step ⟨s, s1, s2, rfl⟩
    have hcyc := hp.asFolders.cycleFree
    have hb := h.mem_of_parent
    have ht := t.mem
    -- what is below s
    have hbelow : ∀ r k, (k, r) ∈ below → UnderId (asFolders rows) s.id r.id := by
      intro r k hk
      obtain ⟨h1, h2⟩ := (hb r).1 ⟨k, hk⟩
      refine ⟨{ r with nodeIsFolder := 1 }, List.mem_map_of_mem h1, rfl, ?_⟩
      exact h2.imp id under_iff.1
    rw [List.map_cons, List.nodup_cons, List.map_append, List.nodup_append]
    refine ⟨?_, ih1 hs' (fun r hr => ?_) ?_, ih2 hr (fun r hr' => hin r (by simp [hr'])) hu.2, ?_⟩
    · intro hm
      rcases List.mem_append.1 hm with hm | hm
      · obtain ⟨⟨k, r⟩, hx, e⟩ := List.mem_map.1 hm
        simp only at e
        obtain ⟨r', g1, g2, g3⟩ := hbelow r k hx
        have e' := hp.asFolders.row_unique g1 (List.mem_map_of_mem s1) (g2.trans e)
        subst e'
        simp only [s2] at g3
        apply hcyc p (linked_iff.1 hr)
        have hf : FolderIn (asFolders rows) p s.id := nodeIn_iff.1 ⟨s, s1, s2, rfl⟩
        rcases g3 with g3 | g3
        · rw [← g3] at hf
          exact .one hf
        · exact .head hf g3
      · obtain ⟨⟨k, r⟩, hx, e⟩ := List.mem_map.1 hm
        simp only at e
        rcases (ht r).1 ⟨k, hx⟩ with g | ⟨g1, u, g2, g3⟩
        · exact hu.1 (by rw [← e]; exact List.mem_map_of_mem g)
        · obtain ⟨u1, u2⟩ := hin u (by simp [g2])
          have e' := hp.row_unique g1 s1 e
          subst e'
          rw [s2] at g3
          apply hcyc p (linked_iff.1 hr)
          have hf : FolderIn (asFolders rows) p u.id := nodeIn_iff.1 ⟨u, u1, u2, rfl⟩
          rcases g3 with g3 | g3
          · rw [← g3] at hf
            exact .one hf
          · exact .head hf (under_iff.1 g3)
    · rw [List.mem_filter] at hr
      exact ⟨hr.1, by simpa using hr.2⟩
    · exact hp.unique.sublist (List.Sublist.map _ List.filter_sublist)
    · intro x hx y hy e
      subst e
      obtain ⟨⟨k, r⟩, hx, e⟩ := List.mem_map.1 hx
      obtain ⟨⟨k', r'⟩, hy, e'⟩ := List.mem_map.1 hy
      simp only at e e'
      have h1 := hbelow r k hx
      rw [e] at h1
      have key : ∀ u ∈ rs, (x = u.id ∨ UnderId (asFolders rows) u.id x) → False := by
        intro u hu' hx'
        obtain ⟨u1, u2⟩ := hin u (by simp [hu'])
        refine siblings_disjoint hp.asFolders (p := p) (linked_iff.1 hr) (r := { s with nodeIsFolder := 1 })
          (s := { u with nodeIsFolder := 1 }) (List.mem_map_of_mem s1) (List.mem_map_of_mem u1) s2 u2 ?_
          (.inr ⟨one_ne_zero32, h1⟩) (hx'.imp id fun h => ⟨one_ne_zero32, h⟩)
        intro e
        exact hu.1 (by
          have e : s.id = u.id := e
          rw [e]; exact List.mem_map_of_mem hu')
      rcases (ht r').1 ⟨k', hy⟩ with g | ⟨g1, u, g2, g3⟩
      · exact key r' g (.inl e'.symm)
      · exact key u g2 (.inr ⟨{ r' with nodeIsFolder := 1 }, List.mem_map_of_mem g1, e', g3.imp id under_iff.1⟩)

end Rekordcrate
