import Verif.Spec.Cli
import Verif.Lemmas.Device

/-! # Lemmas about the command line tool -/

namespace Rekordcrate

/-! ## The maps -/

theorem insertEntry_mem (k v : UInt32) (l : List (UInt32 × UInt32)) (h : l.Pairwise fun a b => a.1 < b.1)
    (i t : UInt32) : (i, t) ∈ insertEntry k v l ↔ if i = k then t = v else (i, t) ∈ l := by
  induction l with
  | nil =>
    simp only [insertEntry, List.mem_singleton, Prod.mk.injEq, List.not_mem_nil]
    split
    · rename_i e; simp [e]
    · rename_i e; simp [e]
  | cons x l ih =>
    obtain ⟨k', v'⟩ := x
    rw [List.pairwise_cons] at h
    have hlt : ∀ b ∈ l, k' < b.1 := h.1
    rw [insertEntry]
    have irr : ∀ a : UInt32, ¬ a < a := fun a => by rw [UInt32.lt_iff_toNat_lt]; omega
    split
    · rename_i hk
      simp only [List.mem_cons, Prod.mk.injEq]
      split
      · rename_i e
        subst e
        constructor
        · rintro (⟨-, h⟩ | ⟨h, -⟩ | h)
          · exact h
          · subst h
            exact absurd hk (irr _)
          · have h := hlt _ h
            simp only at h
            rw [UInt32.lt_iff_toNat_lt] at h hk
            omega
        · intro h
          exact .inl ⟨rfl, h⟩
      · rename_i e
        simp [e]
    · rename_i hk
      split
      · rename_i hk'
        subst hk'
        simp only [List.mem_cons, Prod.mk.injEq]
        split
        · rename_i e
          subst e
          constructor
          · rintro (⟨-, h⟩ | h)
            · exact h
            · exact absurd (hlt _ h) (irr _)
          · intro h
            exact .inl ⟨rfl, h⟩
        · rename_i e
          simp [e]
      · rename_i hk'
        rw [List.mem_cons, ih h.2, List.mem_cons]
        split
        · rename_i e
          subst e
          constructor
          · rintro (h | h)
            · injection h with h
              exact absurd h hk'
            · exact h
          · exact .inr
        · rfl

theorem insertEntry_sorted (k v : UInt32) (l : List (UInt32 × UInt32)) (h : l.Pairwise fun a b => a.1 < b.1) :
    (insertEntry k v l).Pairwise fun a b => a.1 < b.1 := by
  induction l with
  | nil => simp [insertEntry]
  | cons x l ih =>
    obtain ⟨k', v'⟩ := x
    have h0 := h
    rw [List.pairwise_cons] at h
    rw [insertEntry]
    split
    · rename_i hk
      rw [List.pairwise_cons]
      refine ⟨?_, h0⟩
      intro b hb
      rcases List.mem_cons.1 hb with rfl | hb
      · exact hk
      · have := h.1 b hb
        simp only at this ⊢
        rw [UInt32.lt_iff_toNat_lt] at this hk ⊢
        omega
    · rename_i hk
      split
      · rename_i hk'
        subst hk'
        rw [List.pairwise_cons]
        exact h
      · rename_i hk'
        rw [List.pairwise_cons]
        refine ⟨?_, ih h.2⟩
        rintro ⟨i, t⟩ hb
        rw [insertEntry_mem k v l h.2] at hb
        split at hb
        · rename_i e
          subst e
          show k' < i
          have hk'' : i.toNat ≠ k'.toNat := fun e => hk' (UInt32.toNat_inj.1 e)
          rw [UInt32.lt_iff_toNat_lt] at hk ⊢
          omega
        · exact h.1 _ hb

/-- The entries of a playlist in the map, and those of the rows. -/
theorem EntryMap.foldl_insert (entries : List PlaylistEntry) (done : List PlaylistEntry) (m : EntryMap)
    (hs : ∀ p, ((m p).getD []).Pairwise fun a b => a.1 < b.1)
    (hm : ∀ p i t, (i, t) ∈ (m p).getD [] ↔ trackAt done p i = some t) :
    (∀ p, (((entries.foldl EntryMap.insert m) p).getD []).Pairwise fun a b => a.1 < b.1) ∧
    ∀ p i t, (i, t) ∈ ((entries.foldl EntryMap.insert m) p).getD [] ↔ trackAt (done ++ entries) p i = some t := by
  induction entries generalizing done m with
  | nil => exact ⟨hs, by simpa using hm⟩
  | cons e es ih =>
    rw [List.foldl_cons, show done ++ e :: es = (done ++ [e]) ++ es by simp]
    apply ih
    · intro p
      unfold EntryMap.insert
      split
      · exact insertEntry_sorted _ _ _ (hs p)
      · exact hs p
    · intro p i t
      have ht : trackAt (done ++ [e]) p i = if e.playlistId = p ∧ e.entryIndex = i then some e.trackId
          else trackAt done p i := by
        unfold trackAt
        rw [List.filter_append, List.filter_cons]
        split
        · rename_i h
          rw [if_pos (by simpa using h)]
          simp
        · rename_i h
          rw [if_neg (by simpa using h)]
          simp
      rw [ht]
      unfold EntryMap.insert
      split
      · rename_i h
        subst h
        rw [Option.getD_some, insertEntry_mem _ _ _ (hs _)]
        split
        · rename_i h
          rw [if_pos ⟨rfl, h.symm⟩]
          simp only [Option.some.injEq]
          exact eq_comm
        · rename_i h
          rw [if_neg (fun h' => h h'.2.symm), hm]
      · rename_i h
        rw [if_neg (fun h' => h h'.1.symm), hm]

theorem EntryMap.build_spec (entries : List PlaylistEntry) (p : UInt32) :
    (((EntryMap.build entries) p).getD []).Pairwise (fun a b => a.1 < b.1) ∧
    ∀ i t, (i, t) ∈ ((EntryMap.build entries) p).getD [] ↔ trackAt entries p i = some t := by
  have h := EntryMap.foldl_insert entries [] (fun _ => none) (by simp) (by simp [trackAt])
  exact ⟨h.1 p, fun i t => by simpa [EntryMap.build] using h.2 p i t⟩

theorem TrackMap.build_eq (tracks : List (UInt32 × String)) : TrackMap.build tracks = pathOf tracks := by
  have h : ∀ (ts done : List (UInt32 × String)),
      ts.foldl (fun m (t : UInt32 × String) k => if k = t.1 then some t.2 else m k) (pathOf done) = pathOf (done ++ ts) := by
    intro ts
    induction ts with
    | nil => intro done; simp
    | cons t ts ih =>
      intro done
      rw [List.foldl_cons, show done ++ t :: ts = (done ++ [t]) ++ ts by simp, ← ih]
      congr 1
      funext k
      unfold pathOf
      rw [List.filter_append, List.filter_cons]
      split
      · rename_i h
        rw [if_pos (by simpa using h.symm)]
        simp
      · rename_i h
        rw [if_neg (by simpa using fun e => h e.symm)]
        simp
  have := h tracks []
  rw [List.nil_append] at this
  rw [← this]
  rfl

/-! ## The requests -/

theorem runOps_eq (works : List FsOp → FsOp → Bool) (done ops : List FsOp) :
    ∃ k, (runOps works done ops).1 = done ++ ops.take k ∧
      ((runOps works done ops).2 = .ok () → (runOps works done ops).1 = done ++ ops) := by
  induction ops generalizing done with
  | nil => exact ⟨0, by simp [runOps], by simp [runOps]⟩
  | cons op ops ih =>
    rw [runOps]
    split
    · obtain ⟨k, h1, h2⟩ := ih (done ++ [op])
      refine ⟨k + 1, ?_, ?_⟩
      · rw [h1]
        simp
      · intro h
        rw [h2 h]
        simp
    · exact ⟨1, by simp, fun h => by cases h⟩

mutual
theorem walkTree_eq (visit : UInt32 → String → FsPath → List FsOp) (path : FsPath) (x : PlaylistNode) :
    walkTree visit path x = (x.exported path).flatMap fun y => visit y.1 y.2.1 y.2.2 := by
  cases x with
  | folder id name cs =>
    rw [walkTree, PlaylistNode.exported]
    exact walkTrees_eq visit _ cs
  | playlist id name => simp [walkTree, PlaylistNode.exported]
theorem walkTrees_eq (visit : UInt32 → String → FsPath → List FsOp) (path : FsPath) (l : List PlaylistNode) :
    walkTrees visit path l = (exportedOf path l).flatMap fun y => visit y.1 y.2.1 y.2.2 := by
  cases l with
  | nil => rfl
  | cons x xs =>
    rw [walkTrees, exportedOf, List.flatMap_append, walkTree_eq visit path x, walkTrees_eq visit path xs]
end

theorem stripSlash_eq (p : List Char) : stripSlash p = withoutSlash p := by
  unfold stripSlash withoutSlash
  split
  · rfl
  · rename_i h
    rw [if_neg]
    intro h'
    cases p with
    | nil => cases h'
    | cons c p =>
      injection h' with h'
      exact h p (by rw [h'])

/-- The requests for one playlist. -/
theorem visitOps_eq (entries : List PlaylistEntry) (tracks : List (UInt32 × String)) (root : FsPath) (id : UInt32)
    (name : String) (dir : FsPath) : ∃ lines, LinesOf entries tracks root id lines ∧
      visitOps (EntryMap.build entries) (TrackMap.build tracks) root id name dir =
        .createDirs dir :: .createFile (playlistFile name dir) ::
          lines.flatMap fun line => [.canonicalize, .writeLine (playlistFile name dir) line] := by
  obtain ⟨h1, h2⟩ := EntryMap.build_spec entries id
  refine ⟨_, ⟨_, h1, h2, rfl⟩, ?_⟩
  have hn : name.toList ++ ".m3u".toList = (name ++ ".m3u").toList := by rw [String.toList_append]
  unfold visitOps playlistFile
  rw [hn, TrackMap.build_eq]
  simp only
  generalize dir.join (name ++ ".m3u").toList = file
  congr 2
  cases EntryMap.build entries id with
  | none => simp
  | some es =>
    simp only [Option.getD_some]
    induction es with
    | nil => simp
    | cons e es ih =>
      rw [List.filterMap_cons, List.filterMap_cons]
      cases pathOf tracks e.2 with
      | none => simpa using ih
      | some t => simpa [trackLine, stripSlash_eq] using ih

theorem effect_flatMap_other {path file : FsPath} (h : file ≠ path) (lines : List (List Char))
    (s : Option (List (List Char))) :
    (lines.flatMap fun line => [FsOp.canonicalize, .writeLine file line]).foldl (FsOp.effect path) s = s := by
  induction lines generalizing s with
  | nil => rfl
  | cons l ls ih => simp [FsOp.effect, h, ih]

theorem effect_flatMap_self {path : FsPath} (lines : List (List Char)) (s : List (List Char)) :
    (lines.flatMap fun line => [FsOp.canonicalize, .writeLine path line]).foldl (FsOp.effect path) (some s) =
      some (s ++ lines) := by
  induction lines generalizing s with
  | nil => simp
  | cons l ls ih => simp [FsOp.effect, ih]

/-- What the requests for some playlists leave in a file. -/
theorem linesIn_files (files : List (FsPath × FsPath × List (List Char))) (path : FsPath)
    (s : Option (List (List Char))) :
    (files.flatMap fun f => FsOp.createDirs f.1 :: .createFile f.2.1 ::
      f.2.2.flatMap fun line => [.canonicalize, .writeLine f.2.1 line]).foldl (FsOp.effect path) s =
    match (files.filter fun f => f.2.1 = path).getLast? with
    | none => s
    | some f => some f.2.2 := by
  induction files generalizing s with
  | nil => rfl
  | cons f fs ih =>
    rw [List.flatMap_cons, List.foldl_append, ih, List.filter_cons]
    by_cases h : f.2.1 = path
    · rw [if_pos (by simpa using h)]
      rw [List.getLast?_cons]
      cases (fs.filter fun f => f.2.1 = path).getLast? with
      | some g => rfl
      | none =>
        simp only [Option.getD_none]
        rw [List.foldl_cons, List.foldl_cons]
        rw [← h]
        simp only [FsOp.effect, if_true]
        rw [effect_flatMap_self]
        simp
    · rw [if_neg (by simpa using h)]
      cases (fs.filter fun f => f.2.1 = path).getLast? with
      | some g => rfl
      | none =>
        simp only
        rw [List.foldl_cons, List.foldl_cons]
        simp only [FsOp.effect, if_neg h]
        exact effect_flatMap_other h _ _

/-! ## Paths -/

theorem HasDotDot.append_slash {x y : FsPath} (h : HasDotDot (x ++ '/' :: y)) : HasDotDot x ∨ HasDotDot y := by
  obtain ⟨a, b, e, ha, hb⟩ := h
  have e : x ++ '/' :: y = (a ++ ['.', '.']) ++ b := by simpa using e
  rcases List.append_eq_append_iff.1 e with ⟨c, h1, h2⟩ | ⟨c, h1, h2⟩
  · -- the dots reach beyond x
    cases c with
    | nil => exact .inl ⟨a, [], by simpa using h1.symm, ha, .inl rfl⟩
    | cons c0 c =>
      rw [List.cons_append] at h2
      injection h2 with h2 h3
      subst h2
      rcases List.append_eq_append_iff.1 h1 with ⟨f, g1, g2⟩ | ⟨f, g1, g2⟩
      · -- the slash would be inside the dots
        match f, g2 with
        | [], g2 => simp at g2
        | [_], g2 => simp at g2
        | [_, _], g2 => simp at g2
        | _ :: _ :: _ :: _, g2 => simp at g2
      · cases f with
        | nil => simp at g2
        | cons f0 f =>
          rw [List.cons_append] at g2
          injection g2 with g2 g3
          subst g2
          refine .inr ⟨f, b, by rw [h3, g3]; simp, ?_, hb⟩
          rcases ha with ha | ha
          · rw [ha] at g1
            simp at g1
          · rw [g1] at ha
            cases f with
            | nil => exact .inl rfl
            | cons f1 f =>
              right
              rw [List.getLast?_append] at ha
              simpa [List.getLast?_cons] using ha
  · refine .inl ⟨a, c, by rw [h1]; simp, ha, ?_⟩
    cases c with
    | nil => exact .inl rfl
    | cons c0 c =>
      right
      rcases hb with hb | hb
      · rw [hb] at h2
        simp at h2
      · rw [h2] at hb
        simpa using hb

theorem HasDotDot.not_nil : ¬ HasDotDot [] := by
  rintro ⟨a, b, e, -⟩
  simp at e

theorem Inside.refl (dir : FsPath) : Inside dir dir := ⟨[], by simp, HasDotDot.not_nil, .inl rfl⟩

theorem getLast?_eq_slash {x : FsPath} (h : x.getLast? = some '/') : ∃ y, x = y ++ ['/'] := by
  obtain ⟨y, hy⟩ := List.getLast?_eq_some_iff.1 h
  exact ⟨y, hy⟩

/-- Joining a harmless text stays inside. -/
theorem Inside.join {dir p q : FsPath} (h : Inside dir p) (hq : StaysBelow q) : Inside dir (p.join q) := by
  obtain ⟨rest, rfl, hd, hb⟩ := h
  obtain ⟨q1, q2⟩ := hq
  have habs : FsPath.isAbsolute q = false := by
    cases q with
    | nil => rfl
    | cons c q =>
      unfold FsPath.isAbsolute
      split
      · rename_i h
        injection h with h
        subst h
        simp at q1
      · rfl
  unfold FsPath.join
  rw [habs]
  simp only [Bool.false_eq_true, if_false]
  cases rest with
  | nil =>
    rw [List.append_nil]
    cases hl : dir.getLast? with
    | none =>
      have : dir = [] := List.getLast?_eq_none_iff.1 hl
      subst this
      exact ⟨q, rfl, q2, .inr (.inl ⟨rfl, q1⟩)⟩
    | some c =>
      have hne : dir ≠ [] := by
        intro e
        rw [e] at hl
        simp at hl
      simp only
      split
      · rename_i hc
        subst hc
        exact ⟨q, rfl, q2, .inr (.inr ⟨hne, .inl hl⟩)⟩
      · refine ⟨'/' :: q, rfl, ?_, .inr (.inr ⟨hne, .inr rfl⟩)⟩
        intro hh
        rcases HasDotDot.append_slash (x := []) hh with h | h
        · exact HasDotDot.not_nil h
        · exact q2 h
  | cons r0 rest =>
    have hlast : (dir ++ r0 :: rest).getLast? = (r0 :: rest).getLast? := by
      rw [List.getLast?_append]
      simp [List.getLast?_cons]
    rw [hlast]
    have hb' : ∀ t : FsPath, (r0 :: rest ++ t = [] ∨ (dir = [] ∧ (r0 :: rest ++ t).head? ≠ some '/') ∨
        (dir ≠ [] ∧ (dir.getLast? = some '/' ∨ (r0 :: rest ++ t).head? = some '/'))) := by
      intro t
      rcases hb with hb | hb | hb
      · simp at hb
      · exact .inr (.inl (by simpa using hb))
      · exact .inr (.inr (by simpa using hb))
    cases hl : (r0 :: rest).getLast? with
    | none => simp at hl
    | some c =>
      simp only
      split
      · rename_i hc
        subst hc
        obtain ⟨y, hy⟩ := getLast?_eq_slash hl
        refine ⟨r0 :: rest ++ q, by simp, ?_, hb' q⟩
        rw [hy]
        intro hh
        rw [show y ++ ['/'] ++ q = y ++ '/' :: q by simp] at hh
        rcases hh.append_slash with h | h
        · obtain ⟨a, b, e, ha, hb⟩ := h
          refine hd ⟨a, b ++ ['/'], by rw [hy, e]; simp, ha, .inr ?_⟩
          rcases hb with hb | hb
          · rw [hb]; rfl
          · cases b with
            | nil => rfl
            | cons _ _ => simpa using hb
        · exact q2 h
      · refine ⟨r0 :: rest ++ '/' :: q, by simp, ?_, hb' ('/' :: q)⟩
        intro hh
        rcases hh.append_slash with h | h
        · exact hd h
        · exact q2 h

theorem ListedUnder.folder {id : UInt32} {name : String} {children tree : List PlaylistNode}
    (hm : .folder id name children ∈ tree) {p : UInt32} {l : List PlaylistNode} (h : ListedUnder children p l) :
    ∃ q, ListedUnder tree q l := by
  induction h with
  | top => exact ⟨id, .sub .top hm⟩
  | sub _ hm' ih =>
    obtain ⟨q, hq⟩ := ih
    exact ⟨_, .sub hq hm'⟩

theorem HarmlessNames.children {id : UInt32} {name : String} {children tree : List PlaylistNode}
    (h : HarmlessNames tree) (hm : .folder id name children ∈ tree) : HarmlessNames children := by
  intro p l hl x hx
  obtain ⟨q, hq⟩ := ListedUnder.folder hm hl
  exact h q l hq x hx

/-- The playlists are exported to directories inside. -/
theorem exported_inside {tree : List PlaylistNode} (h : HarmlessNames tree) {out dir : FsPath} (hd : Inside out dir)
    {y : UInt32 × String × FsPath} (hy : y ∈ exportedOf dir tree) :
    Inside out y.2.2 ∧ Inside out (playlistFile y.2.1 y.2.2) := by
  have aux : ∀ x : PlaylistNode, x ∈ tree → ∀ y ∈ x.exported dir, Inside out y.2.2 ∧ Inside out (playlistFile y.2.1 y.2.2) := by
    intro x hx y hy
    have hn := h 0 tree .top x hx
    cases x with
    | playlist id name =>
      rw [PlaylistNode.exported, List.mem_singleton] at hy
      subst hy
      exact ⟨hd, hd.join hn⟩
    | folder id name cs =>
      rw [PlaylistNode.exported] at hy
      exact exported_inside (h.children hx) (hd.join hn) hy
  have : ∃ x ∈ tree, y ∈ x.exported dir := by
    clear h aux
    induction tree with
    | nil => simp [exportedOf] at hy
    | cons x xs ih =>
      rw [exportedOf, List.mem_append] at hy
      rcases hy with hy | hy
      · exact ⟨x, by simp, hy⟩
      · obtain ⟨x', h1, h2⟩ := ih hy
        exact ⟨x', by simp [h1], h2⟩
  obtain ⟨x, h1, h2⟩ := this
  exact aux x h1 y h2
termination_by sizeOf tree
decreasing_by
  have := List.sizeOf_lt_of_mem hx
  simp only [PlaylistNode.folder.sizeOf_spec] at this
  omega

end Rekordcrate
