import Verif.Spec.ExportPath
import Verif.Props.CliFile

/-! # C60: exactly which names lead out of the output directory -/

namespace Rekordcrate

theorem HasDotDot.left {x : FsPath} (h : HasDotDot x) (y : FsPath) : HasDotDot (x ++ '/' :: y) := by
  obtain ⟨a, b, rfl, ha, hb⟩ := h
  refine ⟨a, b ++ '/' :: y, by simp, ha, .inr ?_⟩
  cases b with
  | nil => rfl
  | cons c b =>
    rcases hb with hb | hb
    · cases hb
    · simpa using hb

theorem HasDotDot.right {y : FsPath} (h : HasDotDot y) (x : FsPath) : HasDotDot (x ++ '/' :: y) := by
  obtain ⟨a, b, rfl, ha, hb⟩ := h
  refine ⟨x ++ '/' :: a, b, by simp, .inr ?_, hb⟩
  rcases ha with rfl | ha
  · simp
  · rw [List.getLast?_append]
    cases a with
    | nil => simp
    | cons c a => rw [List.getLast?_cons_cons, ha]; rfl

/-- `..` is a component of two paths with a slash in between if it is one of one of them. -/
theorem hasDotDot_slash {x y : FsPath} : HasDotDot (x ++ '/' :: y) ↔ HasDotDot x ∨ HasDotDot y :=
  ⟨fun h => h.append_slash, fun h => h.elim (fun h => h.left y) fun h => h.right x⟩

theorem hasDotDot_ends {x : FsPath} : HasDotDot (x ++ ['/']) ↔ HasDotDot x := by
  rw [hasDotDot_slash]
  exact ⟨fun h => h.elim id fun h => absurd h HasDotDot.not_nil, .inl⟩

theorem split_cons {p s : FsPath} {ss : List FsPath} (h : p.split = s :: ss) :
    (ss = [] ∧ p = s) ∨ ∃ q : FsPath, p = s ++ '/' :: q ∧ q.split = ss := by
  induction p generalizing s ss with
  | nil =>
    rw [FsPath.split] at h
    injection h with h1 h2
    exact .inl ⟨h2.symm, h1⟩
  | cons c p ih =>
    rw [FsPath.split] at h
    split at h
    · rename_i hc
      injection h with h1 h2
      subst hc
      rw [← h1]
      exact .inr ⟨p, rfl, h2⟩
    · cases hp : FsPath.split p with
      | nil => exact absurd hp (FsPath.split_ne_nil p)
      | cons t ts =>
        rw [hp] at h
        injection h with h1 h2
        rw [← h1, ← h2]
        rcases ih hp with ⟨h3, h4⟩ | ⟨q, h3, h4⟩
        · exact .inl ⟨h3, by rw [h4]⟩
        · exact .inr ⟨q, by rw [h3]; rfl, h4⟩

theorem hasDotDot_name {s : FsPath} (h : '/' ∉ s) : HasDotDot s ↔ s = ['.', '.'] := by
  constructor
  · rintro ⟨a, b, e, ha, hb⟩
    have ha : a = [] := by
      rcases ha with ha | ha
      · exact ha
      · exact absurd (by rw [e]; exact List.mem_append_left _ (List.mem_of_getLast? ha)) h
    have hb : b = [] := by
      rcases hb with hb | hb
      · exact hb
      · exact absurd (by rw [e]; simp [List.mem_of_head? hb]) h
    rw [e, ha, hb]
    rfl
  · rintro rfl
    exact ⟨[], [], rfl, .inl rfl, .inl rfl⟩

/-- `..` is a component in the sense of `HasDotDot` if it is one of the parts between the slashes. -/
theorem hasDotDot_iff {p : FsPath} : HasDotDot p ↔ ['.', '.'] ∈ p.split := by
  have aux : ∀ (l : List FsPath) (p : FsPath), p.split = l → (HasDotDot p ↔ ['.', '.'] ∈ l) := by
    intro l
    induction l with
    | nil => intro p h; exact absurd h (FsPath.split_ne_nil p)
    | cons s ss ih =>
      intro p h
      have hs : '/' ∉ s := FsPath.mem_split (p := p) (by rw [h]; simp)
      rcases split_cons h with ⟨h1, h2⟩ | ⟨q, h1, h2⟩
      · rw [h1, h2, hasDotDot_name hs, List.mem_singleton]
        exact eq_comm
      · rw [h1, hasDotDot_slash, hasDotDot_name hs, ih q h2, List.mem_cons]
        exact or_congr eq_comm .rfl
  exact aux _ p rfl

/-- What stands between a directory and what follows it in a path. -/
def Follows (dir rest : FsPath) : Prop :=
  rest = [] ∨ (dir = [] ∧ rest.head? ≠ some '/') ∨
    (dir ≠ [] ∧ (dir.getLast? = some '/' ∨ rest.head? = some '/'))

theorem inside_iff {dir rest : FsPath} (h : Follows dir rest) : Inside dir (dir ++ rest) ↔ ¬ HasDotDot rest := by
  refine ⟨fun ⟨r, e, hd, _⟩ => ?_, fun hd => ⟨rest, rfl, hd, h⟩⟩
  rw [List.append_cancel_left e]
  exact hd

theorem isAbsolute_false {q : FsPath} (hq : q.head? ≠ some '/') : FsPath.isAbsolute q = false := by
  cases q with
  | nil => rfl
  | cons c q =>
    unfold FsPath.isAbsolute
    split
    · rename_i h
      injection h with h
      subst h
      simp at hq
    · rfl

theorem isAbsolute_true {q : FsPath} (hq : q.head? = some '/') : FsPath.isAbsolute q = true := by
  cases q with
  | nil => cases hq
  | cons c q =>
    injection hq with h
    subst h
    rfl

theorem join_follows {dir rest q : FsPath} (h : Follows dir rest) (hq : q.head? ≠ some '/') :
    ∃ rest', FsPath.join (dir ++ rest) q = dir ++ rest' ∧ Follows dir rest' ∧
      (HasDotDot rest' ↔ HasDotDot rest ∨ HasDotDot q) := by
  unfold FsPath.join
  rw [isAbsolute_false hq]
  simp only [Bool.false_eq_true, if_false]
  cases rest with
  | nil =>
    rw [List.append_nil]
    cases hl : dir.getLast? with
    | none =>
      have e := List.getLast?_eq_none_iff.1 hl
      subst e
      exact ⟨q, rfl, .inr (.inl ⟨rfl, hq⟩), by simp [HasDotDot.not_nil]⟩
    | some c =>
      have hne : dir ≠ [] := by
        intro e
        rw [e] at hl
        cases hl
      simp only
      split
      · rename_i hc
        subst hc
        exact ⟨q, rfl, .inr (.inr ⟨hne, .inl hl⟩), by simp [HasDotDot.not_nil]⟩
      · exact ⟨'/' :: q, rfl, .inr (.inr ⟨hne, .inr rfl⟩), hasDotDot_slash (x := [])⟩
  | cons r0 rest =>
    have hlast : (dir ++ r0 :: rest).getLast? = (r0 :: rest).getLast? := by
      rw [List.getLast?_append]
      simp [List.getLast?_cons]
    have hb : ∀ t : FsPath, Follows dir (r0 :: rest ++ t) := by
      intro t
      rcases h with h | h | h
      · cases h
      · exact .inr (.inl (by simpa using h))
      · exact .inr (.inr (by simpa using h))
    rw [hlast]
    cases hl : (r0 :: rest).getLast? with
    | none => simp at hl
    | some c =>
      simp only
      split
      · rename_i hc
        subst hc
        obtain ⟨y, hy⟩ := getLast?_eq_slash hl
        refine ⟨r0 :: rest ++ q, by simp, hb q, ?_⟩
        rw [hy, hasDotDot_ends, show y ++ ['/'] ++ q = y ++ '/' :: q by simp, hasDotDot_slash]
      · exact ⟨r0 :: rest ++ '/' :: q, by simp, hb _, hasDotDot_slash⟩

theorem joins_follow {dir : FsPath} {names : List FsPath} (hn : RelativeNames names) {rest : FsPath}
    (h : Follows dir rest) :
    ∃ rest', names.foldl FsPath.join (dir ++ rest) = dir ++ rest' ∧ Follows dir rest' ∧
      (HasDotDot rest' ↔ HasDotDot rest ∨ ∃ x ∈ names, HasDotDot x) := by
  induction names generalizing rest with
  | nil => exact ⟨rest, rfl, h, by simp⟩
  | cons x xs ih =>
    obtain ⟨r1, e1, h1, i1⟩ := join_follows h (hn x (by simp))
    obtain ⟨r2, e2, h2, i2⟩ := ih (fun y hy => hn y (by simp [hy])) h1
    refine ⟨r2, ?_, h2, ?_⟩
    · rw [List.foldl_cons, e1, e2]
    · rw [i2, i1, or_assoc]
      simp

/-- C60: a path that is put together from relative names is inside of the directory exactly if none of the
names has `..` as a component. -/
theorem joined_inside_iff {names : List FsPath} (hn : RelativeNames names) (dir : FsPath) :
    Inside dir (names.foldl FsPath.join dir) ↔ NoDotDot names := by
  obtain ⟨rest, e, h, i⟩ := joins_follow (dir := dir) hn (rest := []) (.inl rfl)
  rw [List.append_nil] at e
  rw [e, inside_iff h, i]
  constructor
  · intro h x hx hd
    exact h (.inr ⟨x, hx, hd⟩)
  · rintro h (h' | ⟨x, hx, hd⟩)
    · exact HasDotDot.not_nil h'
    · exact h x hx hd

/-- C60: an absolute name makes the directory and all names before it irrelevant. -/
theorem joined_absolute {a : FsPath} (ha : a.head? = some '/') (dir : FsPath) (before after : List FsPath) :
    (before ++ a :: after).foldl FsPath.join dir = after.foldl FsPath.join a := by
  rw [List.foldl_append, List.foldl_cons, FsPath.join, isAbsolute_true ha]
  rfl

mutual
theorem PlaylistNode.exported_ways (dir : FsPath) : ∀ x : PlaylistNode,
    (x.exported dir).map (fun y => (y.2.2, playlistFile y.2.1 y.2.2)) =
      x.ways.map fun w => (w.dropLast.foldl FsPath.join dir, w.foldl FsPath.join dir)
  | .folder _ name children => by
    rw [PlaylistNode.exported, PlaylistNode.ways, exportedOf_ways (dir.join name.toList) children, List.map_map]
    refine List.map_congr_left fun w hw => ?_
    have := waysOf_ne_nil children w hw
    cases w with
    | nil => exact absurd rfl this
    | cons x xs => rfl
  | .playlist _ name => by
    rw [PlaylistNode.exported, PlaylistNode.ways]
    rfl
theorem exportedOf_ways (dir : FsPath) : ∀ l : List PlaylistNode,
    (exportedOf dir l).map (fun y => (y.2.2, playlistFile y.2.1 y.2.2)) =
      (waysOf l).map fun w => (w.dropLast.foldl FsPath.join dir, w.foldl FsPath.join dir)
  | [] => by rw [exportedOf, waysOf]; rfl
  | x :: xs => by
    rw [exportedOf, waysOf, List.map_append, List.map_append, x.exported_ways, exportedOf_ways dir xs]
theorem PlaylistNode.ways_ne_nil : ∀ x : PlaylistNode, ∀ w ∈ x.ways, w ≠ []
  | .folder _ name children => by
    rw [PlaylistNode.ways]
    intro w hw
    obtain ⟨v, -, rfl⟩ := List.mem_map.1 hw
    exact List.cons_ne_nil _ _
  | .playlist _ name => by
    rw [PlaylistNode.ways]
    intro w hw
    rw [List.mem_singleton] at hw
    subst hw
    exact List.cons_ne_nil _ _
theorem waysOf_ne_nil : ∀ l : List PlaylistNode, ∀ w ∈ waysOf l, w ≠ []
  | [] => by rw [waysOf]; intro w hw; cases hw
  | x :: xs => by
    rw [waysOf]
    intro w hw
    rcases List.mem_append.1 hw with hw | hw
    · exact x.ways_ne_nil w hw
    · exact waysOf_ne_nil xs w hw
end

/-- An export that asks for anything has collected the data. -/
theorem export_data_of {n : Nat} {file : Bytes} {root out : FsPath} {works : List FsOp → FsOp → Bool}
    {done : List FsOp} (h : exportPlaylists n (some file) root out works = some (done, .ok ()))
    {d : Database} (ho : Database.openAt file 0 .plain = .ok d) {tree : List PlaylistNode}
    (ht : PlaylistsReturn d (.ok tree)) : ∃ entries tracks, exportData n d = some (.ok (tree, entries, tracks)) := by
  unfold exportPlaylists at h
  simp only [ho] at h
  cases hd : exportData n d with
  | none => rw [hd] at h; cases h
  | some r =>
    rw [hd] at h
    cases r with
    | err e => injection h with h; injection h with _ h; cases h
    | panic => injection h with h; injection h with _ h; cases h
    | ok x =>
      obtain ⟨tree', entries, tracks⟩ := x
      have ht' : PlaylistsReturn d (.ok tree') := by
        refine ⟨n, ?_⟩
        unfold exportData at hd
        split at hd
        · cases hd
        · cases hd
        · cases hd
        · rename_i t htree
          simp only at hd
          split at hd
          · cases hd
          · cases hd
          · split at hd
            · cases hd
            · cases hd
            · injection hd with hd
              injection hd with hd
              injection hd with hd
              rw [← hd]
              exact htree
      have e := get_playlists_deterministic ht ht'
      injection e with e
      rw [e]
      exact ⟨entries, tracks, rfl⟩

/-- C60: what the export asks for, if nothing fails: for each playlist the directory of the names of its
folders, and in it the file. -/
theorem export_paths {n : Nat} {file : Bytes} {root out : FsPath} {works : List FsOp → FsOp → Bool}
    {done : List FsOp} (h : exportPlaylists n (some file) root out works = some (done, .ok ()))
    {d : Database} (ho : Database.openAt file 0 .plain = .ok d) {tree : List PlaylistNode}
    (ht : PlaylistsReturn d (.ok tree)) (p : FsPath) :
    (∃ op ∈ done, op.path? = some p) ↔
      ∃ w ∈ waysOf tree, p = w.dropLast.foldl FsPath.join out ∨ p = w.foldl FsPath.join out := by
  obtain ⟨entries, tracks, hd⟩ := export_data_of h ho ht
  obtain ⟨files, h1, -, h2⟩ := export_requests h ho hd
  have hw := exportedOf_ways out tree
  rw [h2 rfl]
  constructor
  · rintro ⟨op, hop, hp⟩
    unfold requestsFor at hop
    rw [List.mem_flatMap] at hop
    obtain ⟨f, hf, hop⟩ := hop
    obtain ⟨y, hy, e1, e2, -⟩ := h1.mem_right hf
    have hm : (y.2.2, playlistFile y.2.1 y.2.2) ∈
        (exportedOf out tree).map (fun y => (y.2.2, playlistFile y.2.1 y.2.2)) := List.mem_map.2 ⟨y, hy, rfl⟩
    rw [hw] at hm
    obtain ⟨w, hw, e⟩ := List.mem_map.1 hm
    injection e with g1 g2
    refine ⟨w, hw, ?_⟩
    rw [g1, g2, ← e2, ← e1]
    rw [List.mem_cons, List.mem_cons, List.mem_flatMap] at hop
    rcases hop with rfl | rfl | ⟨line, -, hop⟩
    · injection hp with hp
      exact .inl hp.symm
    · injection hp with hp
      exact .inr hp.symm
    · simp only [List.mem_cons, List.not_mem_nil, or_false] at hop
      rcases hop with rfl | rfl
      · cases hp
      · injection hp with hp
        exact .inr hp.symm
  · rintro ⟨w, hm, e⟩
    have hm : (w.dropLast.foldl FsPath.join out, w.foldl FsPath.join out) ∈
        (waysOf tree).map fun w => (w.dropLast.foldl FsPath.join out, w.foldl FsPath.join out) :=
      List.mem_map.2 ⟨w, hm, rfl⟩
    rw [← hw] at hm
    obtain ⟨y, hy, e'⟩ := List.mem_map.1 hm
    injection e' with g1 g2
    obtain ⟨f, hf, e1, e2, -⟩ := h1.mem_left hy
    unfold requestsFor
    rcases e with rfl | rfl
    · exact ⟨.createDirs f.1, List.mem_flatMap.2 ⟨f, hf, by simp⟩, by rw [e1, g1]; rfl⟩
    · exact ⟨.createFile f.2.1, List.mem_flatMap.2 ⟨f, hf, by simp⟩, by rw [e2, g2]; rfl⟩

/-- C60, exactly: if no name is absolute, everything that a successful export asks for is inside the output
directory exactly if no name on the way to a playlist has `..` as a component. -/
theorem export_inside_iff {n : Nat} {file : Bytes} {root out : FsPath} {works : List FsOp → FsOp → Bool}
    {done : List FsOp} (h : exportPlaylists n (some file) root out works = some (done, .ok ()))
    {d : Database} (ho : Database.openAt file 0 .plain = .ok d) {tree : List PlaylistNode}
    (ht : PlaylistsReturn d (.ok tree)) (hr : ∀ w ∈ waysOf tree, RelativeNames w) :
    (∀ op ∈ done, ∀ p, op.path? = some p → Inside out p) ↔ ∀ w ∈ waysOf tree, NoDotDot w := by
  constructor
  · intro hi w hw
    refine (joined_inside_iff (hr w hw) out).1 ?_
    obtain ⟨op, ho, hp⟩ := (export_paths h ho ht (w.foldl FsPath.join out)).2 ⟨w, hw, .inr rfl⟩
    exact hi op ho _ hp
  · intro hw op hop p hp
    obtain ⟨w, hm, e | e⟩ := (export_paths h ho ht p).1 ⟨op, hop, hp⟩
    · rw [e]
      exact (joined_inside_iff (fun x hx => hr w hm x (List.dropLast_subset _ hx)) out).2
        fun x hx => hw w hm x (List.dropLast_subset _ hx)
    · rw [e]
      exact (joined_inside_iff (hr w hm) out).2 (hw w hm)

/-! ## Concrete cases -/

/-- A folder `..` with the playlist `P`, and the playlist `..P`. -/
def upNodes : List PlaylistTreeNode := [namedRow 0 1 1 [46, 46], namedRow 1 2 0 [80], namedRow 0 3 0 [46, 46, 80]]

/-- The file with these rows. -/
def upFile : Bytes := exportFile upNodes [] []

theorem upFile_open : Database.openAt upFile 0 .plain = .ok (exportDb upFile) := by decide +kernel

theorem upFile_rows : ExportRows upFile upNodes [] [] := by decide +kernel

/-- C60: a file that meets the hypotheses of `export_inside_iff`, with one playlist that leads out of the output
directory and one that does not although its name begins with two dots. -/
theorem upFile_exported : ∃ done tree,
    exportPlaylists 2 (some upFile) "/usb".toList "out".toList (fun _ _ => true) = some (done, .ok ()) ∧
    PlaylistsReturn (exportDb upFile) (.ok tree) ∧ waysOf tree = [["..".toList, "P.m3u".toList], ["..P.m3u".toList]] ∧
    (∀ w ∈ waysOf tree, RelativeNames w) ∧ ¬ (∀ op ∈ done, ∀ p, op.path? = some p → Inside "out".toList p) ∧
    Inside "out".toList "out/..P.m3u".toList := by
  have hd : getPlaylists 2 (exportDb upFile) =
        some (.ok [.folder 1 ".." [.playlist 2 "P"], .playlist 3 "..P"]) ∧
      exportData 2 (exportDb upFile) =
        some (.ok ([.folder 1 ".." [.playlist 2 "P"], .playlist 3 "..P"], [], [])) := by
    refine exportDb_data upFile_rows rfl ?_
    have hD : DString.intoString (.short [46, 46]) = .ok ".." := by decide +kernel
    have hP : DString.intoString (.short [80]) = .ok "P" := by decide +kernel
    have hS : DString.intoString (.short [46, 46, 80]) = .ok "..P" := by decide +kernel
    simp [childNodes, ChildMap.build_getD, upNodes, namedRow, treeRow, collectNodes, nodeOf,
      PlaylistTreeNode.isFolder, hD, hP, hS]
  have he : ∃ done, exportPlaylists 2 (some upFile) "/usb".toList "out".toList (fun _ _ => true) =
      some (done, .ok ()) := by
    unfold exportPlaylists
    simp only [upFile_open, hd.2]
    exact ⟨[.createDirs "out/..".toList, .createFile "out/../P.m3u".toList,
        .createDirs "out".toList, .createFile "out/..P.m3u".toList], by decide +kernel⟩
  obtain ⟨done, he⟩ := he
  have hw : waysOf [.folder 1 ".." [.playlist 2 "P"], .playlist 3 "..P"] =
      [["..".toList, "P.m3u".toList], ["..P.m3u".toList]] := by decide +kernel
  have hr : ∀ w ∈ waysOf [.folder 1 ".." [.playlist 2 "P"], .playlist 3 "..P"], RelativeNames w := by
    rw [hw]
    unfold RelativeNames
    decide +kernel
  have ht : PlaylistsReturn (exportDb upFile) (.ok [.folder 1 ".." [.playlist 2 "P"], .playlist 3 "..P"]) := ⟨2, hd.1⟩
  refine ⟨done, _, he, ht, hw, hr, fun hi => ?_, ?_⟩
  · refine (export_inside_iff he upFile_open ht hr).1 hi ["..".toList, "P.m3u".toList] (by rw [hw]; simp) "..".toList
      (by simp) ⟨[], [], by decide +kernel, .inl rfl, .inl rfl⟩
  · have h := (joined_inside_iff (names := ["..P.m3u".toList]) (by unfold RelativeNames; decide +kernel) "out".toList).2
      fun x hx => by
        rw [List.mem_singleton] at hx
        rw [hx, hasDotDot_iff]
        decide +kernel
    have e : ["..P.m3u".toList].foldl FsPath.join "out".toList = "out/..P.m3u".toList := by decide +kernel
    rw [e] at h
    exact h

end Rekordcrate
