import Verif.Spec.ExportPlaces
import Verif.Props.ExportPath
import Verif.Props.CliFile

/-! # C59: when playlists are exported to different files -/

namespace Rekordcrate

set_option linter.unusedSectionVars false

private theorem join_file {p x : FsPath} (hp : p ≠ []) (hl : p.getLast? ≠ some '/') (hx : x ≠ []) (hs : '/' ∉ x) :
    p.join x = p ++ '/' :: x ∧ p.join x ≠ [] ∧ (p.join x).getLast? ≠ some '/' := by
  have ha : FsPath.isAbsolute x = false := isAbsolute_false fun h => hs (List.mem_of_head? h)
  have h1 : p.join x = p ++ '/' :: x := by
    unfold FsPath.join
    rw [if_neg (by simp [ha])]
    cases h : p.getLast? with
    | none => exact absurd (List.getLast?_eq_none_iff.1 h) hp
    | some c =>
      have : c ≠ '/' := fun e => hl (e ▸ h)
      simp [this]
  refine ⟨h1, by rw [h1]; simp, ?_⟩
  rw [h1]
  intro h
  cases hc : x.getLast? with
  | none => exact hx (List.getLast?_eq_none_iff.1 hc)
  | some c =>
    have : (p ++ '/' :: x).getLast? = some c := by
      rw [List.getLast?_append, List.getLast?_cons, hc]
      rfl
    rw [this] at h
    injection h with h
    subst h
    exact hs (List.mem_of_getLast? hc)

private theorem join_files {w : List FsPath} (hw : FileNames w) {p : FsPath} (hp : p ≠ []) (hl : p.getLast? ≠ some '/') :
    (w.foldl FsPath.join p).split = p.split ++ w := by
  induction w generalizing p with
  | nil => simp
  | cons x w ih =>
    obtain ⟨hx, hs⟩ := hw x (by simp)
    obtain ⟨h1, h2, h3⟩ := join_file hp hl hx hs
    rw [List.foldl_cons, ih (fun y hy => hw y (by simp [hy])) h2 h3, h1, FsPath.split_append, FsPath.split_name hs]
    simp

private theorem join_from (out : FsPath) : ∃ pre, ∀ w, w ≠ [] → FileNames w → (w.foldl FsPath.join out).split = pre ++ w := by
  have name_last : ∀ x : FsPath, '/' ∉ x → x.getLast? ≠ some '/' := fun x hs h => hs (List.mem_of_getLast? h)
  by_cases hp : out = []
  · subst hp
    refine ⟨[], fun w hw hn => ?_⟩
    cases w with
    | nil => exact absurd rfl hw
    | cons x w =>
      obtain ⟨hx, hs⟩ := hn x (by simp)
      have e : FsPath.join [] x = x := by
        unfold FsPath.join
        simp
      rw [List.foldl_cons, e, join_files (fun y hy => hn y (by simp [hy])) hx (name_last x hs), FsPath.split_name hs]
      simp
  · by_cases hl : out.getLast? = some '/'
    · obtain ⟨o, rfl⟩ := List.getLast?_eq_some_iff.1 hl
      refine ⟨FsPath.split o, fun w hw hn => ?_⟩
      cases w with
      | nil => exact absurd rfl hw
      | cons x w =>
        obtain ⟨hx, hs⟩ := hn x (by simp)
        have ha : FsPath.isAbsolute x = false := isAbsolute_false fun h => hs (List.mem_of_head? h)
        have e : FsPath.join (o ++ ['/']) x = o ++ '/' :: x := by
          unfold FsPath.join
          simp [ha]
        have hne : o ++ '/' :: x ≠ [] := by simp
        have hla : (o ++ '/' :: x).getLast? ≠ some '/' := by
          cases hc : x.getLast? with
          | none => exact absurd (List.getLast?_eq_none_iff.1 hc) hx
          | some c =>
            rw [List.getLast?_append, List.getLast?_cons, hc]
            intro h
            injection h with h
            change c = '/' at h
            exact name_last x hs (by rw [hc, h])
        rw [List.foldl_cons, e, join_files (fun y hy => hn y (by simp [hy])) hne hla, FsPath.split_append,
          FsPath.split_name hs]
        simp
    · exact ⟨out.split, fun w _ hn => join_files hn hp hl⟩

/-- C59: below one directory, different names of folders and files lead to different files. -/
theorem same_file_iff (out : FsPath) {w v : List FsPath} (hw : w ≠ []) (hv : v ≠ []) (nw : FileNames w) (nv : FileNames v) :
    w.foldl FsPath.join out = v.foldl FsPath.join out ↔ w = v := by
  refine ⟨fun h => ?_, fun h => by rw [h]⟩
  obtain ⟨pre, hp⟩ := join_from out
  have h1 := hp w hw nw
  rw [h, hp v hv nv] at h1
  exact (List.append_cancel_left h1).symm

/-- C59: if all names can be names of files, the playlists are exported to different files exactly if no two of them
have the same name in the same folders. -/
theorem export_places_iff (out : FsPath) {tree : List PlaylistNode} (hn : ∀ w ∈ waysOf tree, FileNames w) :
    ((exportedOf out tree).map fun y => playlistFile y.2.1 y.2.2).Nodup ↔ (waysOf tree).Nodup := by
  have he : ((exportedOf out tree).map fun y => playlistFile y.2.1 y.2.2) =
      (waysOf tree).map fun w => w.foldl FsPath.join out := by
    have := congrArg (List.map Prod.snd) (exportedOf_ways out tree)
    rw [List.map_map, List.map_map] at this
    exact this
  rw [he]
  unfold List.Nodup
  rw [List.pairwise_map]
  constructor
  · exact List.Pairwise.imp fun h e => h (by rw [e])
  · intro h
    refine h.imp_of_mem fun {a b} ha hb hne e => hne ?_
    exact (same_file_iff out (waysOf_ne_nil _ _ ha) (waysOf_ne_nil _ _ hb) (hn a ha) (hn b hb)).1 e

/-- C59: after a complete export the file of each playlist has its lines, if all names can be names of files and no two
playlists have the same name in the same folders. -/
theorem export_file_lines_names_partial {n : Nat} {file : Bytes} {root out : FsPath} {works : List FsOp → FsOp → Bool}
    {done : List FsOp} (h : exportPlaylists n (some file) root out works = some (done, .ok ()))
    {d : Database} (ho : Database.openAt file 0 .plain = .ok d) {tree : List PlaylistNode}
    {entries : List PlaylistEntry} {tracks : List (UInt32 × String)}
    (hd : exportData n d = some (.ok (tree, entries, tracks)))
    (hn : ∀ w ∈ waysOf tree, FileNames w) (hu : (waysOf tree).Nodup)
    {id : UInt32} {name : String} {dir : FsPath} (hy : (id, name, dir) ∈ exportedOf out tree) :
    ∃ lines, linesIn (playlistFile name dir) done = some lines ∧ LinesOf entries tracks root id lines :=
  export_file_lines_partial h ho hd ((export_places_iff out hn).2 hu) hy

/-! ## The rows of the table -/

private theorem m3u_inj {a b : String} (h : (a ++ ".m3u").toList = (b ++ ".m3u").toList) : a = b := by
  rw [String.toList_append, String.toList_append] at h
  exact String.toList_inj.1 (List.append_cancel_right h)

private theorem mem_waysOf {l : List PlaylistNode} {w : List FsPath} : w ∈ waysOf l ↔ ∃ x ∈ l, w ∈ x.ways := by
  induction l with
  | nil => simp [waysOf]
  | cons x l ih => simp [waysOf, ih]

private theorem differ_ways {x y : PlaylistNode} (h : Differ x y) {w : List FsPath} (hx : w ∈ x.ways) (hy : w ∈ y.ways) :
    False := by
  cases x with
  | folder i a cs =>
    rw [PlaylistNode.ways] at hx
    obtain ⟨v, hv, rfl⟩ := List.mem_map.1 hx
    cases y with
    | folder j b ds =>
      rw [PlaylistNode.ways] at hy
      obtain ⟨u, hu, e⟩ := List.mem_map.1 hy
      injection e with e _
      exact h (String.toList_inj.1 e.symm)
    | playlist j b =>
      rw [PlaylistNode.ways, List.mem_singleton] at hy
      injection hy with _ e
      exact waysOf_ne_nil cs v hv e
  | playlist i a =>
    rw [PlaylistNode.ways, List.mem_singleton] at hx
    subst hx
    cases y with
    | folder j b ds =>
      rw [PlaylistNode.ways] at hy
      obtain ⟨u, hu, e⟩ := List.mem_map.1 hy
      injection e with _ e
      exact waysOf_ne_nil ds u hu e
    | playlist j b =>
      rw [PlaylistNode.ways, List.mem_singleton] at hy
      injection hy with e _
      exact h (m3u_inj e)

section
variable {tree : List PlaylistNode} (hd : ∀ p l, ListedUnder tree p l → l.Pairwise Differ)
include hd

mutual
private theorem ways_nodup : ∀ (x : PlaylistNode) {p : UInt32} {l : List PlaylistNode}, ListedUnder tree p l → x ∈ l →
    x.ways.Nodup
  | .folder i a cs, p, l, hl, hx => by
    have hc := ListedUnder.sub hl hx
    have := waysOf_nodup cs hc (fun _ h => h) (hd _ _ hc)
    rw [PlaylistNode.ways]
    unfold List.Nodup at this ⊢
    rw [List.pairwise_map]
    exact this.imp fun h e => h (List.cons.inj e).2
  | .playlist i a, p, l, hl, hx => by
    rw [PlaylistNode.ways]
    simp
private theorem waysOf_nodup : ∀ (xs : List PlaylistNode) {p : UInt32} {l : List PlaylistNode}, ListedUnder tree p l →
    (∀ x ∈ xs, x ∈ l) → xs.Pairwise Differ → (waysOf xs).Nodup
  | [], _, _, _, _, _ => by simp [waysOf]
  | x :: xs, p, l, hl, hx, hp => by
    rw [waysOf, List.nodup_append]
    refine ⟨ways_nodup x hl (hx x (by simp)),
      waysOf_nodup xs hl (fun y hy => hx y (by simp [hy])) (List.pairwise_cons.1 hp).2, ?_⟩
    intro a ha b hb e
    subst e
    obtain ⟨y, hy, hw⟩ := mem_waysOf.1 hb
    exact differ_ways ((List.pairwise_cons.1 hp).1 y hy) ha hw
end
end

private theorem pointwise_mem {rows : List PlaylistTreeNode} {l : List PlaylistNode} (h : Pointwise Shows rows l) :
    ∀ y ∈ l, ∃ s ∈ rows, Shows s y := by
  induction h with
  | nil => intro y hy; cases hy
  | cons h t ih =>
    intro y hy
    rcases List.mem_cons.1 hy with rfl | hy
    · exact ⟨_, by simp, h⟩
    · obtain ⟨s, hs, h'⟩ := ih y hy
      exact ⟨s, by simp [hs], h'⟩

private theorem pointwise_differ {rows : List PlaylistTreeNode} {l : List PlaylistNode} (h : Pointwise Shows rows l)
    (ha : rows.Pairwise fun r s => (r.nodeIsFolder = 0 ↔ s.nodeIsFolder = 0) →
      ∀ t, r.name.intoString = .ok t → s.name.intoString ≠ .ok t) : l.Pairwise Differ := by
  induction h with
  | nil => exact .nil
  | @cons r x rows l h t ih =>
    rw [List.pairwise_cons] at ha ⊢
    refine ⟨fun y hy => ?_, ih ha.2⟩
    obtain ⟨s, hs, h'⟩ := pointwise_mem t y hy
    have hne := ha.1 s hs
    cases x <;> cases y
    · rintro rfl
      exact hne ⟨fun e => absurd e h.1, fun e => absurd e h'.1⟩ _ h.2.2 h'.2.2
    · trivial
    · trivial
    · rintro rfl
      exact hne ⟨fun _ => h'.1, fun _ => h.1⟩ _ h.2.2 h'.2.2

section
variable {tree : List PlaylistNode} (P : PlaylistNode → Prop) (hP : ∀ p l, ListedUnder tree p l → ∀ x ∈ l, P x)
  (hf : ∀ i a cs, P (.folder i a cs) → a.toList ≠ [] ∧ '/' ∉ a.toList) (hq : ∀ i a, P (.playlist i a) → '/' ∉ a.toList)
include hP hf hq

mutual
private theorem ways_names : ∀ (x : PlaylistNode) {p : UInt32} {l : List PlaylistNode}, ListedUnder tree p l → x ∈ l →
    ∀ w ∈ x.ways, FileNames w
  | .folder i a cs, p, l, hl, hx, w, hw => by
    rw [PlaylistNode.ways] at hw
    obtain ⟨v, hv, rfl⟩ := List.mem_map.1 hw
    intro y hy
    rcases List.mem_cons.1 hy with rfl | hy
    · exact hf i a cs (hP _ _ hl _ hx)
    · exact waysOf_names cs (ListedUnder.sub hl hx) (fun _ h => h) v hv y hy
  | .playlist i a, p, l, hl, hx, w, hw => by
    rw [PlaylistNode.ways, List.mem_singleton] at hw
    subst hw
    intro y hy
    rw [List.mem_singleton] at hy
    subst hy
    have := hq i a (hP _ _ hl _ hx)
    rw [String.toList_append]
    refine ⟨fun e => absurd (List.append_eq_nil_iff.1 e).2 (by decide), fun e => ?_⟩
    rcases List.mem_append.1 e with e | e
    · exact this e
    · exact absurd e (by decide)
private theorem waysOf_names : ∀ (xs : List PlaylistNode) {p : UInt32} {l : List PlaylistNode}, ListedUnder tree p l →
    (∀ x ∈ xs, x ∈ l) → ∀ w ∈ waysOf xs, FileNames w
  | [], _, _, _, _, w, hw => by rw [waysOf] at hw; cases hw
  | x :: xs, p, l, hl, hx, w, hw => by
    rw [waysOf] at hw
    rcases List.mem_append.1 hw with hw | hw
    · exact ways_names x hl (hx x (by simp)) w hw
    · exact waysOf_names xs hl (fun y hy => hx y (by simp [hy])) w hw
end
end

/-- C59: if the rows of the playlist table have names that can be names of files, and no two folders and no two playlists
in the same folder have the same name, then all playlists are exported to different files. -/
theorem rows_apart {d : Database} {rows : List PlaylistTreeNode} {tree : List PlaylistNode}
    (hr : (d.allRows PlaylistTreeNode).1 = .ok rows) (ht : PlaylistsReturn d (.ok tree)) (ha : NamedApart rows) :
    (∀ w ∈ waysOf tree, FileNames w) ∧ (waysOf tree).Nodup := by
  have hs := (get_playlists_tree_of_any_table hr ht).1
  constructor
  · refine waysOf_names (fun x => ∃ r ∈ rows, Shows r x) (fun p l hl x hx => ?_) ?_ ?_ tree .top fun _ h => h
    · obtain ⟨r, h1, h2⟩ := pointwise_mem (hs p l hl) x hx
      exact ⟨r, (List.mem_filter.1 h1).1, h2⟩
    · rintro i a cs ⟨r, h1, h2, -, h3⟩
      obtain ⟨g1, g2⟩ := ha.names r h1 a h3
      exact ⟨fun e => g2 h2 (String.toList_inj.1 e), g1⟩
    · rintro i a ⟨r, h1, -, -, h3⟩
      exact (ha.names r h1 a h3).1
  · have hd : ∀ p l, ListedUnder tree p l → l.Pairwise Differ := by
      intro p l hl
      refine pointwise_differ (hs p l hl) ?_
      refine (ha.apart.filter _).imp_of_mem fun {r s} h1 h2 h => h ?_
      have e1 := (List.mem_filter.1 h1).2
      have e2 := (List.mem_filter.1 h2).2
      simp only [decide_eq_true_eq] at e1 e2
      rw [e1, e2]
    exact waysOf_nodup hd tree .top (fun _ h => h) (hd _ _ .top)

/-- C59, for such tables: after a complete export the file of each playlist has its lines. -/
theorem export_file_lines_rows_partial {n : Nat} {file : Bytes} {root out : FsPath} {works : List FsOp → FsOp → Bool}
    {done : List FsOp} (h : exportPlaylists n (some file) root out works = some (done, .ok ()))
    {d : Database} (ho : Database.openAt file 0 .plain = .ok d) {rows : List PlaylistTreeNode}
    (hr : (d.allRows PlaylistTreeNode).1 = .ok rows) (ha : NamedApart rows) {tree : List PlaylistNode}
    (ht : PlaylistsReturn d (.ok tree)) :
    ∃ entries tracks, exportData n d = some (.ok (tree, entries, tracks)) ∧
      ∀ id name dir, (id, name, dir) ∈ exportedOf out tree →
        ∃ lines, linesIn (playlistFile name dir) done = some lines ∧ LinesOf entries tracks root id lines := by
  obtain ⟨entries, tracks, hd⟩ := export_data_of h ho ht
  obtain ⟨h1, h2⟩ := rows_apart hr ht ha
  exact ⟨entries, tracks, hd, fun id name dir hy => export_file_lines_names_partial h ho hd h1 h2 hy⟩

/-! ## Examples -/

/-- Playlists with the same name in different folders, and a folder that is named like a file. -/
example : ((exportedOf "out/".toList [.folder 1 "A" [.playlist 2 "P", .folder 3 "P.m3u" [.playlist 4 "P"]], .playlist 5 "P"]).map
    fun y => playlistFile y.2.1 y.2.2).Nodup :=
  (export_places_iff _ (by unfold FileNames; decide +kernel)).2 (by decide +kernel)

/-- The export of two playlists with the same name, one of them in a folder. -/
example : ∃ lines done, exportPlaylists 2 (some goodFile) "/usb".toList "out".toList (fun _ _ => true) = some (done, .ok ()) ∧
    linesIn (playlistFile "P" "out/F".toList) done = some lines ∧
    LinesOf someEntries [(1, "/m"), (2, "n")] "/usb".toList 2 lines := by
  obtain ⟨lines, h1, h2⟩ := export_file_lines_names_partial goodFile_export goodFile_open goodFile_data.2
    (by unfold FileNames; decide +kernel) (by decide +kernel)
    (show (2, "P", "out/F".toList) ∈ exportedOf "out".toList goodTree by decide +kernel)
  exact ⟨lines, _, goodFile_export, h1, h2⟩

theorem exportDb_nodes {file : Bytes} {nodes : List PlaylistTreeNode} {entries : List PlaylistEntry}
    {tracks : List Track} (hr : ExportRows file nodes entries tracks) :
    ((exportDb file).allRows PlaylistTreeNode).1 = .ok nodes := by
  obtain ⟨⟨v1, h1, r1⟩, ⟨v2, h2, -⟩, v3, h3, -⟩ := hr
  obtain ⟨ns, es, ts, a1, -, -, a4, -⟩ := export_data_of_file (d := exportDb file) (by simp [exportDb])
    (l1 := [(1, exportDbPage file 1)]) (l2 := [(2, exportDbPage file 2)]) (l3 := [(3, exportDbPage file 3)])
    (t1 := ⟨.plain .playlistTree, 0, ⟨1⟩, ⟨1⟩⟩) (t2 := ⟨.plain .playlistEntries, 0, ⟨2⟩, ⟨2⟩⟩)
    (t3 := ⟨.plain .tracks, 0, ⟨3⟩, ⟨3⟩⟩) (k1 := 1) (k2 := 2) (k3 := 0)
    (by show exportHeader.findTable _ = _; decide +kernel) (.last (by decide) v1) (by simpa using h1)
    (by show exportHeader.findTable _ = _; decide +kernel) (.last (by decide) v2) (by simpa using h2)
    (by show exportHeader.findTable _ = _; decide +kernel) (.last (by decide) v3) (by simpa using h3)
  have e1 := pointwise_map (fun a b h => by injection h with h; injection h) a1 r1
  subst e1
  exact a4

/-- The rows of that file. -/
theorem goodNodes_apart : NamedApart goodNodes where
  names := by
    have h : ∀ r ∈ goodNodes, r.name.intoString = .ok "F" ∨ r.name.intoString = .ok "P" := by decide +kernel
    intro r hr s hs
    rcases h r hr with h | h <;> rw [h] at hs <;> injection hs with hs <;> subst hs <;> exact ⟨by decide, fun _ => by decide⟩
  apart := by
    simp only [goodNodes, List.pairwise_cons, List.mem_cons, List.not_mem_nil, or_false]
    refine ⟨?_, ?_, ?_, .nil⟩
    · rintro s (rfl | rfl) h
      · exact absurd h (by decide)
      · intro h
        exact absurd h (by decide)
    · rintro s rfl h
      exact absurd h (by decide)
    · intro s h
      cases h

example : ∃ lines done, exportPlaylists 2 (some goodFile) "/usb".toList "out".toList (fun _ _ => true) = some (done, .ok ()) ∧
    linesIn (playlistFile "P" "out".toList) done = some lines := by
  obtain ⟨entries, tracks, -, h⟩ := export_file_lines_rows_partial goodFile_export goodFile_open (exportDb_nodes goodFile_rows)
    goodNodes_apart ⟨2, goodFile_data.1⟩
  obtain ⟨lines, h1, -⟩ := h 3 "P" "out".toList (by decide +kernel)
  exact ⟨lines, _, goodFile_export, h1⟩

/-- The names of those folders and files. -/
example : ["F".toList, "P.m3u".toList].foldl FsPath.join "out".toList ≠ ["P.m3u".toList].foldl FsPath.join "out".toList :=
  fun h => absurd ((same_file_iff _ (by decide) (by decide) (by unfold FileNames; decide) (by unfold FileNames; decide)).1 h)
    (by decide)

/-- C59: names that cannot be names of files lead to the same file: an empty folder name, and a name with a separator. -/
theorem other_names_collide :
    [[], "a.m3u".toList].foldl FsPath.join "out".toList = ["a.m3u".toList].foldl FsPath.join "out".toList ∧
    ["A".toList, "b.m3u".toList].foldl FsPath.join "out".toList = ["A/b.m3u".toList].foldl FsPath.join "out".toList := by
  decide +kernel

end Rekordcrate
