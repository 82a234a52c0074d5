import Verif.Lemmas.Cli
import Verif.Props.Device
import Verif.Props.Rows

/-! # C59 to C61: the command line tool -/

namespace Rekordcrate

/-! ## C59 -/

/-- The requests for some files: directory, path of the file, lines. -/
def requestsFor (files : List (FsPath × FsPath × List (List Char))) : List FsOp :=
  files.flatMap fun f => .createDirs f.1 :: .createFile f.2.1 ::
    f.2.2.flatMap fun line => [.canonicalize, .writeLine f.2.1 line]

/-- The requests of the visitor. -/
theorem visitor_requests (entries : List PlaylistEntry) (tracks : List (UInt32 × String)) (root out : FsPath)
    (works : List FsOp → FsOp → Bool) (tree : List PlaylistNode) :
    ∃ files, Pointwise (fun y f => f.1 = y.2.2 ∧ f.2.1 = playlistFile y.2.1 y.2.2 ∧
        LinesOf entries tracks root y.1 f.2.2) (exportedOf out tree) files ∧
      ∀ done res, runOps works [] (walkTrees (visitOps (EntryMap.build entries) (TrackMap.build tracks) root) out tree) =
          (done, res) →
        (∃ k, done = (requestsFor files).take k) ∧ (res = .ok () → done = requestsFor files) := by
  rw [walkTrees_eq]
  have key : ∃ files, Pointwise (fun y f => f.1 = y.2.2 ∧ f.2.1 = playlistFile y.2.1 y.2.2 ∧
        LinesOf entries tracks root y.1 f.2.2) (exportedOf out tree) files ∧
      ((exportedOf out tree).flatMap fun y =>
        visitOps (EntryMap.build entries) (TrackMap.build tracks) root y.1 y.2.1 y.2.2) = requestsFor files := by
    generalize exportedOf out tree = ys
    induction ys with
    | nil => exact ⟨[], .nil, rfl⟩
    | cons y ys ih =>
      obtain ⟨files, h1, h2⟩ := ih
      obtain ⟨lines, h3, h4⟩ := visitOps_eq entries tracks root y.1 y.2.1 y.2.2
      refine ⟨(y.2.2, playlistFile y.2.1 y.2.2, lines) :: files, .cons ⟨rfl, rfl, h3⟩ h1, ?_⟩
      rw [List.flatMap_cons, h2, h4, requestsFor, requestsFor, List.flatMap_cons]
  obtain ⟨files, h1, h2⟩ := key
  rw [h2]
  refine ⟨files, h1, fun done res h => ?_⟩
  obtain ⟨k, h3, h4⟩ := runOps_eq works [] (requestsFor files)
  rw [h] at h3 h4
  exact ⟨⟨k, by simpa using h3⟩, fun e => by simpa using h4 e⟩

/-- C59: for every playlist in the tree, in order, the export creates the directory and the file, and writes
the paths of its tracks: ordered by entry index, one per distinct index, without tracks that do not exist.
If something fails the requests stop there. -/
theorem export_requests {n : Nat} {file : Bytes} {root out : FsPath} {works : List FsOp → FsOp → Bool}
    {done : List FsOp} {res : Res Unit} (h : exportPlaylists n (some file) root out works = some (done, res))
    {d : Database} (ho : Database.openAt file 0 .plain = .ok d) {tree : List PlaylistNode}
    {entries : List PlaylistEntry} {tracks : List (UInt32 × String)}
    (hd : exportData n d = some (.ok (tree, entries, tracks))) :
    ∃ files, Pointwise (fun y f => f.1 = y.2.2 ∧ f.2.1 = playlistFile y.2.1 y.2.2 ∧
        LinesOf entries tracks root y.1 f.2.2) (exportedOf out tree) files ∧
      (∃ k, done = (requestsFor files).take k) ∧ (res = .ok () → done = requestsFor files) := by
  unfold exportPlaylists at h
  simp only [ho, hd] at h
  injection h with h
  obtain ⟨files, h1, h2⟩ := visitor_requests entries tracks root out works tree
  exact ⟨files, h1, h2 done res h⟩

/-- C59: the lines are determined. -/
theorem lines_unique {entries : List PlaylistEntry} {tracks : List (UInt32 × String)} {root : FsPath} {id : UInt32}
    {l l' : List (List Char)} (h : LinesOf entries tracks root id l) (h' : LinesOf entries tracks root id l') :
    l = l' := by
  obtain ⟨a, a1, a2, rfl⟩ := h
  obtain ⟨b, b1, b2, rfl⟩ := h'
  have irr : ∀ x : UInt32, ¬ x < x := fun x => by rw [UInt32.lt_iff_toNat_lt]; omega
  have hm : ∀ x, x ∈ a ↔ x ∈ b := fun x => (a2 x.1 x.2).trans (b2 x.1 x.2).symm
  have : a = b := by
    clear a2 b2
    induction a generalizing b with
    | nil =>
      cases b with
      | nil => rfl
      | cons y ys => exact absurd ((hm y).2 (by simp)) (by simp)
    | cons x xs ih =>
      cases b with
      | nil => exact absurd ((hm x).1 (by simp)) (by simp)
      | cons y ys =>
        rw [List.pairwise_cons] at a1 b1
        have hxy : x = y := by
          rcases List.mem_cons.1 ((hm x).1 (by simp)) with h | h
          · exact h
          · rcases List.mem_cons.1 ((hm y).2 (by simp)) with h' | h'
            · exact h'.symm
            · have h1 := b1.1 x h
              have h2 := a1.1 y h'
              rw [UInt32.lt_iff_toNat_lt] at h1 h2
              omega
        subst hxy
        congr 1
        refine ih a1.2 ys b1.2 fun z => ?_
        constructor
        · intro hz
          rcases List.mem_cons.1 ((hm z).1 (by simp [hz])) with h | h
          · subst h
            exact absurd (a1.1 z hz) (irr _)
          · exact h
        · intro hz
          rcases List.mem_cons.1 ((hm z).2 (by simp [hz])) with h | h
          · subst h
            exact absurd (b1.1 z hz) (irr _)
          · exact h
  rw [this]

/-- C59: exactly what a complete export leaves in a file: the lines of the last playlist in the tree that is
exported to this path; a path that no playlist is exported to is not created. -/
theorem export_file_lines_last {n : Nat} {file : Bytes} {root out : FsPath} {works : List FsOp → FsOp → Bool}
    {done : List FsOp} (h : exportPlaylists n (some file) root out works = some (done, .ok ()))
    {d : Database} (ho : Database.openAt file 0 .plain = .ok d) {tree : List PlaylistNode}
    {entries : List PlaylistEntry} {tracks : List (UInt32 × String)}
    (hd : exportData n d = some (.ok (tree, entries, tracks))) (path : FsPath) :
    match ((exportedOf out tree).filter fun y => playlistFile y.2.1 y.2.2 = path).getLast? with
    | none => linesIn path done = none
    | some y => ∃ lines, linesIn path done = some lines ∧ LinesOf entries tracks root y.1 lines := by
  obtain ⟨files, h1, -, h2⟩ := export_requests h ho hd
  rw [h2 rfl]
  have h3 := linesIn_files files path none
  change linesIn path (requestsFor files) = _ at h3
  rw [h3]
  clear h2 h3 h
  have : match ((exportedOf out tree).filter fun y => playlistFile y.2.1 y.2.2 = path).getLast?,
      (files.filter fun f => f.2.1 = path).getLast? with
    | none, none => True
    | some y, some f => LinesOf entries tracks root y.1 f.2.2
    | _, _ => False := by
    generalize exportedOf out tree = ys at h1
    induction h1 with
    | nil => trivial
    | cons h t ih =>
      rename_i y f ys fs
      rw [List.filter_cons, List.filter_cons]
      by_cases hp : f.2.1 = path
      · rw [if_pos (by simpa using h.2.1.symm.trans hp), if_pos (by simpa using hp), List.getLast?_cons,
          List.getLast?_cons]
        cases h4 : (ys.filter fun y => playlistFile y.2.1 y.2.2 = path).getLast? with
        | none =>
          cases h5 : (fs.filter fun f => f.2.1 = path).getLast? with
          | none => exact h.2.2
          | some _ => rw [h4, h5] at ih; exact ih.elim
        | some _ =>
          cases h5 : (fs.filter fun f => f.2.1 = path).getLast? with
          | none => rw [h4, h5] at ih; exact ih.elim
          | some _ => rw [h4, h5] at ih; exact ih
      · rw [if_neg (by simpa using fun e => hp (h.2.1.trans e)), if_neg (by simpa using hp)]
        exact ih
  cases h4 : ((exportedOf out tree).filter fun y => playlistFile y.2.1 y.2.2 = path).getLast? with
  | none =>
    cases h5 : (files.filter fun f => f.2.1 = path).getLast? with
    | none => rfl
    | some _ => rw [h4, h5] at this; exact this.elim
  | some y =>
    cases h5 : (files.filter fun f => f.2.1 = path).getLast? with
    | none => rw [h4, h5] at this; exact this.elim
    | some f => rw [h4, h5] at this; exact ⟨f.2.2, rfl, this⟩

/-- C59, what holds: after a complete export the file of each playlist has its lines, if the playlists are
exported to different paths.  Missing: of playlists with the same path only the last one is left, see
`export_same_name_overwrites`. -/
theorem export_file_lines_partial {n : Nat} {file : Bytes} {root out : FsPath} {works : List FsOp → FsOp → Bool}
    {done : List FsOp} (h : exportPlaylists n (some file) root out works = some (done, .ok ()))
    {d : Database} (ho : Database.openAt file 0 .plain = .ok d) {tree : List PlaylistNode}
    {entries : List PlaylistEntry} {tracks : List (UInt32 × String)}
    (hd : exportData n d = some (.ok (tree, entries, tracks)))
    (hu : ((exportedOf out tree).map fun y => playlistFile y.2.1 y.2.2).Nodup)
    {id : UInt32} {name : String} {dir : FsPath} (hy : (id, name, dir) ∈ exportedOf out tree) :
    ∃ lines, linesIn (playlistFile name dir) done = some lines ∧ LinesOf entries tracks root id lines := by
  have h1 := export_file_lines_last h ho hd (playlistFile name dir)
  have : (exportedOf out tree).filter (fun y => playlistFile y.2.1 y.2.2 = playlistFile name dir) = [(id, name, dir)] := by
    clear h1 hd h
    generalize exportedOf out tree = ys at hu hy
    induction ys with
    | nil => cases hy
    | cons y ys ih =>
      rw [List.map_cons, List.nodup_cons] at hu
      rw [List.filter_cons]
      rcases List.mem_cons.1 hy with rfl | hy
      · rw [if_pos (by simp)]
        congr 1
        rw [List.filter_eq_nil_iff]
        intro z hz e
        simp only [decide_eq_true_eq] at e
        exact hu.1 (by rw [← e]; exact List.mem_map.2 ⟨z, hz, rfl⟩)
      · rw [if_neg ?_]
        · exact ih hu.2 hy
        · simp only [decide_eq_true_eq]
          intro e
          exact hu.1 (by rw [e]; exact List.mem_map.2 ⟨_, hy, rfl⟩)
  rw [this] at h1
  exact h1

/-! ## C60 -/

/-- C60, what holds: if the names in the tree neither are absolute nor have `..` as a component, everything the
export asks for is inside the output directory, also if something fails.  Missing: other names lead out of it,
see `export_leaves_directory`. -/
theorem export_inside_partial {n : Nat} {file : Bytes} {root out : FsPath} {works : List FsOp → FsOp → Bool}
    {done : List FsOp} {res : Res Unit} (h : exportPlaylists n (some file) root out works = some (done, res))
    {d : Database} (ho : Database.openAt file 0 .plain = .ok d)
    (hn : ∀ tree, PlaylistsReturn d (.ok tree) → HarmlessNames tree) :
    ∀ op ∈ done, ∀ p, op.path? = some p → Inside out p := by
  have h0 := h
  unfold exportPlaylists at h
  simp only [ho] at h
  cases hd : exportData n d with
  | none => rw [hd] at h; cases h
  | some r =>
    rw [hd] at h
    cases r with
    | err e =>
      injection h with h
      injection h with h
      rw [← h]
      intro op hop
      cases hop
    | panic =>
      injection h with h
      injection h with h
      rw [← h]
      intro op hop
      cases hop
    | ok x =>
      obtain ⟨tree, entries, tracks⟩ := x
      obtain ⟨files, h1, ⟨k, h2⟩, -⟩ := export_requests h0 ho hd
      have ht : PlaylistsReturn d (.ok tree) := by
        refine ⟨n, ?_⟩
        unfold exportData at hd
        split at hd
        · cases hd
        · cases hd
        · cases hd
        · rename_i t htree
          simp only at hd
          split at hd
          · cases hd
          · cases hd
          · split at hd
            · cases hd
            · cases hd
            · injection hd with hd
              injection hd with hd
              injection hd with hd
              rw [← hd]
              exact htree
      intro op hop p hp
      rw [h2] at hop
      have hop := List.mem_of_mem_take hop
      unfold requestsFor at hop
      rw [List.mem_flatMap] at hop
      obtain ⟨f, hf, hop⟩ := hop
      obtain ⟨y, hy, e1, e2, -⟩ := h1.mem_right hf
      obtain ⟨g1, g2⟩ := exported_inside (hn tree ht) (Inside.refl out) hy
      rw [List.mem_cons, List.mem_cons, List.mem_flatMap] at hop
      rcases hop with rfl | rfl | ⟨line, -, hop⟩
      · injection hp with hp
        rw [← hp, e1]
        exact g1
      · injection hp with hp
        rw [← hp, e2]
        exact g2
      · simp only [List.mem_cons, List.not_mem_nil, or_false] at hop
        rcases hop with rfl | rfl
        · cases hp
        · injection hp with hp
          rw [← hp, e2]
          exact g2

/-! ## C61 -/

theorem FsPath.split_ne_nil (p : FsPath) : p.split ≠ [] := by
  cases p with
  | nil => simp [FsPath.split]
  | cons c p =>
    rw [FsPath.split]
    split
    · simp
    · split <;> simp

theorem FsPath.split_append (p q : FsPath) : FsPath.split (p ++ '/' :: q) = p.split ++ q.split := by
  induction p with
  | nil => simp [FsPath.split]
  | cons c p ih =>
    rw [List.cons_append, FsPath.split, FsPath.split, ih]
    split
    · rfl
    · cases h : FsPath.split p with
      | nil => exact absurd h (FsPath.split_ne_nil p)
      | cons s ss => rfl

theorem FsPath.split_name {f : FsPath} (h : '/' ∉ f) : f.split = [f] := by
  induction f with
  | nil => rfl
  | cons c f ih =>
    rw [List.mem_cons, not_or] at h
    rw [FsPath.split, if_neg (fun e => h.1 e.symm), ih h.2]

theorem FsPath.mem_split {p s : FsPath} (h : s ∈ p.split) : '/' ∉ s := by
  induction p generalizing s with
  | nil =>
    simp only [FsPath.split, List.mem_singleton] at h
    subst h
    simp
  | cons c p ih =>
    rw [FsPath.split] at h
    split at h
    · rcases List.mem_cons.1 h with rfl | h
      · simp
      · exact ih h
    · rename_i hc
      cases hp : FsPath.split p with
      | nil => exact absurd hp (FsPath.split_ne_nil p)
      | cons t ts =>
        rw [hp] at h
        rw [hp] at ih
        rcases List.mem_cons.1 h with rfl | h
        · rw [List.mem_cons, not_or]
          exact ⟨fun e => hc e.symm, ih (by simp)⟩
        · exact ih (by simp [h])

/-- C61: the file name of a path: what follows the last separator, if that is a name. -/
theorem file_name_of_path {f : FsPath} (h0 : f ≠ []) (h1 : '/' ∉ f) (h2 : f ≠ ".".toList) (h3 : f ≠ "..".toList)
    (dir : FsPath) : f.fileName = some f ∧ FsPath.fileName (dir ++ '/' :: f) = some f := by
  have h2 : f ≠ ['.'] := h2
  have h3 : f ≠ ['.', '.'] := h3
  have hf : [f].filter (fun s => decide (s ≠ [] ∧ s ≠ ['.'])) = [f] := by simp [h0, h2]
  constructor
  · unfold FsPath.fileName
    rw [FsPath.split_name h1, hf]
    simp [h3]
  · unfold FsPath.fileName
    rw [FsPath.split_append, FsPath.split_name h1, List.filter_append, hf]
    simp [h3]

/-- C61: a file name is a name. -/
theorem file_name_is_name {p f : FsPath} (h : p.fileName = some f) :
    f ≠ [] ∧ '/' ∉ f ∧ f ≠ ".".toList ∧ f ≠ "..".toList := by
  unfold FsPath.fileName at h
  split at h
  · cases h
  · rename_i s hs
    split at h
    · cases h
    · rename_i hdd
      injection h with h
      subst h
      have hm := List.mem_of_getLast? hs
      rw [List.mem_filter] at hm
      have hm2 : s ≠ [] ∧ s ≠ ['.'] := by simpa using hm.2
      exact ⟨hm2.1, FsPath.mem_split hm.1, hm2.2, hdd⟩

/-- C61, what holds for databases: for a path with a file name, a kind that is given wins; otherwise exactly
the two documented names are recognised, each as its kind.  Missing: for a path without a file name the kind
that is given is ignored, see `explicit_kind_ignored`. -/
theorem guess_db_type_partial {path f : FsPath} (h : path.fileName = some f) :
    guessDbType path (some "plain") = .ok (some .plain) ∧ guessDbType path (some "ext") = .ok (some .ext) ∧
    (guessDbType path none = .ok (some .plain) ↔ f = "export.pdb".toList) ∧
    (guessDbType path none = .ok (some .ext) ↔ f = "exportExt.pdb".toList) ∧
    (guessDbType path none = .ok none ↔ f ≠ "export.pdb".toList ∧ f ≠ "exportExt.pdb".toList) := by
  have hne : "export.pdb".toList ≠ "exportExt.pdb".toList := by decide
  have e1 : ∀ (c : DatabaseType) (o : Option DatabaseType), (match some c, o with
      | none, none => .ok none
      | none, some g => .ok (some g)
      | some g, none => .ok (some g)
      | some c, some g => if c = g then .ok (some c) else .ok (some c) : Res (Option DatabaseType)) = .ok (some c) := by
    intro c o
    cases o with
    | none => rfl
    | some g => simp
  refine ⟨?_, ?_, ?_⟩
  · unfold guessDbType
    simp only [h]
    exact e1 _ _
  · unfold guessDbType
    simp only [h]
    exact e1 _ _
  · unfold guessDbType
    simp only [h]
    by_cases ha : f = "export.pdb".toList
    · subst ha
      refine ⟨⟨fun _ => rfl, fun _ => rfl⟩, ⟨fun e => ?_, fun e => absurd e hne⟩, ⟨fun e => ?_, fun e => absurd rfl e.1⟩⟩
      · cases e
      · cases e
    · by_cases hb : f = "exportExt.pdb".toList
      · subst hb
        refine ⟨⟨fun e => ?_, fun e => absurd e.symm hne⟩, ⟨fun _ => rfl, fun _ => rfl⟩, ⟨fun e => ?_, fun e => absurd rfl e.2⟩⟩
        · cases e
        · cases e
      · simp only [if_neg ha, if_neg hb]
        refine ⟨⟨fun e => ?_, fun e => absurd e ha⟩, ⟨fun e => ?_, fun e => absurd e hb⟩, ⟨fun _ => ⟨ha, hb⟩, fun _ => rfl⟩⟩
        · cases e
        · cases e

/-- The documented names of setting files, and the names of the kinds on the command line. -/
def settingNames : List (String × String × SettingType) :=
  [("DEVSETTING.DAT", "devsetting", .devSetting), ("DJMMYSETTING.DAT", "djmmysetting", .djmMySetting),
    ("MYSETTING.DAT", "mysetting", .mySetting), ("MYSETTING2.DAT", "mysetting2", .mySetting2)]

/-- C61, what holds for settings: for a path with a file name, a kind that is given wins; otherwise exactly the
four documented names are recognised, each as its kind.  Missing: for a path without a file name the kind
that is given is ignored, see `explicit_kind_ignored`. -/
theorem guess_setting_type_partial {path f : FsPath} (h : path.fileName = some f) :
    (∀ x ∈ settingNames, guessSettingType path (some x.2.1) = .ok (some x.2.2)) ∧
    (∀ x ∈ settingNames, (guessSettingType path none = .ok (some x.2.2) ↔ f = x.1.toList)) ∧
    (guessSettingType path none = .ok none ↔ ∀ x ∈ settingNames, f ≠ x.1.toList) := by
  have hff : f.fileName = some f := by
    obtain ⟨h0, h1, h2, h3⟩ := file_name_is_name h
    exact (file_name_of_path h0 h1 h2 h3 []).1
  have e1 : ∀ (c : SettingType) (o : Option SettingType), (match some c, o with
      | none, none => .ok none
      | none, some g => .ok (some g)
      | some g, none => .ok (some g)
      | some c, some g => if c = g then .ok (some c) else .ok (some c) : Res (Option SettingType)) = .ok (some c) := by
    intro c o
    cases o with
    | none => rfl
    | some g => simp
  refine ⟨?_, ?_⟩
  · intro x hx
    simp only [settingNames, List.mem_cons, List.not_mem_nil, or_false] at hx
    rcases hx with rfl | rfl | rfl | rfl
    all_goals
      unfold guessSettingType
      simp only [h]
      exact e1 _ _
  · have hg : guessSettingType path none = .ok (SettingType.fromFilename f) := by
      unfold guessSettingType
      simp only [h]
      show (match none, SettingType.fromFilename f with
      | none, none => .ok none
      | none, some g => .ok (some g)
      | some g, none => .ok (some g)
      | some c, some g => if c = g then .ok (some c) else .ok (some c) : Res (Option SettingType)) = _
      cases SettingType.fromFilename f <;> rfl
    rw [hg]
    unfold SettingType.fromFilename
    rw [hff]
    simp only
    have n12 : "DEVSETTING.DAT".toList ≠ "DJMMYSETTING.DAT".toList := by decide
    have n13 : "DEVSETTING.DAT".toList ≠ "MYSETTING.DAT".toList := by decide
    have n14 : "DEVSETTING.DAT".toList ≠ "MYSETTING2.DAT".toList := by decide
    have n23 : "DJMMYSETTING.DAT".toList ≠ "MYSETTING.DAT".toList := by decide
    have n24 : "DJMMYSETTING.DAT".toList ≠ "MYSETTING2.DAT".toList := by decide
    have n34 : "MYSETTING.DAT".toList ≠ "MYSETTING2.DAT".toList := by decide
    simp only [settingNames, List.forall_mem_cons]
    generalize "DEVSETTING.DAT".toList = s1 at *
    generalize "DJMMYSETTING.DAT".toList = s2 at *
    generalize "MYSETTING.DAT".toList = s3 at *
    generalize "MYSETTING2.DAT".toList = s4 at *
    by_cases h1 : f = s1
    · subst h1
      simp [n12, n13, n14]
    · by_cases h2 : f = s2
      · subst h2
        simp [h1, n23, n24]
      · by_cases h3 : f = s3
        · subst h3
          simp [h1, h2, n34]
        · by_cases h4 : f = s4
          · subst h4
            simp [h1, h2, h3]
          · simp [h1, h2, h3, h4]

/-- C61: the kind depends on the file name alone. -/
theorem guess_depends_on_file_name {path path' : FsPath} (h : path.fileName = path'.fileName) (o : Option String) :
    guessDbType path o = guessDbType path' o ∧ guessSettingType path o = guessSettingType path' o := by
  unfold guessDbType guessSettingType
  rw [h]
  exact ⟨rfl, rfl⟩

/-- C61: the full property is false: for a path without a file name the kind that is given is ignored. -/
theorem explicit_kind_ignored : guessDbType "..".toList (some "ext") = .ok none ∧
    guessSettingType "/".toList (some "mysetting") = .ok none := by decide +kernel

/-- C61: the values that `clap` lets through do not panic. -/
theorem guess_no_panic (path : FsPath) :
    (∀ o ∈ [none, some "plain", some "ext"], guessDbType path o ≠ .panic) ∧
    ∀ o ∈ [none, some "devsetting", some "djmmysetting", some "mysetting", some "mysetting2"],
      guessSettingType path o ≠ .panic := by
  constructor
  · intro o ho
    cases hf : path.fileName with
    | none =>
      simp only [List.mem_cons, List.not_mem_nil, or_false] at ho
      unfold guessDbType
      simp only [hf]
      rcases ho with rfl | rfl | rfl <;> simp [bind, Res.bind]
    | some f =>
      obtain ⟨h1, h2, -⟩ := guess_db_type_partial hf
      simp only [List.mem_cons, List.not_mem_nil, or_false] at ho
      rcases ho with rfl | rfl | rfl
      · unfold guessDbType
        simp only [hf]
        show (match none, _ with
          | none, none => .ok none
          | none, some g => .ok (some g)
          | some g, none => .ok (some g)
          | some c, some g => if c = g then .ok (some c) else .ok (some c) : Res (Option DatabaseType)) ≠ _
        split <;> (try split) <;> simp
      · rw [h1]; simp
      · rw [h2]; simp
  · intro o ho
    cases hf : path.fileName with
    | none =>
      simp only [List.mem_cons, List.not_mem_nil, or_false] at ho
      unfold guessSettingType
      simp only [hf]
      rcases ho with rfl | rfl | rfl | rfl | rfl <;> simp [bind, Res.bind]
    | some f =>
      obtain ⟨h1, -⟩ := guess_setting_type_partial hf
      simp only [settingNames, List.forall_mem_cons, List.forall_mem_nil] at h1
      obtain ⟨h1, h2, h3, h4, -⟩ := h1
      simp only [List.mem_cons, List.not_mem_nil, or_false] at ho
      rcases ho with rfl | rfl | rfl | rfl | rfl
      · unfold guessSettingType
        simp only [hf]
        show (match none, _ with
          | none, none => .ok none
          | none, some g => .ok (some g)
          | some g, none => .ok (some g)
          | some c, some g => if c = g then .ok (some c) else .ok (some c) : Res (Option SettingType)) ≠ _
        split <;> (try split) <;> simp
      · rw [h1]; simp
      · rw [h2]; simp
      · rw [h3]; simp
      · rw [h4]; simp

/-- C61: a case that meets the hypotheses, with an option that contradicts the name. -/
example : FsPath.fileName "/media/usb/PIONEER/rekordbox/export.pdb".toList = some "export.pdb".toList ∧
    guessDbType "/media/usb/PIONEER/rekordbox/export.pdb".toList (some "ext") = .ok (some .ext) ∧
    guessDbType "/media/usb/PIONEER/rekordbox/export.pdb".toList none = .ok (some .plain) ∧
    guessDbType "export.pdb.bak".toList none = .ok none := by decide +kernel

end Rekordcrate
