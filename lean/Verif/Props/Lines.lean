import Verif.Props.CliFile
import Verif.Spec.Lines

/-! # C104: exported playlists read line by line -/

namespace Rekordcrate

theorem readLines_line {l : List Char} (h : '\n' ∉ l) (rest : List Char) :
    readLines (l ++ '\n' :: rest) = l :: readLines rest := by
  induction l with
  | nil => simp [readLines]
  | cons c l ih =>
    rw [List.mem_cons, not_or] at h
    rw [List.cons_append, readLines, if_neg (fun e => h.1 e.symm), ih h.2]

theorem readLines_no_break {t l : List Char} (h : l ∈ readLines t) : '\n' ∉ l := by
  induction t generalizing l with
  | nil => cases h
  | cons c t ih =>
    rw [readLines] at h
    split at h
    · rcases List.mem_cons.1 h with rfl | h
      · simp
      · exact ih h
    · rename_i hc
      split at h
      · rw [List.mem_singleton] at h
        subst h
        simpa using fun e => hc e.symm
      · rename_i l' ls e
        rw [e] at ih
        rcases List.mem_cons.1 h with rfl | h
        · rw [List.mem_cons, not_or]
          exact ⟨fun e => hc e.symm, ih (by simp)⟩
        · exact ih (by simp [h])

/-- C104: lines that were written are read back if and only if none of them contains a line break. -/
theorem read_written_lines (lines : List (List Char)) :
    readLines (textOf lines) = lines ↔ ∀ l ∈ lines, '\n' ∉ l := by
  constructor
  · intro h l hl
    rw [← h] at hl
    exact readLines_no_break hl
  · intro h
    induction lines with
    | nil => rfl
    | cons l ls ih =>
      have : textOf (l :: ls) = l ++ '\n' :: textOf ls := by simp [textOf]
      rw [this, readLines_line (h l (by simp)), ih fun x hx => h x (by simp [hx])]

private theorem break_mem_join {root p : FsPath} (hr : '\n' ∉ root) (hp : '\n' ∉ p) : '\n' ∉ root.join p := by
  unfold FsPath.join
  split
  · exact hp
  · split
    · exact hp
    · split <;> simp [hr, hp]

private theorem break_mem_withoutSlash {p : List Char} (hp : '\n' ∉ p) : '\n' ∉ withoutSlash p := by
  unfold withoutSlash
  split
  · exact fun h => hp (List.mem_of_mem_tail h)
  · exact hp

private theorem pathOf_mem {tracks : List (UInt32 × String)} {id : UInt32} {s : String} (h : pathOf tracks id = some s) :
    ∃ t ∈ tracks, t.2 = s := by
  unfold pathOf at h
  rw [Option.map_eq_some_iff] at h
  obtain ⟨t, ht, hs⟩ := h
  exact ⟨t, (List.mem_filter.1 (List.mem_of_getLast? ht)).1, hs⟩

/-- C104 (proved part, exact): after a complete export of playlists to different paths, the file of a playlist read
line by line gives the lines of the playlist, one for each track, if and only if none of them contains a line break.
Missing: paths with line breaks, see `export_breaks_lines`. -/
theorem export_read_back_partial {n : Nat} {file : Bytes} {root out : FsPath} {works : List FsOp → FsOp → Bool}
    {done : List FsOp} (h : exportPlaylists n (some file) root out works = some (done, .ok ()))
    {d : Database} (ho : Database.openAt file 0 .plain = .ok d) {tree : List PlaylistNode}
    {entries : List PlaylistEntry} {tracks : List (UInt32 × String)}
    (hd : exportData n d = some (.ok (tree, entries, tracks)))
    (hu : ((exportedOf out tree).map fun y => playlistFile y.2.1 y.2.2).Nodup)
    {id : UInt32} {name : String} {dir : FsPath} (hy : (id, name, dir) ∈ exportedOf out tree)
    {lines : List (List Char)} (hl : LinesOf entries tracks root id lines) :
    ∃ text, textIn (playlistFile name dir) done = some text ∧
      (readLines text = lines ↔ ∀ l ∈ lines, '\n' ∉ l) := by
  obtain ⟨ls, h1, h2⟩ := export_file_lines_partial h ho hd hu hy
  rw [lines_unique hl h2]
  exact ⟨_, by rw [textIn, h1]; rfl, read_written_lines ls⟩

/-- C104: it is so in particular if neither the export path nor the path of any track contains a line break. -/
theorem export_one_line_per_track {n : Nat} {file : Bytes} {root out : FsPath} {works : List FsOp → FsOp → Bool}
    {done : List FsOp} (h : exportPlaylists n (some file) root out works = some (done, .ok ()))
    {d : Database} (ho : Database.openAt file 0 .plain = .ok d) {tree : List PlaylistNode}
    {entries : List PlaylistEntry} {tracks : List (UInt32 × String)}
    (hd : exportData n d = some (.ok (tree, entries, tracks)))
    (hu : ((exportedOf out tree).map fun y => playlistFile y.2.1 y.2.2).Nodup)
    {id : UInt32} {name : String} {dir : FsPath} (hy : (id, name, dir) ∈ exportedOf out tree)
    (hr : '\n' ∉ root) (ht : ∀ t ∈ tracks, '\n' ∉ t.2.toList) :
    ∃ text, textIn (playlistFile name dir) done = some text ∧ LinesOf entries tracks root id (readLines text) := by
  obtain ⟨ls, h1, h2⟩ := export_file_lines_partial h ho hd hu hy
  refine ⟨_, by rw [textIn, h1]; rfl, ?_⟩
  rw [(read_written_lines ls).2 ?_]
  · exact h2
  · obtain ⟨l, -, -, rfl⟩ := h2
    intro x hx
    rw [List.mem_filterMap] at hx
    obtain ⟨y, -, hy⟩ := hx
    rw [Option.map_eq_some_iff] at hy
    obtain ⟨s, hs, rfl⟩ := hy
    obtain ⟨t, htm, rfl⟩ := pathOf_mem hs
    exact break_mem_join hr (break_mem_withoutSlash (ht t htm))

/-- The example of C59 meets the hypotheses: two tracks, two lines. -/
example : ∃ done text, exportPlaylists 2 (some goodFile) "/usb".toList "out".toList (fun _ _ => true) =
      some (done, .ok ()) ∧
    textIn "out/F/P.m3u".toList done = some text ∧ readLines text = ["/usb/n".toList, "/usb/m".toList] ∧
    '\n' ∉ "/usb".toList ∧ ∀ t ∈ [((1 : UInt32), "/m"), (2, "n")], '\n' ∉ t.2.toList :=
  ⟨_, _, goodFile_export, rfl, by decide +kernel, by decide +kernel, by decide +kernel⟩

/-- Two tracks, the second with the path `a`, line break, `b`. -/
def breakTracks : List Track :=
  match twoTracks with
  | [t, u] => [t, { u with offsets := ⟨u.offsets.offsets, { u.offsets.inner with filePath := .short [97, 10, 98] }⟩ }]
  | ts => ts

/-- The file of C59 with these tracks. -/
def breakFile : Bytes := exportFile goodNodes someEntries breakTracks

theorem breakFile_open : Database.openAt breakFile 0 .plain = .ok (exportDb breakFile) := by decide +kernel

theorem breakFile_rows : ExportRows breakFile goodNodes someEntries breakTracks := by decide +kernel

theorem breakFile_data :
    exportData 2 (exportDb breakFile) = some (.ok (goodTree, someEntries, [(1, "/m"), (2, "a\nb")])) := by
  refine (exportDb_data breakFile_rows (by decide +kernel) ?_).2
  have hF : DString.intoString (.short [70]) = .ok "F" := by decide +kernel
  have hP : DString.intoString (.short [80]) = .ok "P" := by decide +kernel
  simp [childNodes, ChildMap.build_getD, goodNodes, namedRow, treeRow, collectNodes, nodeOf, goodTree,
    PlaylistTreeNode.isFolder, hF, hP]

/-- C104 is false in full: the export of this file succeeds, and the file of the playlist with two tracks has three
lines, of which the second is a path that no track has. -/
theorem export_breaks_lines : ∃ file d tree entries tracks done text lines,
    Database.openAt file 0 .plain = .ok d ∧ exportData 2 d = some (.ok (tree, entries, tracks)) ∧
    exportPlaylists 2 (some file) "/usb".toList "out".toList (fun _ _ => true) = some (done, .ok ()) ∧
    ((exportedOf "out".toList tree).map fun y => playlistFile y.2.1 y.2.2).Nodup ∧
    (2, "P", "out/F".toList) ∈ exportedOf "out".toList tree ∧
    LinesOf entries tracks "/usb".toList 2 lines ∧ lines.length = 2 ∧
    textIn "out/F/P.m3u".toList done = some text ∧
    readLines text = ["/usb/a".toList, "b".toList, "/usb/m".toList] := by
  have he : exportPlaylists 2 (some breakFile) "/usb".toList "out".toList (fun _ _ => true) =
      some ([.createDirs "out/F".toList, .createFile "out/F/P.m3u".toList,
        .canonicalize, .writeLine "out/F/P.m3u".toList "/usb/a\nb".toList,
        .canonicalize, .writeLine "out/F/P.m3u".toList "/usb/m".toList,
        .createDirs "out".toList, .createFile "out/P.m3u".toList,
        .canonicalize, .writeLine "out/P.m3u".toList "/usb/m".toList], .ok ()) := by
    unfold exportPlaylists
    simp only [breakFile_open, breakFile_data]
    decide +kernel
  have hu : ((exportedOf "out".toList goodTree).map fun y => playlistFile y.2.1 y.2.2).Nodup := by decide +kernel
  have hy : (2, "P", "out/F".toList) ∈ exportedOf "out".toList goodTree := by decide +kernel
  obtain ⟨lines, h1, h2⟩ := export_file_lines_partial he breakFile_open breakFile_data hu hy
  refine ⟨breakFile, _, _, _, _, _, _, lines, breakFile_open, breakFile_data, he, hu, hy, h2, ?_, rfl, by decide +kernel⟩
  have h3 : some lines = some ["/usb/a\nb".toList, "/usb/m".toList] := h1.symm.trans (by decide +kernel)
  injection h3 with h3
  rw [h3]
  rfl

end Rekordcrate
