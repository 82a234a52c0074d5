import Verif.Spec.Main
import Verif.Props.Cli
import Verif.Props.Table
import Verif.Props.Dump
import Verif.Props.Setting
import Verif.Props.SettingText
import Verif.Props.XmlDoc
import Verif.Props.AnlzPanicFull

/-! # C80: the commands as a whole -/

namespace Rekordcrate

open Anlz (AnlzFile)

/-! ## Which kind is used -/

theorem guess_db_unknown {path : FsPath} {o : Option String} {b : Bool}
    (hv : (Command.dumpPdb path o b).Valid) :
    ((Command.dumpPdb path o b).KindUnknown → guessDbType path o = .ok none) ∧
    (¬ (Command.dumpPdb path o b).KindUnknown → ∃ t, guessDbType path o = .ok (some t)) := by
  cases hf : path.fileName with
  | none =>
    refine ⟨fun _ => ?_, fun h => absurd (.inl hf) h⟩
    rcases hv with rfl | rfl | rfl
    all_goals
      unfold guessDbType
      simp only [hf]
      rfl
  | some f =>
    obtain ⟨h1, h2, h3, h4, h5⟩ := guess_db_type_partial hf
    rcases hv with rfl | rfl | rfl
    · refine ⟨fun h => ?_, fun h => ?_⟩
      · rcases h with h | ⟨-, h⟩
        · rw [hf] at h; cases h
        · exact h5.2 (h f hf)
      · by_cases e1 : f = "export.pdb".toList
        · exact ⟨_, h3.2 e1⟩
        · by_cases e2 : f = "exportExt.pdb".toList
          · exact ⟨_, h4.2 e2⟩
          · refine absurd (.inr ⟨rfl, fun g hg => ?_⟩) h
            rw [hf] at hg
            injection hg with hg
            subst hg
            exact ⟨e1, e2⟩
    · refine ⟨fun h => ?_, fun _ => ⟨_, h1⟩⟩
      rcases h with h | ⟨h, -⟩
      · rw [hf] at h; cases h
      · cases h
    · refine ⟨fun h => ?_, fun _ => ⟨_, h2⟩⟩
      rcases h with h | ⟨h, -⟩
      · rw [hf] at h; cases h
      · cases h

theorem guess_setting_unknown {path : FsPath} {o : Option String} (hv : (Command.dumpSetting path o).Valid) :
    ((Command.dumpSetting path o).KindUnknown → guessSettingType path o = .ok none) ∧
    (¬ (Command.dumpSetting path o).KindUnknown → ∃ t, guessSettingType path o = .ok (some t)) := by
  cases hf : path.fileName with
  | none =>
    refine ⟨fun _ => ?_, fun h => absurd (.inl hf) h⟩
    rcases hv with rfl | rfl | rfl | rfl | rfl
    all_goals
      unfold guessSettingType
      simp only [hf]
      rfl
  | some f =>
    obtain ⟨h1, h2, h3⟩ := guess_setting_type_partial hf
    have known : ∀ x ∈ settingNames,
        ((Command.dumpSetting path (some x.2.1)).KindUnknown → guessSettingType path (some x.2.1) = .ok none) ∧
        (¬ (Command.dumpSetting path (some x.2.1)).KindUnknown → ∃ t, guessSettingType path (some x.2.1) = .ok (some t)) := by
      intro x hx
      refine ⟨fun h => ?_, fun _ => ⟨_, h1 x hx⟩⟩
      rcases h with h | ⟨h, -⟩
      · rw [hf] at h; cases h
      · cases h
    rcases hv with rfl | rfl | rfl | rfl | rfl
    · refine ⟨fun h => ?_, fun h => ?_⟩
      · rcases h with h | ⟨-, h⟩
        · rw [hf] at h; cases h
        · refine h3.2 fun x hx => ?_
          obtain ⟨g1, g2, g3, g4⟩ := h f hf
          simp only [settingNames, List.mem_cons, List.not_mem_nil, or_false] at hx
          rcases hx with rfl | rfl | rfl | rfl
          · exact g1
          · exact g2
          · exact g3
          · exact g4
      · refine Classical.byContradiction fun hn => h (.inr ⟨rfl, fun g hg => ?_⟩)
        rw [hf] at hg
        injection hg with hg
        subst hg
        have hne : ∀ x ∈ settingNames, f ≠ x.1.toList := fun x hx hc => hn ⟨_, (h2 x hx).2 hc⟩
        exact ⟨hne ("DEVSETTING.DAT", "devsetting", .devSetting) (by simp [settingNames]), hne ("DJMMYSETTING.DAT", "djmmysetting", .djmMySetting) (by simp [settingNames]),
          hne ("MYSETTING.DAT", "mysetting", .mySetting) (by simp [settingNames]),
          hne ("MYSETTING2.DAT", "mysetting2", .mySetting2) (by simp [settingNames])⟩
    · exact known ("DEVSETTING.DAT", "devsetting", .devSetting) (by simp [settingNames])
    · exact known ("DJMMYSETTING.DAT", "djmmysetting", .djmMySetting) (by simp [settingNames])
    · exact known ("MYSETTING.DAT", "mysetting", .mySetting) (by simp [settingNames])
    · exact known ("MYSETTING2.DAT", "mysetting2", .mySetting2) (by simp [settingNames])

/-! ## Success -/

variable (L : Libraries) (n : Nat) (w : World)

/-- C80: if the kind of the file cannot be told, the command does nothing and reports success, whether or not
there is such a file. -/
theorem kind_unknown_succeeds {c : Command} (hv : c.Valid) (hk : c.KindUnknown) :
    (runMain L n w c).shown = [] ∧ (runMain L n w c).requests = [] ∧ (runMain L n w c).result = some (.ok ()) := by
  cases c with
  | dumpPdb path o b =>
    simp only [runMain, (guess_db_unknown hv).1 hk]
    exact ⟨rfl, rfl, rfl⟩
  | dumpSetting path o =>
    simp only [runMain, (guess_setting_unknown hv).1 hk]
    exact ⟨rfl, rfl, rfl⟩
  | listPlaylists path => exact hk.elim
  | listSettings path => exact hk.elim
  | exportPlaylists path out => exact hk.elim
  | dumpAnlz path => exact hk.elim
  | dumpXml path => exact hk.elim

theorem dumpPdb_ok_shows {file : Option Bytes} {t : DatabaseType} {b : Bool} (h : (dumpPdb file t b).2 = .ok ()) :
    ∃ bs, file = some bs ∧ (dumpPdb file t b).1 ≠ [] := by
  unfold dumpPdb at h ⊢
  split at h
  · cases h
  · rename_i bs
    refine ⟨bs, rfl, ?_⟩
    split at h
    · cases h
    · cases h
    · simp

theorem dumpAnlz_cases {R : Xml.FloatText} (file : Option Bytes) :
    (∃ bs a q, file = some bs ∧ AnlzFile.read bs 0 = .ok (a, q) ∧
      (dumpAnlz file : Outcome R) = ⟨[.anlz a], [], some (.ok ())⟩) ∨
    (∃ e, (dumpAnlz file : Outcome R) = ⟨[], [], some (.err e)⟩ ∧
      (file = none ∨ ∃ bs, file = some bs ∧ AnlzFile.read bs 0 = .err e)) ∨
    (∃ bs, file = some bs ∧ AnlzFile.read bs 0 = .panic ∧ (dumpAnlz file : Outcome R) = ⟨[], [], some .panic⟩) := by
  cases file with
  | none => exact .inr (.inl ⟨.io, rfl, .inl rfl⟩)
  | some bs =>
    simp only [dumpAnlz]
    cases h : AnlzFile.read bs 0 with
    | ok r =>
      obtain ⟨a, q⟩ := r
      exact .inl ⟨bs, a, q, rfl, h, rfl⟩
    | err e => exact .inr (.inl ⟨e, rfl, .inr ⟨bs, rfl, h⟩⟩)
    | panic => exact .inr (.inr ⟨bs, rfl, h, rfl⟩)

theorem dumpSetting_cases {R : Xml.FloatText} (file : Option Bytes) (t : SettingType) :
    (∃ bs s q, file = some bs ∧ Setting.read t bs 0 = .ok (s, q) ∧
      (dumpSetting file t : Outcome R) = ⟨[.setting s], [], some (.ok ())⟩) ∨
    (∃ e, (dumpSetting file t : Outcome R) = ⟨[], [], some (.err e)⟩ ∧
      (file = none ∨ ∃ bs, file = some bs ∧ Setting.read t bs 0 = .err e)) := by
  cases file with
  | none => exact .inr ⟨.io, rfl, .inl rfl⟩
  | some bs =>
    simp only [dumpSetting]
    cases h : Setting.read t bs 0 with
    | ok r =>
      obtain ⟨a, q⟩ := r
      exact .inl ⟨bs, a, q, rfl, h, rfl⟩
    | err e => exact .inr ⟨e, rfl, .inr ⟨bs, rfl, h⟩⟩
    | panic => exact absurd h (Setting.read_np t bs 0)

theorem dumpXml_cases (file : Option Bytes) :
    (∃ bs e d, file = some bs ∧ L.xml bs = some e ∧ Xml.DocumentIn L.emptyIsNone e d ∧
      dumpXml L file = ⟨[.document d], [], some (.ok ())⟩) ∨
    (file = none ∧ dumpXml L file = ⟨[], [], some (.err .io)⟩) ∨
    (∃ bs, file = some bs ∧ (∀ e, L.xml bs = some e → ∀ d : Xml.Document L.floats, ¬ Xml.DocumentIn L.emptyIsNone e d) ∧
      dumpXml L file = ⟨[], [], some .panic⟩) := by
  cases file with
  | none => exact .inr (.inl ⟨rfl, rfl⟩)
  | some bs =>
    simp only [dumpXml]
    cases h : L.xml bs with
    | none => exact .inr (.inr ⟨bs, rfl, fun e he => (by rw [h] at he; cases he), rfl⟩)
    | some e =>
      simp only
      cases hd : Xml.Document.read L.floats L.emptyIsNone e with
      | ok d => exact .inl ⟨bs, e, d, rfl, h, (Xml.read_document_iff _ _ _).1 hd, rfl⟩
      | error x =>
        refine .inr (.inr ⟨bs, rfl, fun e' he d hin => ?_, rfl⟩)
        rw [h] at he
        injection he with he
        subst he
        rw [(Xml.read_document_iff _ _ _).2 hin] at hd
        cases hd

/-- C80: a command that is to show a file succeeds without showing anything exactly if the kind of the file cannot
be told. -/
theorem silent_success_iff {c : Command} (hv : c.Valid) (hd : c.IsDump) :
    ((runMain L n w c).shown = [] ∧ (runMain L n w c).result = some (.ok ())) ↔ c.KindUnknown := by
  refine ⟨fun ⟨h1, h2⟩ => ?_, fun hk => ⟨(kind_unknown_succeeds L n w hv hk).1, (kind_unknown_succeeds L n w hv hk).2.2⟩⟩
  cases c with
  | listPlaylists path => exact hd.elim
  | listSettings path => exact hd.elim
  | exportPlaylists path out => exact hd.elim
  | dumpPdb path o b =>
    refine Classical.byContradiction fun hk => ?_
    obtain ⟨t, ht⟩ := (guess_db_unknown hv).2 hk
    simp only [runMain, ht] at h1 h2
    obtain ⟨bs, -, hs⟩ := dumpPdb_ok_shows (Option.some.inj h2)
    exact hs (List.map_eq_nil_iff.1 h1)
  | dumpSetting path o =>
    refine Classical.byContradiction fun hk => ?_
    obtain ⟨t, ht⟩ := (guess_setting_unknown hv).2 hk
    simp only [runMain, ht] at h1 h2
    rcases dumpSetting_cases (R := L.floats) (w.file path) t with ⟨_, _, _, _, _, he⟩ | ⟨_, he, _⟩
    · rw [he] at h1; cases h1
    · rw [he] at h2; cases h2
  | dumpAnlz path =>
    simp only [runMain] at h1 h2
    rcases dumpAnlz_cases (R := L.floats) (w.file path) with ⟨_, _, _, _, _, he⟩ | ⟨_, he, _⟩ | ⟨_, _, _, he⟩
    · rw [he] at h1; cases h1
    · rw [he] at h2; cases h2
    · rw [he] at h2; cases h2
  | dumpXml path =>
    simp only [runMain] at h1 h2
    rcases dumpXml_cases L (w.file path) with ⟨_, _, _, _, _, _, he⟩ | ⟨_, he⟩ | ⟨_, _, _, he⟩
    · rw [he] at h1; cases h1
    · rw [he] at h2; cases h2
    · rw [he] at h2; cases h2

/-- C59, C60, C80: an absolute name replaces the directory, every other name is looked up below it. -/
theorem join_names (dir name : FsPath) :
    (name.head? = some '/' → dir.join name = name) ∧
    (name.head? ≠ some '/' → dir.join name = dir.below (String.ofList name)) := by
  constructor
  · intro h
    cases name with
    | nil => cases h
    | cons c cs =>
      injection h with h
      subst h
      rfl
  · intro h
    have ha : FsPath.isAbsolute name = false := by
      unfold FsPath.isAbsolute
      split
      · exact absurd rfl h
      · rfl
    unfold FsPath.join FsPath.below
    rw [if_neg (by simp [ha])]
    cases hd : dir.getLast? with
    | none =>
      have := List.getLast?_eq_none_iff.1 hd
      subst this
      simp
    | some c =>
      have hne : dir ≠ [] := by rintro rfl; cases hd
      by_cases hc : c = '/' <;> simp [hc, hne]

theorem join_below {path : FsPath} {first : String} {rest : FsPath} (hf : first.toList ≠ []) (ha : first.toList.head? ≠ some '/')
    (hl : first.toList.getLast? ≠ some '/') (hr : rest.head? ≠ some '/') :
    (path.join first.toList).join rest = path.below (String.ofList (first.toList ++ '/' :: rest)) := by
  have e1 : FsPath.isAbsolute first.toList = false := by
    unfold FsPath.isAbsolute
    split
    · rename_i h; rw [h] at ha; exact absurd rfl ha
    · rfl
  have e2 : FsPath.isAbsolute rest = false := by
    unfold FsPath.isAbsolute
    split
    · exact absurd rfl hr
    · rfl
  have e3 : ∀ pre : FsPath, (pre ++ first.toList).join rest = pre ++ (first.toList ++ '/' :: rest) := by
    intro pre
    obtain ⟨c, hc⟩ : ∃ c, first.toList.getLast? = some c := by
      cases h : first.toList.getLast? with
      | none => exact absurd (List.getLast?_eq_none_iff.1 h) hf
      | some c => exact ⟨c, rfl⟩
    have : c ≠ '/' := fun h => hl (h ▸ hc)
    simp [FsPath.join, e2, List.getLast?_append, hc, this]
  unfold FsPath.below
  conv => lhs; arg 1; unfold FsPath.join
  rw [if_neg (by simp [e1])]
  cases hp : path.getLast? with
  | none =>
    have := List.getLast?_eq_none_iff.1 hp
    subst this
    simpa using e3 []
  | some c =>
    have hne : path ≠ [] := by rintro rfl; cases hp
    by_cases hc : c = '/'
    · subst hc
      simp [e3]
    · have := e3 (path ++ ['/'])
      simp only [List.append_assoc, List.cons_append, List.nil_append] at this
      simp [hc, hne, this]

theorem exportPdbPath_eq (path : FsPath) : exportPdbPath path = path.below "PIONEER/rekordbox/export.pdb" := by
  have h2 : ∀ q : FsPath, q ≠ [] → q.getLast? ≠ some '/' →
      (q.join "rekordbox".toList).join "export.pdb".toList = q.join "rekordbox/export.pdb".toList := by
    intro q hq hl
    rw [join_below (by decide) (by decide) (by decide) (by decide)]
    unfold FsPath.below FsPath.join
    cases h : q.getLast? with
    | none => exact absurd (List.getLast?_eq_none_iff.1 h) hq
    | some c =>
      have : c ≠ '/' := fun e => hl (e ▸ h)
      rw [if_neg (by simp [hq, this]), if_neg (by decide)]
      simp [this]
  have h3 : (path.join "PIONEER".toList).getLast? = some 'R' := by
    unfold FsPath.join
    rw [if_neg (by decide)]
    cases path.getLast? with
    | none => rfl
    | some c =>
      simp only
      split <;> simp [List.getLast?_append]
  unfold exportPdbPath
  rw [h2 _ (fun h => by rw [h] at h3; cases h3) (by rw [h3]; decide),
    join_below (by decide) (by decide) (by decide) (by decide)]
  rfl

theorem World.pioneer_eq (w : World) (path : FsPath) {name : String} (h : name.toList.head? ≠ some '/') :
    w.pioneer path name = w.file (path.below ("PIONEER/" ++ name)) := by
  unfold World.pioneer
  rw [join_below (by decide) (by decide) (by decide) h]
  congr 2
  rw [← String.toList_inj]
  simp

/-- C80: if the kind is known, a file that cannot be opened is an error, for every command that needs one file, and
nothing is shown but possibly an empty text. -/
theorem missing_file_fails {c : Command} (hv : c.Valid) (hk : ¬ c.KindUnknown) {p : FsPath} (hi : c.inputs = [p])
    (hf : w.file p = none) :
    (runMain L n w c).result = some (.err .io) ∧ (runMain L n w c).requests = [] ∧
      ∀ x ∈ (runMain L n w c).shown, x = .text [] := by
  cases c with
  | listPlaylists path =>
    injection hi with hi
    subst hi
    simp only [runMain, hf, listPlaylists]
    exact ⟨trivial, trivial, by simp⟩
  | listSettings path => cases hi
  | exportPlaylists path out =>
    injection hi with hi
    subst hi
    simp only [runMain, exportPdbPath_eq, hf, exportPlaylists]
    exact ⟨trivial, trivial, by simp⟩
  | dumpPdb path o b =>
    injection hi with hi
    subst hi
    obtain ⟨t, ht⟩ := (guess_db_unknown hv).2 hk
    simp only [runMain, ht, hf, dumpPdb]
    exact ⟨trivial, trivial, by simp⟩
  | dumpSetting path o =>
    injection hi with hi
    subst hi
    obtain ⟨t, ht⟩ := (guess_setting_unknown hv).2 hk
    simp only [runMain, ht, hf, dumpSetting, Outcome.silent]
    exact ⟨trivial, trivial, by simp⟩
  | dumpAnlz path =>
    injection hi with hi
    subst hi
    simp only [runMain, hf, dumpAnlz, Outcome.silent]
    exact ⟨trivial, trivial, by simp⟩
  | dumpXml path =>
    injection hi with hi
    subst hi
    simp only [runMain, hf, dumpXml, Outcome.silent]
    exact ⟨trivial, trivial, by simp⟩

/-- C80: only `export-playlists` asks for changes of the file system. -/
theorem only_export_changes_files {c : Command} (h : (runMain L n w c).requests ≠ []) :
    ∃ path out, c = .exportPlaylists path out := by
  cases c with
  | exportPlaylists path out => exact ⟨path, out, rfl⟩
  | listPlaylists path => exact absurd rfl h
  | listSettings path =>
    refine absurd ?_ h
    simp only [runMain]
    split <;> rfl
  | dumpPdb path o b =>
    refine absurd ?_ h
    simp only [runMain]
    split <;> rfl
  | dumpSetting path o =>
    refine absurd ?_ h
    simp only [runMain]
    split
    · rename_i t _
      rcases dumpSetting_cases (R := L.floats) (w.file path) t with ⟨_, _, _, _, _, he⟩ | ⟨_, he, _⟩ <;> rw [he]
    all_goals rfl
  | dumpAnlz path =>
    refine absurd ?_ h
    simp only [runMain]
    rcases dumpAnlz_cases (R := L.floats) (w.file path) with ⟨_, _, _, _, _, he⟩ | ⟨_, he, _⟩ | ⟨_, _, _, he⟩ <;> rw [he]
  | dumpXml path =>
    refine absurd ?_ h
    simp only [runMain]
    rcases dumpXml_cases L (w.file path) with ⟨_, _, _, _, _, _, he⟩ | ⟨_, he⟩ | ⟨_, _, _, he⟩ <;> rw [he]

/-- C80: what a command does depends only on the files that it is about (and, for `export-playlists`, on how the
file system answers its requests). -/
theorem main_depends_on_inputs {w w' : World} {c : Command} (hf : ∀ p ∈ c.inputs, w.file p = w'.file p)
    (hc : w.canonical = w'.canonical) (hw : w.works = w'.works) : runMain L n w c = runMain L n w' c := by
  cases c with
  | listPlaylists path => simp only [runMain, hf path (by simp [Command.inputs])]
  | exportPlaylists path out => 
    simp only [runMain, exportPdbPath_eq, hf (path.below "PIONEER/rekordbox/export.pdb") (by simp [Command.inputs]), hc, hw]
  | dumpPdb path o b => simp only [runMain, hf path (by simp [Command.inputs])]
  | dumpSetting path o => simp only [runMain, hf path (by simp [Command.inputs])]
  | dumpAnlz path => simp only [runMain, hf path (by simp [Command.inputs])]
  | dumpXml path => simp only [runMain, hf path (by simp [Command.inputs])]
  | listSettings path =>
    have he : ∀ name ∈ ["DEVSETTING.DAT", "DJMMYSETTING.DAT", "MYSETTING.DAT", "MYSETTING2.DAT"],
        w.pioneer path name = w'.pioneer path name := fun name hn => by
      have h : name.toList.head? ≠ some '/' := by
        simp only [List.mem_cons, List.not_mem_nil, or_false] at hn
        rcases hn with rfl | rfl | rfl | rfl <;> decide
      rw [World.pioneer_eq w path h, World.pioneer_eq w' path h]
      refine hf _ ?_
      simp only [List.mem_cons, List.not_mem_nil, or_false] at hn
      simp only [Command.inputs, List.map_cons, List.map_nil, List.mem_cons, List.not_mem_nil, or_false]
      rcases hn with rfl | rfl | rfl | rfl
      · exact .inl rfl
      · exact .inr (.inl rfl)
      · exact .inr (.inr (.inl rfl))
      · exact .inr (.inr (.inr rfl))
    have hl : loadSettings (w.pioneer path) = loadSettings (w'.pioneer path) := by
      unfold loadSettings loadSetting
      rw [he "DEVSETTING.DAT" (by simp), he "DJMMYSETTING.DAT" (by simp), he "MYSETTING.DAT" (by simp),
        he "MYSETTING2.DAT" (by simp)]
    simp only [runMain, listSettings, hl]

/-! ## The single commands -/

/-- C80: `dump-anlz` shows at most one value, namely what the file holds from the start, and succeeds exactly if
it shows it. -/
theorem dump_anlz_shows (path : FsPath) :
    ((runMain L n w (.dumpAnlz path)).result = some (.ok ()) ∧ ∃ file a bs q, w.file path = some file ∧
      Anlz.AnlzFile.read file 0 = .ok (a, q) ∧ (runMain L n w (.dumpAnlz path)).shown = [.anlz a] ∧ HasAt file 0 bs ∧
      a.HeldBy bs) ∨
    ((runMain L n w (.dumpAnlz path)).result ≠ some (.ok ()) ∧ (runMain L n w (.dumpAnlz path)).shown = [] ∧
      ∀ file, w.file path = some file → ∀ a q, Anlz.AnlzFile.read file 0 ≠ .ok (a, q)) := by
  simp only [runMain]
  rcases dumpAnlz_cases (R := L.floats) (w.file path) with ⟨bs, a, q, hb, hr, he⟩ | ⟨e, he, hn⟩ | ⟨bs, hb, hr, he⟩
  · obtain ⟨held, h1, -, h2⟩ := Anlz.anlz_read_held hr
    rw [he]
    exact .inl ⟨rfl, bs, a, held, q, hb, hr, rfl, h1, h2⟩
  · rw [he]
    refine .inr ⟨by simp, rfl, fun file hf a q hr => ?_⟩
    rcases hn with hn | ⟨bs, hb, hr'⟩
    · rw [hn] at hf; cases hf
    · rw [hb] at hf
      injection hf with hf
      subst hf
      rw [hr] at hr'
      cases hr'
  · rw [he]
    refine .inr ⟨by simp, rfl, fun file hf a q hr' => ?_⟩
    rw [hb] at hf
    injection hf with hf
    subst hf
    rw [hr] at hr'
    cases hr'

open Anlz in
/-- C80: `dump-anlz` panics exactly if the header of the file or a section that is reached is one of those on which
the reader panics. -/
theorem dump_anlz_panics_iff {path : FsPath} {file : Bytes} (hf : w.file path = some file) :
    (runMain L n w (.dumpAnlz path)).result = some .panic ↔
      ∃ x : Anlz.Header, x.At file 0 ∧ x.kind = .file ∧
        (x.size.toNat < 12 ∨
          x.size.toNat ≤ file.length ∧ (x.Short ∨
            ∃ q, AnlzSection.Lead x.totalSize.toNat file x.size.toNat q ∧ q < x.totalSize.toNat ∧
              ∃ h : Anlz.Header, h.At file q ∧ BadSectionAt file q h)) := by
  have hp := anlz_panic_iff (d := file) (p := 0)
  simp only [Nat.zero_add] at hp
  rw [← hp]
  simp only [runMain]
  rcases dumpAnlz_cases (R := L.floats) (w.file path) with ⟨bs, a, q, hb, hr, he⟩ | ⟨e, he, hn⟩ | ⟨bs, hb, hr, he⟩
  · rw [hf] at hb
    injection hb with hb
    subst hb
    rw [he, hr]
    simp
  · rcases hn with hn | ⟨bs, hb, hr⟩
    · rw [hf] at hn; cases hn
    · rw [hf] at hb
      injection hb with hb
      subst hb
      rw [he, hr]
      simp
  · rw [hf] at hb
    injection hb with hb
    subst hb
    rw [he, hr]
    simp

/-- C80: `dump-setting` never panics; it shows a setting exactly if the kind can be told and the file starts with
the layout of that setting. -/
theorem dump_setting_shows {path : FsPath} {o : Option String} (hv : (Command.dumpSetting path o).Valid) :
    (runMain L n w (.dumpSetting path o)).result ≠ some .panic ∧
    ∀ s, (runMain L n w (.dumpSetting path o)).shown = [.setting s] ↔
      (∃ file, w.file path = some file ∧ guessSettingType path o = .ok (some s.data.kind) ∧ s.Proper ∧
        ∃ pad1 pad2 pad3 ck, PadsFit s pad1 pad2 pad3 ∧ HasAt file 0 (settingLayout s pad1 pad2 pad3 ck)) := by
  by_cases hk : (Command.dumpSetting path o).KindUnknown
  · obtain ⟨h1, -, h2⟩ := kind_unknown_succeeds L n w hv hk
    rw [h1, h2]
    refine ⟨by simp, fun s => ⟨fun h => (by cases h), ?_⟩⟩
    rintro ⟨-, -, hg, -⟩
    rw [(guess_setting_unknown hv).1 hk] at hg
    cases hg
  · obtain ⟨t, ht⟩ := (guess_setting_unknown hv).2 hk
    simp only [runMain, ht]
    rcases dumpSetting_cases (R := L.floats) (w.file path) t with ⟨bs, s', q, hb, hr, he⟩ | ⟨e, he, hn⟩
    · rw [he]
      refine ⟨by simp, fun s => ?_⟩
      obtain ⟨h1, h2, -, h3⟩ := (setting_read_checks_layout_partial ..).1 hr
      constructor
      · intro h
        injection h with h _
        injection h with h
        subst h
        exact ⟨bs, hb, by rw [h2], h1, h3⟩
      · rintro ⟨bs', hb', hg, h4, h5⟩
        rw [hb] at hb'
        injection hb' with hb'
        subst hb'
        injection hg with hg
        injection hg with hg
        have := (setting_read_checks_layout_partial t bs 0 s _).2 ⟨h4, hg.symm, rfl, h5⟩
        rw [hr] at this
        injection this with this
        injection this with this _
        rw [this]
    · rw [he]
      refine ⟨by simp, fun s => ⟨fun h => (by cases h), ?_⟩⟩
      rintro ⟨bs', hb', hg, h4, h5⟩
      injection hg with hg
      injection hg with hg
      have := (setting_read_checks_layout_partial t bs' 0 s _).2 ⟨h4, hg.symm, rfl, h5⟩
      rcases hn with hn | ⟨bs, hb, hr⟩
      · rw [hn] at hb'; cases hb'
      · rw [hb] at hb'
        injection hb' with hb'
        subst hb'
        rw [hr] at this
        cases this

/-- C80: `dump-xml` shows exactly the document that the file holds, and panics if the file holds none. -/
theorem dump_xml_shows {path : FsPath} {file : Bytes} (hf : w.file path = some file) :
    (∀ d, (runMain L n w (.dumpXml path)).shown = [.document d] ↔
      ∃ e, L.xml file = some e ∧ Xml.DocumentIn L.emptyIsNone e d) ∧
    ((runMain L n w (.dumpXml path)).result = some .panic ↔
      ∀ e, L.xml file = some e → ∀ d : Xml.Document L.floats, ¬ Xml.DocumentIn L.emptyIsNone e d) ∧
    (runMain L n w (.dumpXml path)).result ∈ [some (.ok ()), some .panic] := by
  simp only [runMain]
  rcases dumpXml_cases L (w.file path) with ⟨bs, e, d, hb, hx, hd, he⟩ | ⟨hn, he⟩ | ⟨bs, hb, hx, he⟩
  · rw [hf] at hb
    injection hb with hb
    subst hb
    rw [he]
    refine ⟨fun d' => ⟨fun h => ?_, ?_⟩, ⟨fun h => (by cases h), fun h => absurd hd (h e hx d)⟩, by simp⟩
    · injection h with h _
      injection h with h
      subst h
      exact ⟨e, hx, hd⟩
    · rintro ⟨e', hx', hd'⟩
      rw [hx] at hx'
      injection hx' with hx'
      subst hx'
      have h1 := (Xml.read_document_iff _ _ _).2 hd
      rw [(Xml.read_document_iff _ _ _).2 hd'] at h1
      injection h1 with h1
      rw [h1]
  · rw [hf] at hn; cases hn
  · rw [hf] at hb
    injection hb with hb
    subst hb
    rw [he]
    refine ⟨fun d' => ⟨fun h => (by cases h), ?_⟩, ⟨fun _ => hx, fun _ => rfl⟩, by simp⟩
    rintro ⟨e', hx', hd'⟩
    exact absurd hd' (hx e' hx' d')

/-- C80: `dump-pdb` panics exactly if the header of the file can be read and a table that is wanted leads to a page
on which the reader panics or that cannot be shown. -/
theorem dump_pdb_panics_iff {path : FsPath} {o : Option String} {b : Bool} (hv : (Command.dumpPdb path o b).Valid) :
    (runMain L n w (.dumpPdb path o b)).result = some .panic ↔
      ∃ file t d, w.file path = some file ∧ guessDbType path o = .ok (some t) ∧ Database.openAt file 0 t = .ok d ∧
        ∃ x ∈ d.content.header.tables, Wanted b x ∧
          ((∃ l, d.TrailOf x l .panic) ∨ ∃ l r, d.TrailOf x l r ∧ ∃ y ∈ l, ¬ y.2.Showable) := by
  by_cases hk : (Command.dumpPdb path o b).KindUnknown
  · rw [(kind_unknown_succeeds L n w hv hk).2.2]
    refine ⟨fun h => (by cases h), ?_⟩
    rintro ⟨-, t, -, -, hg, -⟩
    rw [(guess_db_unknown hv).1 hk] at hg
    cases hg
  · obtain ⟨t, ht⟩ := (guess_db_unknown hv).2 hk
    simp only [runMain, ht, Option.some.injEq]
    constructor
    · intro h
      obtain ⟨g1, g2⟩ := dump_problem (w.file path) t b
      cases hf : w.file path with
      | none => rw [g1 hf] at h; cases h
      | some bs =>
        cases ho : Database.openAt bs 0 t with
        | ok d =>
          rw [hf] at h
          exact ⟨bs, t, d, rfl, rfl, ho, (dump_panics_iff b ho).1 h⟩
        | err e =>
          obtain ⟨e', -, he⟩ := g2 bs hf (fun d hd => by rw [ho] at hd; cases hd)
          rw [he] at h
          cases h
        | panic => exact absurd ho (open_no_panic _ _ _)
    · rintro ⟨bs, t', d, hf, hg, ho, hx⟩
      injection hg with hg
      injection hg with hg
      subst hg
      rw [hf]
      exact (dump_panics_iff b ho).2 hx

/-- C80: `list-settings` always succeeds and always shows one text. -/
theorem list_settings_succeeds (path : FsPath) :
    (runMain L n w (.listSettings path)).result = some (.ok ()) ∧
      ∃ text, (runMain L n w (.listSettings path)).shown = [.text text] := by
  obtain ⟨_, _, _, _, text, h, -⟩ := list_settings_shows (w.pioneer path)
  simp only [runMain, h]
  exact ⟨trivial, _, rfl⟩

/-! ## Examples -/

/-- A world with one file under two names. -/
def twoNames (p q : FsPath) (bs : Bytes) : World where
  file x := if x = p then some bs else if x = q then some bs else none
  canonical x := x
  works _ _ := true

theorem twoNames_file (p q : FsPath) (bs : Bytes) :
    (twoNames p q bs).file p = some bs ∧ (twoNames p q bs).file q = some bs := by
  simp [twoNames]

/-- The usual name is enough; a copy with another name is silently not shown, and shown if the kind is given. -/
theorem other_name_not_shown (L : Libraries) (n : Nat) {p q : FsPath}
    (g1 : guessSettingType p none = .ok (some .mySetting)) (g2 : guessSettingType q none = .ok none)
    (g3 : guessSettingType q (some "mysetting") = .ok (some .mySetting)) : ∃ bs,
    (runMain L n (twoNames p q bs) (.dumpSetting p none)).shown = [.setting .defaultMySetting] ∧
    (runMain L n (twoNames p q bs) (.dumpSetting q none)).shown = [] ∧
    (runMain L n (twoNames p q bs) (.dumpSetting q none)).result = some (.ok ()) ∧
    (runMain L n (twoNames p q bs) (.dumpSetting q (some "mysetting"))).shown = [.setting .defaultMySetting] := by
  obtain ⟨bs, -, -, h⟩ := setting_roundtrip default_settings_proper.2.2.1
  have hr : Setting.read .mySetting bs 0 = _ := h bs 0 (hasAt_self bs)
  refine ⟨bs, ?_, ?_, ?_, ?_⟩
  · simp only [runMain, g1, (twoNames_file _ _ bs).1, dumpSetting, hr]
  · simp only [runMain, g2, Outcome.silent]
  · simp only [runMain, g2, Outcome.silent]
  · simp only [runMain, g3, (twoNames_file _ _ bs).2, dumpSetting, hr]

example (L : Libraries) (n : Nat) :=
  other_name_not_shown L n (p := "/media/PIONEER/MYSETTING.DAT".toList) (q := "/tmp/copy.dat".toList)
    (by decide +kernel) (by decide +kernel) (by decide +kernel)

/-- `dump-xml` of a file that is not XML. -/
example (L : Libraries) (n : Nat) {p : FsPath} {file : Bytes} (h : L.xml file = none) :
    (runMain L n (twoNames p p file) (.dumpXml p)).result = some .panic :=
  (dump_xml_shows L n (twoNames p p file) (twoNames_file p p file).1).2.1.2 fun e he => by rw [h] at he; cases he

/-- `dump-pdb` of a file with a string that is not UTF-8. -/
example (L : Libraries) (n : Nat) : ∃ file, ∀ p q, guessDbType p none = .ok (some .plain) →
    (runMain L n (twoNames p q file) (.dumpPdb p none false)).result = some .panic := by
  obtain ⟨file, d, ho, hp, -⟩ := dump_panics
  refine ⟨file, fun p q hg => (dump_pdb_panics_iff L n _ (.inl rfl)).2 ⟨file, .plain, d, (twoNames_file p q file).1, hg, ho, ?_⟩⟩
  exact (dump_panics_iff false ho).1 hp

/-- The file that `export-playlists` reads, with and without a separator at the end of the directory. -/
example : (Command.exportPlaylists "/media/usb".toList []).inputs = ["/media/usb/PIONEER/rekordbox/export.pdb".toList] ∧
    (Command.exportPlaylists "/media/usb/".toList []).inputs = ["/media/usb/PIONEER/rekordbox/export.pdb".toList] ∧
    (Command.listSettings []).inputs.head? = some "PIONEER/DEVSETTING.DAT".toList := by decide +kernel

example : FsPath.join "/media/usb".toList "Contents/a.mp3".toList = "/media/usb/Contents/a.mp3".toList :=
  ((join_names _ _).2 (by decide +kernel)).trans (by decide +kernel)

example : FsPath.join "/media/usb".toList "/Contents/a.mp3".toList = "/Contents/a.mp3".toList :=
  (join_names _ _).1 (by decide +kernel)

/-- Without that file `export-playlists` fails, whatever other files there are. -/
example (L : Libraries) (n : Nat) (out : FsPath) (bs : Bytes) :
    (runMain L n (twoNames "/media/usb/PIONEER/rekordbox/exportExt.pdb".toList "/media/usb/export.pdb".toList bs)
      (.exportPlaylists "/media/usb".toList out)).result = some (.err .io) :=
  (missing_file_fails L n _ (c := .exportPlaylists "/media/usb".toList out) trivial (fun h => h)
    (p := "/media/usb/PIONEER/rekordbox/export.pdb".toList) (by simp only [Command.inputs]; decide +kernel)
    (by simp only [twoNames]; rw [if_neg (by decide +kernel), if_neg (by decide +kernel)])).1

example : guessDbType "/media/PIONEER/rekordbox/export.pdb".toList none = .ok (some .plain) := by decide +kernel

end Rekordcrate
