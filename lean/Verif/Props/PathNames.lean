import Verif.Spec.PathNames
import Verif.Props.Main

/-! # C61, C80: which file name a path has -/

namespace Rekordcrate

/-- The components that count. -/
private def counted (l : List FsPath) : List FsPath := l.filter fun s => decide (s ≠ [] ∧ s ≠ ['.'])

private theorem counted_append (a b : List FsPath) : counted (a ++ b) = counted a ++ counted b := List.filter_append ..

private theorem fileName_eq (p : FsPath) : p.fileName =
    match (counted p.split).getLast? with
    | none => none
    | some s => if s = ['.', '.'] then none else some s := rfl

private theorem split_trailing {t : FsPath} (h : Trailing t) {f : FsPath} (hf : '/' ∉ f) :
    ∃ rest, FsPath.split (f ++ t) = f :: rest ∧ counted rest = [] := by
  induction h generalizing f with
  | nil => exact ⟨[], by rw [List.append_nil, FsPath.split_name hf], rfl⟩
  | slash _ ih =>
    obtain ⟨rest, h1, h2⟩ := ih (f := []) (by simp)
    rw [List.nil_append] at h1
    refine ⟨[] :: rest, by rw [FsPath.split_append, FsPath.split_name hf, h1]; rfl, ?_⟩
    simpa [counted] using h2
  | dot _ ih =>
    obtain ⟨rest, h1, h2⟩ := ih (f := ['.']) (by decide)
    refine ⟨['.'] :: rest, ?_, ?_⟩
    · rw [FsPath.split_append, FsPath.split_name hf]
      exact congrArg _ h1
    · simpa [counted] using h2

private theorem Trailing.append {t u : FsPath} (h : Trailing t) (h' : Trailing u) : Trailing (t ++ u) := by
  induction h with
  | nil => exact h'
  | slash _ ih => exact .slash ih
  | dot _ ih => exact .dot ih

private theorem last_slash {p : FsPath} (h : '/' ∈ p) : ∃ a b, p = a ++ '/' :: b ∧ '/' ∉ b := by
  induction p with
  | nil => cases h
  | cons c p ih =>
    by_cases hp : '/' ∈ p
    · obtain ⟨a, b, rfl, hb⟩ := ih hp
      exact ⟨c :: a, b, rfl, hb⟩
    · rcases List.mem_cons.1 h with rfl | h
      · exact ⟨[], p, rfl, hp⟩
      · exact absurd h hp

private theorem named_of_fileName (n : Nat) {p f : FsPath} (hn : p.length ≤ n) (h : p.fileName = some f) : NamedBy p f := by
  induction n generalizing p with
  | zero =>
    have : p = [] := List.length_eq_zero_iff.1 (by omega)
    subst this
    cases h
  | succ n ih =>
    obtain ⟨f0, f1, f2, f3⟩ := file_name_is_name h
    by_cases hp : '/' ∈ p
    · obtain ⟨a, b, rfl, hb⟩ := last_slash hp
      rw [fileName_eq, FsPath.split_append, FsPath.split_name hb, counted_append] at h
      by_cases hc : b = [] ∨ b = ['.']
      · have he : counted [b] = [] := by
          rcases hc with rfl | rfl <;> rfl
        rw [he, List.append_nil, ← fileName_eq] at h
        obtain ⟨-, -, -, -, pre, tail, rfl, hpre, ht⟩ := ih (by simp at hn; omega) h
        refine ⟨f0, f1, f2, f3, pre, tail ++ '/' :: b, by simp, hpre, ht.append ?_⟩
        rcases hc with rfl | rfl
        · exact .slash .nil
        · exact .dot .nil
      · have he : counted [b] = [b] := by
          rw [not_or] at hc
          simp [counted, hc.1, hc.2]
        rw [he] at h
        simp only [List.getLast?_append, List.getLast?_singleton, Option.some_or] at h
        split at h
        · cases h
        · injection h with h
          subst h
          exact ⟨f0, f1, f2, f3, a ++ ['/'], [], by simp, .inr ⟨a, rfl⟩, .nil⟩
    · have he : p = f := by
        rw [fileName_eq, FsPath.split_name hp] at h
        have hm : ∀ s, (counted [p]).getLast? = some s → s = p := fun s hs =>
          List.mem_singleton.1 (List.mem_filter.1 (List.mem_of_getLast? hs)).1
        split at h
        · cases h
        · rename_i s hs
          split at h
          · cases h
          · injection h with h
            rw [← h, hm s hs]
      exact ⟨f0, f1, f2, f3, [], [], by simp [he], .inl rfl, .nil⟩

/-- C61: which file name a path has, exactly. -/
theorem file_name_iff (p f : FsPath) : p.fileName = some f ↔ NamedBy p f := by
  refine ⟨named_of_fileName p.length (Nat.le_refl _), ?_⟩
  rintro ⟨f0, f1, f2, f3, pre, tail, rfl, hpre, ht⟩
  obtain ⟨rest, h1, h2⟩ := split_trailing ht f1
  have f2 : f ≠ ['.'] := f2
  have f3 : f ≠ ['.', '.'] := f3
  have hc : counted (FsPath.split (f ++ tail)) = [f] := by
    rw [h1]
    show counted ([f] ++ rest) = _
    rw [counted_append, h2]
    simp [counted, f0, f2]
  have hl : (counted (FsPath.split (pre ++ f ++ tail))).getLast? = some f := by
    rcases hpre with rfl | ⟨dir, rfl⟩
    · rw [List.nil_append, hc]; rfl
    · rw [List.append_assoc, List.append_assoc]
      show (counted (FsPath.split (dir ++ '/' :: (f ++ tail)))).getLast? = _
      rw [FsPath.split_append, counted_append, hc]
      simp
  rw [fileName_eq, hl]
  simp [f3]

private theorem no_name {p : FsPath} (h : p.fileName = none) (o : Option String) (ho : o ∈ [none, some "plain", some "ext"]) :
    guessDbType p o = .ok none := by
  simp only [List.mem_cons, List.not_mem_nil, or_false] at ho
  unfold guessDbType
  simp only [h]
  rcases ho with rfl | rfl | rfl <;> rfl

private theorem no_name_setting {p : FsPath} (h : p.fileName = none) (o : Option String)
    (ho : o = none ∨ ∃ x ∈ settingNames, o = some x.2.1) : guessSettingType p o = .ok none := by
  unfold guessSettingType
  simp only [h]
  rcases ho with rfl | ⟨x, hx, rfl⟩
  · rfl
  · simp only [settingNames, List.mem_cons, List.not_mem_nil, or_false] at hx
    rcases hx with rfl | rfl | rfl | rfl <;> rfl

/-- C61: a database whose kind is not given is recognised exactly by its file name. -/
theorem guess_db_type_by_name (p : FsPath) (t : DatabaseType) :
    guessDbType p none = .ok (some t) ↔
      (t = .plain ∧ NamedBy p "export.pdb".toList) ∨ (t = .ext ∧ NamedBy p "exportExt.pdb".toList) := by
  simp only [← file_name_iff]
  cases hf : p.fileName with
  | none =>
    rw [no_name hf none (by simp)]
    simp
  | some f =>
    obtain ⟨-, -, h1, h2, -⟩ := guess_db_type_partial hf
    cases t
    · simp [h1]
    · simp [h2]

/-- C61: a kind of database that is given is used exactly if the path has a file name, and is ignored otherwise. -/
theorem guess_db_type_given (p : FsPath) :
    ((∃ f, NamedBy p f) → guessDbType p (some "plain") = .ok (some .plain) ∧ guessDbType p (some "ext") = .ok (some .ext)) ∧
    ((∀ f, ¬ NamedBy p f) → guessDbType p (some "plain") = .ok none ∧ guessDbType p (some "ext") = .ok none) := by
  simp only [← file_name_iff]
  constructor
  · rintro ⟨f, hf⟩
    exact ⟨(guess_db_type_partial hf).1, (guess_db_type_partial hf).2.1⟩
  · intro h
    have hf : p.fileName = none := by
      cases hf : p.fileName with
      | none => rfl
      | some f => exact absurd hf (h f)
    exact ⟨no_name hf _ (by simp), no_name hf _ (by simp)⟩

/-- C61: a setting whose kind is not given is recognised exactly by its file name. -/
theorem guess_setting_type_by_name (p : FsPath) (t : SettingType) :
    guessSettingType p none = .ok (some t) ↔
      (t = .devSetting ∧ NamedBy p "DEVSETTING.DAT".toList) ∨ (t = .djmMySetting ∧ NamedBy p "DJMMYSETTING.DAT".toList) ∨
      (t = .mySetting ∧ NamedBy p "MYSETTING.DAT".toList) ∨ (t = .mySetting2 ∧ NamedBy p "MYSETTING2.DAT".toList) := by
  simp only [← file_name_iff]
  cases hf : p.fileName with
  | none =>
    rw [no_name_setting hf none (.inl rfl)]
    simp
  | some f =>
    obtain ⟨-, h, -⟩ := guess_setting_type_partial hf
    simp only [settingNames, List.forall_mem_cons] at h
    obtain ⟨h1, h2, h3, h4⟩ := h
    cases t
    · simp [h1]
    · simp [h2]
    · simp [h3]
    · simp [h4]

/-- C61: a kind of setting that is given is used exactly if the path has a file name, and is ignored otherwise. -/
theorem guess_setting_type_given (p : FsPath) :
    ((∃ f, NamedBy p f) → ∀ x ∈ settingNames, guessSettingType p (some x.2.1) = .ok (some x.2.2)) ∧
    ((∀ f, ¬ NamedBy p f) → ∀ x ∈ settingNames, guessSettingType p (some x.2.1) = .ok none) := by
  simp only [← file_name_iff]
  constructor
  · rintro ⟨f, hf⟩
    exact (guess_setting_type_partial hf).1
  · intro h x hx
    have hf : p.fileName = none := by
      cases hf : p.fileName with
      | none => rfl
      | some f => exact absurd hf (h f)
    exact no_name_setting hf _ (.inr ⟨x, hx, rfl⟩)

/-- The file name of a directory with separators and dots behind it. -/
example : FsPath.fileName "/media/usb/./export.pdb/.//".toList = some "export.pdb".toList :=
  (file_name_iff _ _).2 ⟨by decide, by decide, by decide, by decide, "/media/usb/./".toList, "/.//".toList, by decide,
    .inr ⟨"/media/usb/.".toList, by decide⟩, .dot (.slash (.slash .nil))⟩

/-- A name with a separator behind it is recognised; the name of a directory above is not. -/
example : guessDbType "usb/exportExt.pdb/".toList none = .ok (some .ext) :=
  (guess_db_type_by_name _ _).2 (.inr ⟨rfl, by decide, by decide, by decide, by decide, "usb/".toList, "/".toList, by decide,
    .inr ⟨"usb".toList, by decide⟩, .slash .nil⟩)

example : guessSettingType "MYSETTING2.DAT".toList none = .ok (some .mySetting2) :=
  (guess_setting_type_by_name _ _).2 (.inr (.inr (.inr ⟨rfl, by decide, by decide, by decide, by decide, [], [], by decide,
    .inl rfl, .nil⟩)))

/-- A path that has no file name: what is given is ignored. -/
example : guessDbType "export.pdb/..".toList (some "ext") = .ok none :=
  ((guess_db_type_given _).2 fun f h => by
    have := (file_name_iff _ f).2 h
    rw [show FsPath.fileName "export.pdb/..".toList = none by decide +kernel] at this
    cases this).2

example : ∀ x ∈ settingNames, guessSettingType "settings.bak".toList (some x.2.1) = .ok (some x.2.2) :=
  (guess_setting_type_given _).1 ⟨"settings.bak".toList, (file_name_iff _ _).1 (by decide +kernel)⟩

end Rekordcrate
