import Verif.Model.Main

/-! # Specification vocabulary for the whole tool -/

namespace Rekordcrate

/-- The kinds on the command line that are let through: `value_parser`, `src/main.rs` 65 and 77. -/
def Command.Valid : Command → Prop
  | .dumpPdb _ o _ => o = none ∨ o = some "plain" ∨ o = some "ext"
  | .dumpSetting _ o => o = none ∨ o = some "devsetting" ∨ o = some "djmmysetting" ∨ o = some "mysetting" ∨
      o = some "mysetting2"
  | _ => True

/-- The kind of file cannot be told: the path does not end in a name, or no kind is given and the name is none of
the documented ones. -/
def Command.KindUnknown : Command → Prop
  | .dumpPdb path o _ => path.fileName = none ∨ o = none ∧ ∀ f, path.fileName = some f →
      f ≠ "export.pdb".toList ∧ f ≠ "exportExt.pdb".toList
  | .dumpSetting path o => path.fileName = none ∨ o = none ∧ ∀ f, path.fileName = some f →
      f ≠ "DEVSETTING.DAT".toList ∧ f ≠ "DJMMYSETTING.DAT".toList ∧ f ≠ "MYSETTING.DAT".toList ∧
      f ≠ "MYSETTING2.DAT".toList
  | _ => False

/-- The command shows the content of a file. -/
def Command.IsDump : Command → Prop
  | .dumpPdb .. | .dumpAnlz .. | .dumpSetting .. | .dumpXml .. => True
  | _ => False

/-- The file `rel` below the directory `dir`, written with one separator between them.  An empty `dir` is the current
directory. -/
def FsPath.below (dir : FsPath) (rel : String) : FsPath :=
  if dir = [] ∨ dir.getLast? = some '/' then dir ++ rel.toList else dir ++ '/' :: rel.toList

/-- The files that a command is about. -/
def Command.inputs : Command → List FsPath
  | .listPlaylists path | .dumpAnlz path | .dumpPdb path _ _ | .dumpSetting path _ | .dumpXml path => [path]
  | .exportPlaylists path _ => [path.below "PIONEER/rekordbox/export.pdb"]
  | .listSettings path => ["PIONEER/DEVSETTING.DAT", "PIONEER/DJMMYSETTING.DAT", "PIONEER/MYSETTING.DAT",
      "PIONEER/MYSETTING2.DAT"].map path.below

end Rekordcrate
