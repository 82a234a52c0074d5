import Verif.Model.Io

/-! # Paths (`std::path` on Unix) as far as `src/main.rs` and `src/setting.rs` use them

A path is a sequence of characters.  Simplification: paths that are not valid UTF-8 are left out; the code
treats their file names like unknown names. -/

namespace Rekordcrate

/-- `std::path::Path`.  For instance the arguments at `src/main.rs` 44-52. -/
abbrev FsPath := List Char

/-- `Path::is_absolute`.  Decides what `join` does at `src/main.rs` 228 and 236. -/
def FsPath.isAbsolute : FsPath → Bool
  | '/' :: _ => true
  | _ => false

/-- `Path::join`: an absolute second path replaces the first; otherwise a separator is put between them
unless the first is empty or ends in one.  Used at `src/main.rs` 228, 236 and 247 and `src/device.rs` 53 and 86. -/
def FsPath.join (base p : FsPath) : FsPath :=
  if p.isAbsolute then p
  else match base.getLast? with
    | none => p
    | some c => if c = '/' then base ++ p else base ++ '/' :: p

/-- Splitting at the separator.  Used for `src/main.rs` 347. -/
def FsPath.split : FsPath → List FsPath
  | [] => [[]]
  | c :: cs =>
    if c = '/' then [] :: split cs
    else match split cs with
      | s :: ss => (c :: s) :: ss
      | [] => [[c]]

/-- `Path::file_name`: the last component if it is a name.  Empty components and `.` are skipped; without
components, or if the last one is `..`, there is none.  Used at `src/main.rs` 347 and 386 and `src/setting.rs`
175. -/
def FsPath.fileName (p : FsPath) : Option FsPath :=
  match (p.split.filter fun s => s ≠ [] ∧ s ≠ ['.']).getLast? with
  | none => none
  | some s => if s = ['.', '.'] then none else some s

/-- `str::strip_prefix('/')` and `unwrap_or`, as in `src/main.rs` 247. -/
def stripSlash : List Char → List Char
  | '/' :: cs => cs
  | cs => cs

end Rekordcrate
