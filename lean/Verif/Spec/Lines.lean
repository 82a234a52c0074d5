import Verif.Spec.Cli

/-! # Specification vocabulary for the text of exported playlists -/

namespace Rekordcrate

/-- The text of a file to which lines were written one after the other, each with a line break behind it. -/
def textOf (lines : List (List Char)) : List Char := lines.flatMap (· ++ ['\n'])

/-- A text read line by line, as players do: lines end at a line break or at the end of the text. -/
def readLines : List Char → List (List Char)
  | [] => []
  | c :: cs =>
    if c = '\n' then [] :: readLines cs
    else match readLines cs with
      | [] => [[c]]
      | l :: ls => (c :: l) :: ls

/-- The text in a file after some requests. -/
def textIn (path : FsPath) (ops : List FsOp) : Option (List Char) := (linesIn path ops).map textOf

end Rekordcrate
