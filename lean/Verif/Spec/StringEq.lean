import Verif.Spec.DString

/-! # Specification vocabulary for comparing strings -/

namespace Rekordcrate

/-- The four ways in which a text can be stored. -/
inductive StringForm where
  | short | ascii | isrc | wide
  deriving DecidableEq, Repr

/-- How the text of a string is stored. -/
def DString.form : DString → StringForm
  | .short _ => .short
  | .long (.ascii _) => .ascii
  | .long (.isrc _) => .isrc
  | .long (.ucs2le _) => .wide

/-- How a text is meant to be stored: ASCII texts of up to 126 bytes short, other ASCII texts long, all others in
UTF-16. -/
def UsualForm (s : String) : StringForm → Prop
  | .short => AsciiText s ∧ (utf8 s).length ≤ 126
  | .ascii => AsciiText s ∧ 126 < (utf8 s).length
  | .wide => ¬ AsciiText s
  | .isrc => False

/-- What the bytes at `p` say about the form of the string that begins there: an odd byte for short strings, `0x40`
for long ASCII strings, `0x90` for the other two. -/
def FormByte (d : Bytes) (p : Nat) : StringForm → Prop
  | .short => ∃ b, d[p]? = some b ∧ b.toNat % 2 = 1
  | .ascii => d[p]? = some 0x40
  | .isrc => d[p]? = some 0x90 ∧ d[p + 4]? = some 3
  | .wide => d[p]? = some 0x90

end Rekordcrate
