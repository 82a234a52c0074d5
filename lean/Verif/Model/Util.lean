import Verif.Model.Io

/-! # Model of `src/util.rs` (alignment and shared enums) -/

namespace Rekordcrate

/-- `align_by`, `src/util.rs` 197-211.  `is_multiple_of(0)` is only true for zero and `offset % 0`
panics; the addition is a checked `u64` addition. -/
def alignBy (alignment offset : Nat) : Res Nat :=
  if alignment = 0 then (if offset = 0 then .ok offset else .panic)
  else if offset % alignment = 0 then .ok offset
  else
    let r := offset + (alignment - offset % alignment)
    if r < 2 ^ 64 then .ok r else .panic

/-- `ColorIndex`, `src/util.rs` 89-117. -/
inductive ColorIndex where
  | none | pink | red | orange | yellow | green | aqua | blue | purple
  deriving DecidableEq, Repr

/-- Magic values of `ColorIndex`, `src/util.rs` 89-117. -/
def ColorIndex.code : ColorIndex → UInt8
  | none => 0 | pink => 1 | red => 2 | orange => 3 | yellow => 4 | green => 5 | aqua => 6
  | blue => 7 | purple => 8

/-- Variants in declaration order, `src/util.rs` 89-117. -/
def ColorIndex.all : List ColorIndex :=
  [none, pink, red, orange, yellow, green, aqua, blue, purple]

/-- Derived `BinWrite` of `ColorIndex`, `src/util.rs` 87-117. -/
def ColorIndex.enc (c : ColorIndex) : Bytes := encU8 c.code

/-- Derived `BinRead` of `ColorIndex`, `src/util.rs` 87-117. -/
def ColorIndex.read : Rd ColorIndex := Rd.magicEnum (ColorIndex.all.map fun c => (c.enc, c))

/-- `FileType`, `src/util.rs` 122-143. -/
inductive FileType where
  | unknown | mp3 | m4a | flac | wav | aiff
  | other (v : UInt16)
  deriving DecidableEq, Repr

/-- The number written for a file type, `src/util.rs` 122-143. -/
def FileType.code : FileType → UInt16
  | unknown => 0 | mp3 => 1 | m4a => 4 | flac => 5 | wav => 0xb | aiff => 0xc
  | other v => v

/-- Derived `BinWrite` of `FileType`, `src/util.rs` 120-143. -/
def FileType.enc (t : FileType) : Bytes := encU16 t.code

/-- Derived `BinRead` of `FileType`, `src/util.rs` 120-143: the magic variants in order, then
`Other`. -/
def FileType.read : Rd FileType :=
  Rd.orElse
    (Rd.magicEnum ([unknown, mp3, m4a, flac, wav, aiff].map fun t => (t.enc, t)))
    (do let v ← Rd.u16; pure (.other v))

end Rekordcrate
