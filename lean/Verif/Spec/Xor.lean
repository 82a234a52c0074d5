import Verif.Model.Xor

/-!
# Specification for the XOR stream: a plain file

`PlainFile` is what the user thinks of: a file with plain contents and a position.  Operations that
would only be partly completed (reading behind the end) or would leave a gap (writing behind the end)
are outside of the specification: the run is `none`.
-/

namespace Rekordcrate

/-- A file with its (plain) contents and position. -/
structure PlainFile where
  data : Bytes
  pos : Nat
  deriving DecidableEq, Repr

namespace PlainFile
open XorStream (Op Out)

/-- One operation on a plain file. -/
def step (f : PlainFile) : Op → Option (PlainFile × Out)
  | .read n =>
    if f.pos + n ≤ f.data.length then
      some ({ f with pos := f.pos + n }, .data ((f.data.drop f.pos).take n))
    else none
  | .write bs =>
    if f.pos ≤ f.data.length then
      some ({ data := f.data.take f.pos ++ bs ++ f.data.drop (f.pos + bs.length),
              pos := f.pos + bs.length }, .count bs.length)
    else none
  | .seek to =>
    match to.target f.data.length f.pos with
    | .ok n => some ({ f with pos := n }, .pos n)
    | .err e => some (f, .err e)
    | .panic => none

/-- A sequence of operations. -/
def run (f : PlainFile) : List Op → Option (PlainFile × List Out)
  | [] => some (f, [])
  | op :: ops =>
    match f.step op with
    | none => none
    | some (f', o) =>
      match run f' ops with
      | none => none
      | some (f'', os) => some (f'', o :: os)

end PlainFile

/-- The byte of `key` that belongs to file position `p` when the key starts at position `p0`
(also for positions before `p0`).  The empty key stands for "no encryption". -/
def keyByteAt (key : Bytes) (p0 p : Nat) : UInt8 :=
  if key = [] then 0 else key.getD (((p : Int) - p0) % key.length).toNat 0

/-- Position-wise xor of a file image with a repeating key anchored at `p0`. -/
def xorImage (key : Bytes) (p0 : Nat) (img : Bytes) : Bytes :=
  img.mapIdx fun p b => b ^^^ keyByteAt key p0 p

/-- The bytes returned by the reads of a run, in order. -/
def readBytesOf (outs : List XorStream.Out) : Bytes :=
  outs.flatMap fun | .data bs => bs | _ => []

end Rekordcrate
