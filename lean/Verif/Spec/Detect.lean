import Verif.Spec.Crc

/-! # Specification of what a checksum detects -/

namespace Rekordcrate

/-- The bytes as one number, the first byte in the highest place. -/
def bytesNumber : List UInt8 → Nat
  | [] => 0
  | b :: bs => b.toNat * 256 ^ bs.length + bytesNumber bs

/-- The places of the bits in which two sequences of the same length differ, counted from the end. -/
def changedBits (a b : List UInt8) : Finset Nat :=
  (Finset.range (8 * a.length)).filter fun i => (bytesNumber a ^^^ bytesNumber b).testBit i

end Rekordcrate
