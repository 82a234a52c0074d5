import Mathlib.Algebra.Polynomial.Div
import Mathlib.Data.ZMod.Basic
import Verif.Model.Io

/-! # Specification of CRC-16/XMODEM as a polynomial remainder

The catalogue entry: width 16, polynomial 0x1021, initial value 0, no reflection, no final xor. -/

namespace Rekordcrate

open Polynomial

/-- The polynomial over GF(2) whose coefficient of `X ^ i` is bit `i` of `n`, for `i < k`. -/
noncomputable def bitPoly (k n : Nat) : (ZMod 2)[X] :=
  ∑ i ∈ Finset.range k, if n.testBit i then X ^ i else 0

/-- The polynomial of a byte sequence: the first byte has the highest exponents. -/
noncomputable def bytesPoly : List UInt8 → (ZMod 2)[X]
  | [] => 0
  | b :: bs => bitPoly 8 b.toNat * X ^ (8 * bs.length) + bytesPoly bs

/-- The generator polynomial 0x11021. -/
noncomputable def crcPoly : (ZMod 2)[X] := X ^ 16 + X ^ 12 + X ^ 5 + 1

/-- `c` is the CRC-16/XMODEM of `bs`: the remainder of the message, shifted by 16 bits, on division
by the generator polynomial. -/
def IsCrc16Xmodem (bs : List UInt8) (c : UInt16) : Prop :=
  bitPoly 16 c.toNat = (bytesPoly bs * X ^ 16) %ₘ crcPoly

end Rekordcrate
