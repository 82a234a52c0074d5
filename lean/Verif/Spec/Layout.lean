import Verif.Spec.DString

/-! # Specification vocabulary: numbers at file offsets -/

namespace Rekordcrate

/-- The byte at offset `p` is `b`. -/
def ByteAt (d : Bytes) (p : Nat) (b : UInt8) : Prop := d[p]? = some b

/-- The four bytes at `p` as a little-endian number. -/
def U32At (d : Bytes) (p : Nat) (n : Nat) : Prop :=
  ∃ b0 b1 b2 b3 : UInt8, d[p]? = some b0 ∧ d[p + 1]? = some b1 ∧ d[p + 2]? = some b2 ∧
    d[p + 3]? = some b3 ∧ n = b0.toNat + 256 * b1.toNat + 65536 * b2.toNat + 16777216 * b3.toNat

/-- The two bytes at `p` as a big-endian number. -/
def U16BeAt (d : Bytes) (p : Nat) (n : Nat) : Prop :=
  ∃ hi lo : UInt8, d[p]? = some hi ∧ d[p + 1]? = some lo ∧ n = 256 * hi.toNat + lo.toNat

/-- The four bytes at `p` as a big-endian number. -/
def U32BeAt (d : Bytes) (p : Nat) (n : Nat) : Prop :=
  ∃ b3 b2 b1 b0 : UInt8, d[p]? = some b3 ∧ d[p + 1]? = some b2 ∧ d[p + 2]? = some b1 ∧
    d[p + 3]? = some b0 ∧ n = b0.toNat + 256 * b1.toNat + 65536 * b2.toNat + 16777216 * b3.toNat

end Rekordcrate
