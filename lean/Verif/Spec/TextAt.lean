import Verif.Spec.RowPanic

/-! # Specification vocabulary for the bytes that are read as a DeviceSQL string -/

namespace Rekordcrate

/-- The bytes at `p` are an ISRC: the byte 3, some text and a NUL byte. -/
def IsrcText (d : Bytes) (p : Nat) : Prop :=
  ∃ text : Bytes, (0 : UInt8) ∉ text ∧ HasAt d p ([3] ++ text ++ [0])

/-- The bytes at `p` are a long string of the kind `kind` that declares `n` bytes. -/
def LongHead (d : Bytes) (p : Nat) (kind : UInt8) (n : Nat) : Prop :=
  d[p]? = some kind ∧ U16At d (p + 1) n ∧ d[p + 3]? = some 0

/-- The string `v` is stored at `p` and ends before `q`. The length that a long string declares counts its four bytes of
header and is only known modulo 65536; the length declared by an ISRC is not looked at. Bytes that can be seen as an ISRC
are one. -/
inductive TextAt (d : Bytes) (p : Nat) : DString → Nat → Prop where
  | short (head : UInt8) (text : Bytes) : d[p]? = some head → head.toNat = 2 * (text.length + 1) + 1 →
      HasAt d (p + 1) text → TextAt d p (.short text) (p + 1 + text.length)
  | ascii (n : Nat) (text : Bytes) : LongHead d p 0x40 n → text.length < 65536 → (text.length + 4) % 65536 = n →
      HasAt d (p + 4) text → TextAt d p (.long (.ascii text)) (p + 4 + text.length)
  | isrc (n : Nat) (text : Bytes) : LongHead d p 0x90 n → (0 : UInt8) ∉ text → HasAt d (p + 4) ([3] ++ text ++ [0]) →
      TextAt d p (.long (.isrc text)) (p + 6 + text.length)
  | units (n : Nat) (units : List UInt16) : LongHead d p 0x90 n → ¬ IsrcText d (p + 4) → 2 * units.length < 65536 →
      (2 * units.length + 4) % 65536 = n → HasAt d (p + 4) (units.flatMap encU16) →
      TextAt d p (.long (.ucs2le units)) (p + 4 + 2 * units.length)

end Rekordcrate
