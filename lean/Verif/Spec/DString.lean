import Verif.Spec.Basic
import Verif.Model.DString

/-! # Specification vocabulary for DeviceSQL strings -/

namespace Rekordcrate

/-- The text consists of ASCII characters only. -/
def AsciiText (s : String) : Prop := ∀ c ∈ s.toList, c.toNat < 128

/-- The UTF-16 code units begin with a unit whose low byte is `0x03` (for example U+4E03 '七',
U+0103 'ă', U+0403 'Ѓ'): stored little-endian they begin like an ISRC. -/
def StartsLikeIsrc (us : List UInt16) : Prop := ∃ u rest, us = u :: rest ∧ u.toNat % 256 = 3

/-- Values that user code can hold: made by a constructor or by parsing. -/
inductive DString.Reachable : DString → Prop where
  | new (s : String) (v : DString) (h : DString.new s = .ok v) : Reachable v
  | newIsrc (s : String) (v : DString) (h : DString.newIsrc s = .ok v) : Reachable v
  | parsed (d : Bytes) (p p' : Nat) (v : DString) (h : DString.read d p = .ok (v, p')) : Reachable v

/-- Values that fit their on-disk representation and cannot be mistaken for another one. -/
def DString.Storable : DString → Prop
  | .short c => c.length ≤ 126
  | .long (.ascii c) => c.length ≤ 65531
  | .long (.isrc c) => c.length ≤ 65529 ∧ (0 : UInt8) ∉ c
  | .long (.ucs2le us) => us ≠ [] ∧ us.length ≤ 32765 ∧ ¬ StartsLikeIsrc us

/-- The string was parsed as an ISRC. -/
def DString.IsIsrc : DString → Prop
  | .long (.isrc _) => True
  | _ => False

/-- The two bytes at `p` as a little-endian number. -/
def U16At (d : Bytes) (p : Nat) (n : Nat) : Prop :=
  ∃ lo hi : UInt8, d[p]? = some lo ∧ d[p + 1]? = some hi ∧ n = lo.toNat + 256 * hi.toNat

end Rekordcrate
