import Verif.Spec.Basic

/-! # Specification for C107: UTF-16 as defined by the Unicode standard -/

namespace Rekordcrate

/-- These units are the UTF-16 form of these characters: a character below U+10000 is one unit of the same value, any
other character is a high and a low surrogate with ten bits each. -/
inductive IsUtf16 : List Char → List UInt16 → Prop where
  | nil : IsUtf16 [] []
  | unit {c : Char} {u : UInt16} {cs : List Char} {us : List UInt16} (h : u.toNat = c.toNat) (t : IsUtf16 cs us) :
      IsUtf16 (c :: cs) (u :: us)
  | pair {c : Char} {hi lo : UInt16} {cs : List Char} {us : List UInt16} (hhi : 0xD800 ≤ hi.toNat ∧ hi.toNat < 0xDC00)
      (hlo : 0xDC00 ≤ lo.toNat ∧ lo.toNat < 0xE000)
      (h : c.toNat = 0x10000 + (hi.toNat - 0xD800) * 0x400 + (lo.toNat - 0xDC00)) (t : IsUtf16 cs us) :
      IsUtf16 (c :: cs) (hi :: lo :: us)

/-- What is shown for units that need not be UTF-16: as above, and U+FFFD for each surrogate that is not part of a
pair. -/
inductive ShownUtf16 : List UInt16 → List Char → Prop where
  | nil : ShownUtf16 [] []
  | unit {c : Char} {u : UInt16} {cs : List Char} {us : List UInt16} (h : u.toNat = c.toNat) (t : ShownUtf16 us cs) :
      ShownUtf16 (u :: us) (c :: cs)
  | pair {c : Char} {hi lo : UInt16} {cs : List Char} {us : List UInt16} (hhi : 0xD800 ≤ hi.toNat ∧ hi.toNat < 0xDC00)
      (hlo : 0xDC00 ≤ lo.toNat ∧ lo.toNat < 0xE000)
      (h : c.toNat = 0x10000 + (hi.toNat - 0xD800) * 0x400 + (lo.toNat - 0xDC00)) (t : ShownUtf16 us cs) :
      ShownUtf16 (hi :: lo :: us) (c :: cs)
  | high {u : UInt16} {cs : List Char} {us : List UInt16} (h : 0xD800 ≤ u.toNat ∧ u.toNat < 0xDC00)
      (hn : ∀ v, us.head? = some v → ¬ (0xDC00 ≤ v.toNat ∧ v.toNat < 0xE000)) (t : ShownUtf16 us cs) :
      ShownUtf16 (u :: us) ('�' :: cs)
  | low {u : UInt16} {cs : List Char} {us : List UInt16} (h : 0xDC00 ≤ u.toNat ∧ u.toNat < 0xE000)
      (t : ShownUtf16 us cs) : ShownUtf16 (u :: us) ('�' :: cs)

end Rekordcrate
