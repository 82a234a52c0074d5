import Verif.Spec.AnlzAt
import Verif.Spec.AnlzPanic

/-! # Specification: which analysis files of any size make the parser panic

Besides what `BadSection` describes there are two reasons that take more than 4 GiB: a path or a comment that is so
long that its length in bytes does not fit in 32 bits. -/

namespace Rekordcrate.Anlz

/-- A path section at `p`: the length field is there and either the section is said to be shorter than its header,
or the length is the one in the header and there is a string, up to a zero unit, of so many units that twice the
number that is computed for it does not fit in 32 bits. -/
def BadPath (d : Bytes) (p : Nat) (h : Header) : Prop :=
  p + 16 ≤ d.length ∧ (h.Short ∨
    ∃ n, U32BeAt d (p + 12) n ∧ h.totalSize.toNat = h.size.toNat + n ∧
      ∃ us : List UInt16, (∀ (i : Nat) u, us[i]? = some u → u ≠ 0 ∧ U16BeAt d (p + 16 + 2 * i) u.toNat) ∧
        U16BeAt d (p + 16 + 2 * us.length) 0 ∧ 2 ^ 32 ≤ 2 * (us.length % 2 ^ 32 + 1))

/-- An extended cue at `p`: everything up to the trailing bytes is there, but the size of the known fields does not
fit in 32 bits. -/
def LongCue (d : Bytes) (p : Nat) : Prop :=
  ∃ h : Header, h.At d p ∧ (∃ t, ByteAt d (p + 16) (cueTypeNumber t)) ∧ (∃ c, ByteAt d (p + 28) (colorNumber c)) ∧
    ∃ (s : WideString) (m : Nat), s.At d (p + 40) m ∧ m + 24 ≤ d.length ∧ 2 ^ 32 ≤ 68 + s.byteCount

/-- A list of extended cues at `p`: cues that can be read lead to one whose comment is too long. -/
def BadCues (d : Bytes) (p : Nat) : Prop :=
  (∃ t, U32BeAt d (p + 12) (listTypeNumber t)) ∧ U16BeAt d (p + 18) 0 ∧
    ∃ n, U16BeAt d (p + 16) n ∧ ∃ cs q, cs.length < n ∧ ExtendedCue.ListAt true d (p + 20) cs q ∧ LongCue d q

/-- The section with header `h` at `p` makes the parser panic, in a file of any size. -/
def BadSectionAt (d : Bytes) (p : Nat) (h : Header) : Prop :=
  match h.kind with
  | .path => BadPath d p h
  | .extendedCueList => BadCues d p
  | _ => BadSection d p h

/-- Sections lead from `p` to `q`, all of them starting before `fin`. -/
inductive AnlzSection.Lead (fin : Nat) (d : Bytes) : Nat → Nat → Prop where
  | here (p : Nat) : Lead fin d p p
  | step {p q r : Nat} {s : AnlzSection} (h : p < fin) (hs : s.At true d p q) (ht : Lead fin d q r) : Lead fin d p r

end Rekordcrate.Anlz
