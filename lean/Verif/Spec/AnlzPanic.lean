import Verif.Spec.AnlzFile

/-! # Specification: which analysis files make the parser panic -/

namespace Rekordcrate.Anlz

/-- The section is said to be shorter than its header. -/
def Header.Short (h : Header) : Prop := h.totalSize.toNat < h.size.toNat

/-- A section at `p` with entries of `e` bytes: the two length fields behind the header are there, the first
one is `e`, and the product does not fit in 32 bits or the section is said to be shorter than its header. -/
def BadEntries (d : Bytes) (p : Nat) (h : Header) (e : Nat) : Prop :=
  U32BeAt d (p + 12) e ∧ ∃ n, U32BeAt d (p + 16) n ∧ (2 ^ 32 ≤ e * n ∨ h.Short)

/-- The bytes of a mood at `p` are those of an encrypted song structure with `n` phrases: xored with the first
two bytes of the key they are 1, 2 or 3. -/
def EncryptedMoodAt (d : Bytes) (p n : Nat) : Prop :=
  ∃ m : UInt8, (m = 1 ∨ m = 2 ∨ m = 3) ∧ ByteAt d p (UInt8.ofNat (203 + n)) ∧
    ByteAt d (p + 1) (m ^^^ UInt8.ofNat (225 + n))

/-- A song structure at `p`: the length fields are there and the entry size is 24; either the section is said
to be shorter than its header, or the sizes agree, there is a mood, and the number of phrases added to one of
the bytes of the key that are needed does not fit in 16 bits. -/
def BadSong (d : Bytes) (p : Nat) (h : Header) : Prop :=
  U32BeAt d (p + 12) 24 ∧ ∃ n, U16BeAt d (p + 16) n ∧
    (h.Short ∨ h.totalSize.toNat = h.size.toNat + 24 * n ∧ p + 20 ≤ d.length ∧
      (65311 ≤ n ∨ 65286 ≤ n ∧ EncryptedMoodAt d (p + 18) n))

/-- The section with header `h` at `p` makes the parser panic. -/
def BadSection (d : Bytes) (p : Nat) (h : Header) : Prop :=
  match h.kind with
  | .path | .vbr | .waveformPreview | .tinyWaveformPreview => p + 16 ≤ d.length ∧ h.Short
  | .waveformDetail => BadEntries d p h 1
  | .waveformColorPreview => BadEntries d p h 6
  | .waveformColorDetail => BadEntries d p h 2
  | .waveform3BandPreview => BadEntries d p h 3
  | .waveform3BandDetail => BadEntries d p h 3
  | .songStructure => BadSong d p h
  | .unknown _ _ _ _ => h.size.toNat < 12 ∨ p + h.size.toNat ≤ d.length ∧ h.Short
  | _ => False

/-- Sections that can be read lead from `p` to `q`, all of them starting before `fin`. -/
inductive SectionsTo (fin : Nat) (d : Bytes) : Nat → Nat → Prop where
  | here (p : Nat) : SectionsTo fin d p p
  | step {p q r : Nat} {s : AnlzSection} (h : p < fin) (hs : AnlzSection.read d p = .ok (s, q))
      (ht : SectionsTo fin d q r) : SectionsTo fin d p r

end Rekordcrate.Anlz
