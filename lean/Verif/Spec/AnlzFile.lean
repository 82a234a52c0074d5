import Verif.Model.AnlzFile
import Verif.Spec.Layout

/-! # Specification vocabulary for whole analysis files -/

namespace Rekordcrate.Anlz

/-- A file that can be stored: the kind of the file header is right, its two sizes count the header data and
the sections, and every section is consistent. -/
structure AnlzFile.Consistent (a : AnlzFile) : Prop where
  kind : a.header.kind = .file
  headerSize : a.header.size.toNat = 12 + a.headerData.length
  sections : ∀ s ∈ a.sections, s.Consistent
  total : a.header.totalSize.toNat = a.header.size.toNat + (a.sections.map AnlzSection.byteCount).sum

/-- The bytes `bs` hold this list of sections one after the other, in the pieces `parts`. -/
def AnlzSection.ListHeldBy (ss : List AnlzSection) (parts : List Bytes) (bs : Bytes) : Prop :=
  parts.length = ss.length ∧ (∀ x ∈ ss.zip parts, x.1.HeldBy x.2) ∧ bs = parts.flatten

/-- The bytes `bs` hold this file. -/
def AnlzFile.HeldBy (a : AnlzFile) (bs : Bytes) : Prop :=
  ∃ parts sb, AnlzSection.ListHeldBy a.sections parts sb ∧ bs = a.header.enc ++ (a.headerData ++ sb)

/-- A section whose bytes hold comments of extended cues. -/
def AnlzSection.HasComments (s : AnlzSection) : Prop := ∃ c, s.content = .extendedCueList c

/-- A section header with this kind and these sizes stands at `p`. -/
structure HeaderAt (d : Bytes) (p : Nat) (h : Header) : Prop where
  kind : HasAt d p h.kind.enc
  size : U32BeAt d (p + 4) h.size.toNat
  totalSize : U32BeAt d (p + 8) h.totalSize.toNat

/-- The kinds whose reader computes the size of the content from the header. -/
def Kind.usesContentSize : Kind → Bool
  | .path | .vbr | .waveformPreview | .tinyWaveformPreview | .waveformDetail | .waveformColorPreview
  | .waveformColorDetail | .waveform3BandPreview | .waveform3BandDetail | .songStructure => true
  | k => k.isUnknown

/-- The size of an entry for the kinds that store it. -/
def Kind.entrySize : Kind → Nat
  | .waveformColorPreview => 6
  | .waveformColorDetail => 2
  | .waveform3BandPreview => 3
  | .waveform3BandDetail => 3
  | _ => 0

/-- What makes the reader of the section at `p` panic. -/
inductive SectionPanicCause (d : Bytes) (p : Nat) (h : Header) : Prop where
  /-- The header of an unknown section is said to be shorter than 12 bytes. -/
  | shortHeader (hk : h.kind.isUnknown = true) (hs : h.size.toNat < 12)
  /-- The section is said to be shorter than its header. -/
  | shortTotal (hk : h.kind.usesContentSize = true) (hs : h.totalSize.toNat < h.size.toNat)
  /-- The number of entries times the size of an entry does not fit in 32 bits. -/
  | manyEntries (n : Nat) (hn : U32BeAt d (p + 16) n) (hs : 2 ^ 32 ≤ h.kind.entrySize * n)
  /-- The number of phrases is too large for the arithmetic of the key. -/
  | manyPhrases (hk : h.kind = .songStructure) (n : Nat) (hn : U16BeAt d (p + 16) n) (hs : 65286 ≤ n)

end Rekordcrate.Anlz
