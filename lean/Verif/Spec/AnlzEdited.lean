import Verif.Spec.AnlzFile

/-! # Specification vocabulary for analysis files that were changed or made by a program -/

namespace Rekordcrate.Anlz

/-- A section that holds a path of `2 ^ 32` or more UTF-16 units, that is, of at least 8 GiB. -/
def AnlzSection.LongPath (s : AnlzSection) : Prop := ∃ c, s.content = .path c ∧ 2 ^ 32 ≤ c.path.length

/-- The bytes of a content that count as the header of the section: the fields before the entries. -/
def Content.headCount : Content → Nat
  | beatGrid _ | cueList _ | waveformDetail _ | waveformColorPreview _ | waveformColorDetail _
  | waveform3BandDetail _ => 12
  | extendedCueList _ | waveformPreview _ | tinyWaveformPreview _ | waveform3BandPreview _ => 8
  | path _ | vbr _ => 4
  | songStructure _ => 20
  | unknown c => c.headerData.length

/-- Everything about a content that has to hold apart from the sizes in the header of its section: the kind is that
of the content, constant fields have their values, and counts fit in their fields. -/
def Content.Fits (k : Kind) : Content → Prop
  | beatGrid _ => k = .beatGrid
  | cueList c => k = .cueList ∧ c.cues.length < 2 ^ 16 ∧ ∀ x ∈ c.cues, x.header.kind.Proper
  | extendedCueList c => k = .extendedCueList ∧ c.cues.length < 2 ^ 16 ∧ c.unknown = 0 ∧ ∀ x ∈ c.cues, x.Consistent
  | path c => k = .path ∧ (0 : UInt16) ∉ c.path
  | vbr _ => k = .vbr
  | waveformPreview _ => k = .waveformPreview
  | tinyWaveformPreview _ => k = .tinyWaveformPreview
  | waveformDetail c => k = .waveformDetail ∧ c.unknown = 0x00960000
  | waveformColorPreview _ => k = .waveformColorPreview
  | waveformColorDetail _ => k = .waveformColorDetail
  | waveform3BandPreview _ => k = .waveform3BandPreview
  | waveform3BandDetail c => k = .waveform3BandDetail ∧ c.unknown = 0x00960000
  | songStructure c => k = .songStructure ∧ c.data.phrases.length < if c.isEncrypted then 65286 else 65311
  | unknown _ => k.isUnknown = true ∧ k.Proper

/-- The section with the sizes that its content has. -/
def AnlzSection.resized (s : AnlzSection) : AnlzSection where
  header := ⟨s.header.kind, UInt32.ofNat (12 + s.content.headCount), UInt32.ofNat s.byteCount⟩
  content := s.content

/-- The file with the sizes that its sections have. -/
def AnlzFile.resized (a : AnlzFile) : AnlzFile where
  header := ⟨a.header.kind, UInt32.ofNat (12 + a.headerData.length),
    UInt32.ofNat (12 + a.headerData.length + (a.sections.map AnlzSection.byteCount).sum)⟩
  headerData := a.headerData
  sections := a.sections.map AnlzSection.resized

end Rekordcrate.Anlz
