import Verif.Spec.AnlzFile
import Verif.Model.WrapAnlzFile

/-! # Specification vocabulary for analysis files in a build without overflow checks -/

namespace Rekordcrate.Anlz

/-- The two sizes of a header differ by `n` bytes, as far as 32 bits can tell. -/
def Header.LeavesModulo (h : Header) (n : Nat) : Prop := h.totalSize.toNat = (h.size.toNat + n) % 2 ^ 32

/-- A content matches a section header as far as 32 bits can tell: as `Content.Consistent`, except that sizes
are compared modulo `2 ^ 32`, and that any number of phrases that fits in its field will do. -/
def Content.MatchesModulo (h : Header) : Content → Prop
  | beatGrid c => h.kind = .beatGrid ∧ c.beats.length < 2 ^ 32
  | cueList c => h.kind = .cueList ∧ c.cues.length < 2 ^ 16 ∧ ∀ x ∈ c.cues, x.header.kind.Proper
  | extendedCueList c => h.kind = .extendedCueList ∧ c.cues.length < 2 ^ 16 ∧ c.unknown = 0
  | path c => h.kind = .path ∧ (0 : UInt16) ∉ c.path ∧ h.LeavesModulo (2 * (c.path.length + 1))
  | vbr c => h.kind = .vbr ∧ c.unknown2.length < 2 ^ 32 ∧ h.LeavesModulo c.unknown2.length
  | waveformPreview c => h.kind = .waveformPreview ∧ c.data.length < 2 ^ 32 ∧ h.LeavesModulo c.data.length
  | tinyWaveformPreview c => h.kind = .tinyWaveformPreview ∧ c.data.length < 2 ^ 32 ∧ h.LeavesModulo c.data.length
  | waveformDetail c => h.kind = .waveformDetail ∧ c.unknown = 0x00960000 ∧ c.data.length < 2 ^ 32 ∧
      h.LeavesModulo c.data.length
  | waveformColorPreview c => h.kind = .waveformColorPreview ∧ c.data.length < 2 ^ 32 ∧
      h.LeavesModulo (6 * c.data.length)
  | waveformColorDetail c => h.kind = .waveformColorDetail ∧ c.data.length < 2 ^ 32 ∧
      h.LeavesModulo (2 * c.data.length)
  | waveform3BandPreview c => h.kind = .waveform3BandPreview ∧ c.data.length < 2 ^ 32 ∧
      h.LeavesModulo (3 * c.data.length)
  | waveform3BandDetail c => h.kind = .waveform3BandDetail ∧ c.unknown = 0x00960000 ∧ c.data.length < 2 ^ 32 ∧
      h.LeavesModulo (3 * c.data.length)
  | songStructure c => h.kind = .songStructure ∧ c.data.phrases.length < 2 ^ 16 ∧
      h.LeavesModulo (24 * c.data.phrases.length)
  | unknown c => h.kind.isUnknown = true ∧ h.kind.Proper ∧ c.headerData.length < 2 ^ 32 ∧
      h.size.toNat = (12 + c.headerData.length) % 2 ^ 32 ∧ c.contentData.length < 2 ^ 32 ∧
      h.LeavesModulo c.contentData.length

/-- A section whose content matches its header as far as 32 bits can tell. -/
def AnlzSection.MatchesModulo (s : AnlzSection) : Prop := s.content.MatchesModulo s.header

/-- The bytes `bs` hold this content, for a build without overflow checks: they are the bytes that the writer
produces, except that the comments of extended cues may be stored in other ways. -/
def Content.HeldByWrap (bs : Bytes) : Content → Prop
  | extendedCueList c => ∃ raws inner, ExtendedCue.HeldBy c.cues raws inner ∧ bs = c.bytesWith inner
  | c => bs = c.encWrap

/-- The bytes `bs` hold this section, for a build without overflow checks. -/
def AnlzSection.HeldByWrap (s : AnlzSection) (bs : Bytes) : Prop :=
  ∃ cb, s.content.HeldByWrap cb ∧ bs = s.header.enc ++ cb

/-- The bytes `bs` hold this list of sections one after the other, in the pieces `parts`. -/
def AnlzSection.ListHeldByWrap (ss : List AnlzSection) (parts : List Bytes) (bs : Bytes) : Prop :=
  parts.length = ss.length ∧ (∀ x ∈ ss.zip parts, x.1.HeldByWrap x.2) ∧ bs = parts.flatten

/-- The bytes `bs` hold this file, for a build without overflow checks. -/
def AnlzFile.HeldByWrap (a : AnlzFile) (bs : Bytes) : Prop :=
  ∃ parts sb, AnlzSection.ListHeldByWrap a.sections parts sb ∧ bs = a.header.enc ++ (a.headerData ++ sb)

end Rekordcrate.Anlz
