import Verif.Model.Anlz

/-! # Specification vocabulary for analysis files -/

namespace Rekordcrate.Anlz

/-- An `Unknown` kind must not have the magic of a known kind: such a value cannot come from a file, and it
would be read back as the known kind. -/
def Kind.Proper (k : Kind) : Prop := k.isUnknown = true → k.enc ∉ Kind.named.map (·.1)

instance (k : Kind) : Decidable k.Proper := by unfold Kind.Proper; infer_instance

/-- The bytes that a comment takes behind its length field: nothing for the empty comment, otherwise two
bytes per UTF-16 unit and two for the terminator. -/
def WideString.byteCount (s : WideString) : Nat :=
  if s.val = "" then 0 else 2 * ((encodeUtf16 s.val).length + 1)

/-- The comment does not end with a NUL character. -/
def WideString.NoTrailingNul (s : WideString) : Prop := s.val.toList.getLast? ≠ some (Char.ofNat 0)

/-- The number of bytes of an extended cue. -/
def ExtendedCue.byteCount (c : ExtendedCue) : Nat := 68 + c.comment.byteCount + c.trailing.length

/-- An extended cue that can be stored: the trailing bytes are those that the total size leaves behind the
known fields. -/
structure ExtendedCue.Consistent (c : ExtendedCue) : Prop where
  kind : c.header.kind.Proper
  comment : c.comment.NoTrailingNul
  size : 68 + c.comment.byteCount < 2 ^ 32
  trailing : c.trailing.length = c.header.totalSize.toNat - (68 + c.comment.byteCount)

/-- The number of bytes of a content. -/
def Content.byteCount : Content → Nat
  | beatGrid c => 12 + 8 * c.beats.length
  | cueList c => 12 + 56 * c.cues.length
  | extendedCueList c => 8 + (c.cues.map ExtendedCue.byteCount).sum
  | path c => 4 + 2 * (c.path.length + 1)
  | vbr c => 4 + c.unknown2.length
  | waveformPreview c => 8 + c.data.length
  | tinyWaveformPreview c => 8 + c.data.length
  | waveformDetail c => 12 + c.data.length
  | waveformColorPreview c => 12 + 6 * c.data.length
  | waveformColorDetail c => 12 + 2 * c.data.length
  | waveform3BandPreview c => 8 + 3 * c.data.length
  | waveform3BandDetail c => 12 + 3 * c.data.length
  | songStructure c => 20 + 24 * c.data.phrases.length
  | unknown c => c.headerData.length + c.contentData.length

/-- A content is consistent with a section header: the kind is that of the content, the sizes in the header
match where the reader looks at them, and the counts fit in their fields. -/
def Content.Consistent (h : Header) : Content → Prop
  | beatGrid c => h.kind = .beatGrid ∧ c.beats.length < 2 ^ 32
  | cueList c => h.kind = .cueList ∧ c.cues.length < 2 ^ 16 ∧ ∀ x ∈ c.cues, x.header.kind.Proper
  | extendedCueList c => h.kind = .extendedCueList ∧ c.cues.length < 2 ^ 16 ∧ c.unknown = 0 ∧
      ∀ x ∈ c.cues, x.Consistent
  | path c => h.kind = .path ∧ (0 : UInt16) ∉ c.path ∧ h.totalSize.toNat = h.size.toNat + 2 * (c.path.length + 1)
  | vbr c => h.kind = .vbr ∧ h.totalSize.toNat = h.size.toNat + c.unknown2.length
  | waveformPreview c => h.kind = .waveformPreview ∧ h.totalSize.toNat = h.size.toNat + c.data.length
  | tinyWaveformPreview c => h.kind = .tinyWaveformPreview ∧ h.totalSize.toNat = h.size.toNat + c.data.length
  | waveformDetail c => h.kind = .waveformDetail ∧ c.unknown = 0x00960000 ∧
      h.totalSize.toNat = h.size.toNat + c.data.length
  | waveformColorPreview c => h.kind = .waveformColorPreview ∧
      h.totalSize.toNat = h.size.toNat + 6 * c.data.length
  | waveformColorDetail c => h.kind = .waveformColorDetail ∧
      h.totalSize.toNat = h.size.toNat + 2 * c.data.length
  | waveform3BandPreview c => h.kind = .waveform3BandPreview ∧
      h.totalSize.toNat = h.size.toNat + 3 * c.data.length
  | waveform3BandDetail c => h.kind = .waveform3BandDetail ∧ c.unknown = 0x00960000 ∧
      h.totalSize.toNat = h.size.toNat + 3 * c.data.length
  | songStructure c => h.kind = .songStructure ∧
      h.totalSize.toNat = h.size.toNat + 24 * c.data.phrases.length ∧
      c.data.phrases.length < if c.isEncrypted then 65286 else 65311
  | unknown c => h.kind.isUnknown = true ∧ h.kind.Proper ∧ h.size.toNat = 12 + c.headerData.length ∧
      h.totalSize.toNat = h.size.toNat + c.contentData.length

/-- A section is consistent. -/
def AnlzSection.Consistent (s : AnlzSection) : Prop := s.content.Consistent s.header

/-- The number of bytes of a section. -/
def AnlzSection.byteCount (s : AnlzSection) : Nat := 12 + s.content.byteCount

/-- The bytes `raw` behind a length field are read as this comment. -/
def WideString.ReadsFrom (s : WideString) (raw : Bytes) : Prop :=
  (raw = [] ∧ s.val = "") ∨ (raw ≠ [] ∧ ∃ t, fromUtf16 (pairUnits raw) = some t ∧ s.val = trimNuls t)

/-- The bytes of a comment as the writer lays them out: UTF-16 and a terminator, nothing for the empty
comment. -/
def WideString.canonical (s : WideString) : Bytes :=
  if s.val = "" then [] else (encodeUtf16 s.val).flatMap encU16be ++ [0, 0]

/-- The bytes of an extended cue with the bytes `raw` for the comment. -/
def ExtendedCue.bytesWith (c : ExtendedCue) (raw : Bytes) : Bytes :=
  c.front ++ ((encU32be (UInt32.ofNat raw.length) ++ raw) ++ c.back)

/-- The bytes `bs` hold this list of extended cues; `raws` are the bytes of the comments. -/
def ExtendedCue.HeldBy (cs : List ExtendedCue) (raws : List Bytes) (bs : Bytes) : Prop :=
  raws.length = cs.length ∧ (∀ x ∈ cs.zip raws, x.1.comment.ReadsFrom x.2 ∧ x.2.length < 2 ^ 32) ∧
  bs = (cs.zip raws).flatMap fun x => x.1.bytesWith x.2

/-- The bytes of an extended cue list with the bytes `cues` of the entries. -/
def ExtendedCueList.bytesWith (c : ExtendedCueList) (cues : Bytes) : Bytes :=
  c.listType.enc ++ (encU16be (UInt16.ofNat c.cues.length) ++ (encU16be c.unknown ++ cues))

/-- The bytes `bs` hold this content.  They are the bytes that the writer produces, except that the comments
of extended cues may be stored in other ways. -/
def Content.HeldBy (bs : Bytes) : Content → Prop
  | extendedCueList c => ∃ raws inner, ExtendedCue.HeldBy c.cues raws inner ∧ bs = c.bytesWith inner
  | c => c.enc = .ok bs

/-- The bytes `bs` hold this section. -/
def AnlzSection.HeldBy (s : AnlzSection) (bs : Bytes) : Prop :=
  ∃ cb, s.content.HeldBy cb ∧ bs = s.header.enc ++ cb

/-- The kind of section that a content belongs to; nothing for unknown contents. -/
def Content.kind? : Content → Option Kind
  | beatGrid _ => some .beatGrid
  | cueList _ => some .cueList
  | extendedCueList _ => some .extendedCueList
  | path _ => some .path
  | vbr _ => some .vbr
  | waveformPreview _ => some .waveformPreview
  | tinyWaveformPreview _ => some .tinyWaveformPreview
  | waveformDetail _ => some .waveformDetail
  | waveformColorPreview _ => some .waveformColorPreview
  | waveformColorDetail _ => some .waveformColorDetail
  | waveform3BandPreview _ => some .waveform3BandPreview
  | waveform3BandDetail _ => some .waveform3BandDetail
  | songStructure _ => some .songStructure
  | unknown _ => none

end Rekordcrate.Anlz
