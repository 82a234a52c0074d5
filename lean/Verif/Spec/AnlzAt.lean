import Verif.Props.AnlzLayout
import Verif.Props.AnlzSong
import Verif.Spec.WrapAnlz

/-! # Which bytes are which analysis file

Every part of the format is described by where its fields are, without the readers and writers.  The parameter
`checked` tells apart a build with overflow checks (`true`) from a build without (`false`). -/

namespace Rekordcrate.Anlz

/-- These characters stand at `p`, one byte each. -/
def LettersAt (d : Bytes) (p : Nat) (cs : List Char) : Prop :=
  ∀ (i : Nat) c, cs[i]? = some c → ∃ b, ByteAt d (p + i) b ∧ b.toNat = c.toNat

/-- The name of a kind of section stands at `p`.  The kind is unknown exactly if the four bytes are none of the
known names. -/
def Kind.At (d : Bytes) (p : Nat) : Kind → Prop
  | .unknown a b c e => ByteAt d p a ∧ ByteAt d (p + 1) b ∧ ByteAt d (p + 2) c ∧ ByteAt d (p + 3) e ∧
      ∀ k : Kind, k.isUnknown = false → ¬ LettersAt d p (tagOf k)
  | k => LettersAt d p (tagOf k)

/-- A section header stands at `p`, 12 bytes. -/
def Header.At (d : Bytes) (p : Nat) (h : Header) : Prop :=
  h.kind.At d p ∧ U32BeAt d (p + 4) h.size.toNat ∧ U32BeAt d (p + 8) h.totalSize.toNat

/-- A size field `total` counts two parts of `a` and `b` bytes; without overflow checks as far as 32 bits can
tell. -/
def Adds (checked : Bool) (total a b : Nat) : Prop :=
  total = if checked then a + b else (a + b) % 2 ^ 32

/-- The content takes `n` bytes according to the header. -/
def Header.Leaves (checked : Bool) (h : Header) (n : Nat) : Prop := Adds checked h.totalSize.toNat h.size.toNat n

/-! ## Entries -/

/-- A beat stands at `p`, 8 bytes. -/
def Beat.At (d : Bytes) (p : Nat) (x : Beat) : Prop :=
  U16BeAt d p x.beatNumber.toNat ∧ U16BeAt d (p + 2) x.tempo.toNat ∧ U32BeAt d (p + 4) x.time.toNat

/-- A cue stands at `p`, 56 bytes. -/
def Cue.At (d : Bytes) (p : Nat) (c : Cue) : Prop :=
  c.header.At d p ∧ U32BeAt d (p + 12) c.hotCue.toNat ∧ U32BeAt d (p + 16) c.status.toNat ∧
  U32BeAt d (p + 20) c.unknown1.toNat ∧ U16BeAt d (p + 24) c.orderFirst.toNat ∧
  U16BeAt d (p + 26) c.orderLast.toNat ∧ ByteAt d (p + 28) (cueTypeNumber c.cueType) ∧
  ByteAt d (p + 29) c.unknown2 ∧ U16BeAt d (p + 30) c.unknown3.toNat ∧ U32BeAt d (p + 32) c.time.toNat ∧
  U32BeAt d (p + 36) c.loopTime.toNat ∧ U32BeAt d (p + 40) c.unknown4.toNat ∧
  U32BeAt d (p + 44) c.unknown5.toNat ∧ U32BeAt d (p + 48) c.unknown6.toNat ∧ U32BeAt d (p + 52) c.unknown7.toNat

/-- A comment stands at `p` and ends at `q`: a length in bytes, then big-endian UTF-16 of which the NUL characters
at the end do not belong to the comment; an odd byte at the end is skipped. -/
def WideString.At (d : Bytes) (p : Nat) (s : WideString) (q : Nat) : Prop :=
  ∃ raw : Bytes, U32BeAt d p raw.length ∧ HasAt d (p + 4) raw ∧ s.ReadsFrom raw ∧ q = p + 4 + raw.length

/-- The number of trailing bytes of an extended cue: what the total size leaves behind the known fields, nothing
if it is too small.  The size of the known fields is computed from the comment, not from the length that stands in
the file. -/
def ExtendedCue.Trails (checked : Bool) (c : ExtendedCue) : Prop :=
  if checked then 68 + c.comment.byteCount < 2 ^ 32 ∧
    c.trailing.length = c.header.totalSize.toNat - (68 + c.comment.byteCount)
  else c.trailing.length = c.header.totalSize.toNat - (68 + c.comment.byteCount) % 2 ^ 32

/-- An extended cue stands at `p` and ends at `q`; `m` is the end of the comment. -/
def ExtendedCue.At (checked : Bool) (d : Bytes) (p : Nat) (c : ExtendedCue) (q : Nat) : Prop :=
  c.header.At d p ∧ U32BeAt d (p + 12) c.hotCue.toNat ∧ ByteAt d (p + 16) (cueTypeNumber c.cueType) ∧
  ByteAt d (p + 17) c.unknown1 ∧ U16BeAt d (p + 18) c.unknown2.toNat ∧ U32BeAt d (p + 20) c.time.toNat ∧
  U32BeAt d (p + 24) c.loopTime.toNat ∧ ByteAt d (p + 28) (colorNumber c.color) ∧ ByteAt d (p + 29) c.unknown3 ∧
  U16BeAt d (p + 30) c.unknown4.toNat ∧ U32BeAt d (p + 32) c.unknown5.toNat ∧
  U16BeAt d (p + 36) c.loopNumerator.toNat ∧ U16BeAt d (p + 38) c.loopDenominator.toNat ∧
  ∃ m, c.comment.At d (p + 40) m ∧ ByteAt d m c.hotCueColorIndex ∧ ByteAt d (m + 1) c.red ∧
    ByteAt d (m + 2) c.green ∧ ByteAt d (m + 3) c.blue ∧ U32BeAt d (m + 4) c.unknown6.toNat ∧
    U32BeAt d (m + 8) c.unknown7.toNat ∧ U32BeAt d (m + 12) c.unknown8.toNat ∧
    U32BeAt d (m + 16) c.unknown9.toNat ∧ U32BeAt d (m + 20) c.unknown10.toNat ∧ c.Trails checked ∧
    HasAt d (m + 24) c.trailing ∧ q = m + 24 + c.trailing.length

/-- These extended cues stand one behind the other from `p` to `q`. -/
inductive ExtendedCue.ListAt (checked : Bool) (d : Bytes) : Nat → List ExtendedCue → Nat → Prop
  | nil (p : Nat) : ListAt checked d p [] p
  | cons {p m q : Nat} {c : ExtendedCue} {cs : List ExtendedCue} (h : c.At checked d p m)
      (t : ListAt checked d m cs q) : ListAt checked d p (c :: cs) q

/-- A column of the preview or the detailed waveform: height in the five low bits, whiteness above. -/
def WaveformPreviewColumn.At (d : Bytes) (p : Nat) (c : WaveformPreviewColumn) : Prop :=
  ∃ b, ByteAt d p b ∧ b.toNat = c.height.val + 32 * c.whiteness.val

/-- A column of the tiny preview: height in the four high bits. -/
def TinyWaveformPreviewColumn.At (d : Bytes) (p : Nat) (c : TinyWaveformPreviewColumn) : Prop :=
  ∃ b, ByteAt d p b ∧ b.toNat = c.unused.val + 16 * c.height.val

/-- A column of the color preview, 6 bytes. -/
def WaveformColorPreviewColumn.At (d : Bytes) (p : Nat) (c : WaveformColorPreviewColumn) : Prop :=
  ByteAt d p c.unknown1 ∧ ByteAt d (p + 1) c.unknown2 ∧ ByteAt d (p + 2) c.energyBottomHalfFreq ∧
  ByteAt d (p + 3) c.energyBottomThirdFreq ∧ ByteAt d (p + 4) c.energyMidThirdFreq ∧
  ByteAt d (p + 5) c.energyTopThirdFreq

/-- A column of the color detail, a little-endian number of two bytes: red, green and blue in three bits each from
the lowest bit on, five bits of height, two unknown bits. -/
def WaveformColorDetailColumn.At (d : Bytes) (p : Nat) (c : WaveformColorDetailColumn) : Prop :=
  U16At d p (c.red.val + 8 * c.green.val + 64 * c.blue.val + 512 * c.height.val + 16384 * c.unknown.val)

/-- A column of the three band preview, 3 bytes. -/
def Waveform3BandPreviewColumn.At (d : Bytes) (p : Nat) (c : Waveform3BandPreviewColumn) : Prop :=
  ByteAt d p c.energyMidThirdFreq ∧ ByteAt d (p + 1) c.energyTopThirdFreq ∧ ByteAt d (p + 2) c.energyBottomThirdFreq

/-- A column of the three band detail, 3 bytes. -/
def Waveform3BandDetailColumn.At (d : Bytes) (p : Nat) (c : Waveform3BandDetailColumn) : Prop :=
  ByteAt d p c.energyMidThirdFreq ∧ ByteAt d (p + 1) c.energyTopThirdFreq ∧ ByteAt d (p + 2) c.energyBottomThirdFreq

/-- A phrase stands at `p`, 24 bytes. -/
def Phrase.At (d : Bytes) (p : Nat) (x : Phrase) : Prop :=
  U16BeAt d p x.index.toNat ∧ U16BeAt d (p + 2) x.beat.toNat ∧ U16BeAt d (p + 4) x.kind.toNat ∧
  ByteAt d (p + 6) x.unknown1 ∧ ByteAt d (p + 7) x.k1 ∧ ByteAt d (p + 8) x.unknown2 ∧ ByteAt d (p + 9) x.k2 ∧
  ByteAt d (p + 10) x.unknown3 ∧ ByteAt d (p + 11) x.b ∧ U16BeAt d (p + 12) x.beat2.toNat ∧
  U16BeAt d (p + 14) x.beat3.toNat ∧ U16BeAt d (p + 16) x.beat4.toNat ∧ ByteAt d (p + 18) x.unknown4 ∧
  ByteAt d (p + 19) x.k3 ∧ ByteAt d (p + 20) x.unknown5 ∧ ByteAt d (p + 21) x.fill ∧
  U16BeAt d (p + 22) x.beatFill.toNat

/-- The data of a song structure stands at `p`, with as many phrases as it has. -/
def SongStructureData.At (d : Bytes) (p : Nat) (c : SongStructureData) : Prop :=
  U16BeAt d p (moodNumber c.mood) ∧ U32BeAt d (p + 2) c.unknown1.toNat ∧ U16BeAt d (p + 6) c.unknown2.toNat ∧
  U16BeAt d (p + 8) c.endBeat.toNat ∧ U16BeAt d (p + 10) c.unknown3.toNat ∧
  ByteAt d (p + 12) (bankNumber c.bank) ∧ ByteAt d (p + 13) c.unknown4 ∧
  ∀ (i : Nat) x, c.phrases[i]? = some x → x.At d (p + 14 + 24 * i)

/-- The file with the bytes from `p` on deciphered with the key for `n` phrases. -/
def deciphered (n p : Nat) (d : Bytes) : Bytes :=
  d.mapIdx fun i b => if i < p then b else b ^^^ songKeyByte n (i - p)

/-! ## Contents -/

/-- The two length fields of the newer waveforms stand at `p`: the size of an entry and the number of entries; the
header agrees with them. -/
def EntriesAt (checked : Bool) (d : Bytes) (p : Nat) (h : Header) (size n : Nat) : Prop :=
  U32BeAt d p size ∧ U32BeAt d (p + 4) n ∧ h.Leaves checked (size * n)

/-- The content of a section with the header `h` stands at `p` and ends at `q`. -/
def Content.At (checked : Bool) (h : Header) (d : Bytes) (p : Nat) (q : Nat) : Content → Prop
  | beatGrid c => h.kind = .beatGrid ∧ U32BeAt d p c.unknown1.toNat ∧ U32BeAt d (p + 4) c.unknown2.toNat ∧
      U32BeAt d (p + 8) c.beats.length ∧ (∀ (i : Nat) x, c.beats[i]? = some x → x.At d (p + 12 + 8 * i)) ∧
      q = p + 12 + 8 * c.beats.length
  | cueList c => h.kind = .cueList ∧ U32BeAt d p (listTypeNumber c.listType) ∧ U16BeAt d (p + 4) c.unknown.toNat ∧
      U16BeAt d (p + 6) c.cues.length ∧ U32BeAt d (p + 8) c.memoryCount.toNat ∧
      (∀ (i : Nat) x, c.cues[i]? = some x → x.At d (p + 12 + 56 * i)) ∧ q = p + 12 + 56 * c.cues.length
  | extendedCueList c => h.kind = .extendedCueList ∧ U32BeAt d p (listTypeNumber c.listType) ∧
      U16BeAt d (p + 4) c.cues.length ∧ U16BeAt d (p + 6) 0 ∧ c.unknown = 0 ∧
      ExtendedCue.ListAt checked d (p + 8) c.cues q
  | path c => h.kind = .path ∧
      (∃ n, U32BeAt d p n ∧ h.Leaves checked n ∧
        n = if checked then 2 * (c.path.length % 2 ^ 32 + 1) else 2 * (c.path.length + 1) % 2 ^ 32) ∧
      (∀ (i : Nat) u, c.path[i]? = some u → u ≠ 0 ∧ U16BeAt d (p + 4 + 2 * i) u.toNat) ∧
      U16BeAt d (p + 4 + 2 * c.path.length) 0 ∧ q = p + 4 + 2 * c.path.length + 2
  | vbr c => h.kind = .vbr ∧ U32BeAt d p c.unknown1.toNat ∧ c.unknown2.length < 2 ^ 32 ∧
      h.Leaves checked c.unknown2.length ∧ HasAt d (p + 4) c.unknown2 ∧ q = p + 4 + c.unknown2.length
  | waveformPreview c => h.kind = .waveformPreview ∧ U32BeAt d p c.data.length ∧ h.Leaves checked c.data.length ∧
      U32BeAt d (p + 4) c.unknown.toNat ∧ (∀ (i : Nat) x, c.data[i]? = some x → x.At d (p + 8 + i)) ∧
      q = p + 8 + c.data.length
  | tinyWaveformPreview c => h.kind = .tinyWaveformPreview ∧ U32BeAt d p c.data.length ∧
      h.Leaves checked c.data.length ∧ U32BeAt d (p + 4) c.unknown.toNat ∧
      (∀ (i : Nat) x, c.data[i]? = some x → x.At d (p + 8 + i)) ∧ q = p + 8 + c.data.length
  | waveformDetail c => h.kind = .waveformDetail ∧ EntriesAt checked d p h 1 c.data.length ∧
      U32BeAt d (p + 8) 0x00960000 ∧ c.unknown = 0x00960000 ∧
      (∀ (i : Nat) x, c.data[i]? = some x → x.At d (p + 12 + i)) ∧ q = p + 12 + c.data.length
  | waveformColorPreview c => h.kind = .waveformColorPreview ∧ EntriesAt checked d p h 6 c.data.length ∧
      U32BeAt d (p + 8) c.unknown.toNat ∧ (∀ (i : Nat) x, c.data[i]? = some x → x.At d (p + 12 + 6 * i)) ∧
      q = p + 12 + 6 * c.data.length
  | waveformColorDetail c => h.kind = .waveformColorDetail ∧ EntriesAt checked d p h 2 c.data.length ∧
      U32BeAt d (p + 8) c.unknown.toNat ∧ (∀ (i : Nat) x, c.data[i]? = some x → x.At d (p + 12 + 2 * i)) ∧
      q = p + 12 + 2 * c.data.length
  | waveform3BandPreview c => h.kind = .waveform3BandPreview ∧ EntriesAt checked d p h 3 c.data.length ∧
      (∀ (i : Nat) x, c.data[i]? = some x → x.At d (p + 8 + 3 * i)) ∧ q = p + 8 + 3 * c.data.length
  | waveform3BandDetail c => h.kind = .waveform3BandDetail ∧ EntriesAt checked d p h 3 c.data.length ∧
      U32BeAt d (p + 8) 0x00960000 ∧ c.unknown = 0x00960000 ∧
      (∀ (i : Nat) x, c.data[i]? = some x → x.At d (p + 12 + 3 * i)) ∧ q = p + 12 + 3 * c.data.length
  | songStructure c => h.kind = .songStructure ∧ U32BeAt d p 24 ∧ U16BeAt d (p + 4) c.data.phrases.length ∧
      h.Leaves checked (24 * c.data.phrases.length) ∧
      (checked = true → c.data.phrases.length < if c.isEncrypted then 65286 else 65311) ∧
      c.data.At (if c.isEncrypted then deciphered c.data.phrases.length (p + 6) d else d) (p + 6) ∧
      q = p + 20 + 24 * c.data.phrases.length
  | unknown c => h.kind.isUnknown = true ∧ c.headerData.length < 2 ^ 32 ∧
      Adds checked h.size.toNat 12 c.headerData.length ∧ c.contentData.length < 2 ^ 32 ∧
      h.Leaves checked c.contentData.length ∧ HasAt d p c.headerData ∧
      HasAt d (p + c.headerData.length) c.contentData ∧ q = p + c.headerData.length + c.contentData.length

/-! ## Sections and files -/

/-- A section stands at `p` and ends at `q`. -/
def AnlzSection.At (checked : Bool) (d : Bytes) (p : Nat) (s : AnlzSection) (q : Nat) : Prop :=
  s.header.At d p ∧ s.content.At checked s.header d (p + 12) q

/-- These sections stand one behind the other from `p` to `q`; a section begins before `fin`, and the last one ends
at `fin` or behind it. -/
inductive AnlzSection.ListAt (checked : Bool) (d : Bytes) (fin : Nat) : Nat → List AnlzSection → Nat → Prop
  | nil {p : Nat} (hp : fin ≤ p) : ListAt checked d fin p [] p
  | cons {p m q : Nat} {s : AnlzSection} {ss : List AnlzSection} (hp : p < fin) (h : s.At checked d p m)
      (t : ListAt checked d fin m ss q) : ListAt checked d fin p (s :: ss) q

/-- An analysis file stands at `p` and ends at `q`. -/
def AnlzFile.At (checked : Bool) (d : Bytes) (p : Nat) (a : AnlzFile) (q : Nat) : Prop :=
  a.header.At d p ∧ a.header.kind = .file ∧ a.headerData.length < 2 ^ 32 ∧
  Adds checked a.header.size.toNat 12 a.headerData.length ∧ HasAt d (p + 12) a.headerData ∧
  ∃ n, n < 2 ^ 32 ∧ a.header.Leaves checked n ∧
    AnlzSection.ListAt checked d (p + 12 + a.headerData.length + n) (p + 12 + a.headerData.length) a.sections q

end Rekordcrate.Anlz
