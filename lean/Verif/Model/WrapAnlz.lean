import Verif.Model.Wrap
import Verif.Model.Anlz

/-! # Analysis files in a build without overflow checks (`cargo build --release`)

The functions of `src/anlz.rs` that do arithmetic, and what calls them, as in `Verif.Model.Wrap`. -/

namespace Rekordcrate.Anlz

/-- `u32` addition without overflow checks.  Used at `src/anlz.rs` 261, 469, 832 and 836. -/
def addWrap32 (a b : Nat) : Nat := (a + b) % 2 ^ 32

/-- `u32` multiplication without overflow checks.  Used at `src/anlz.rs` 261, 832, 836, 901, 929, 953, 980, 1002
and 1029. -/
def mulWrap32 (a b : Nat) : Nat := a * b % 2 ^ 32

/-- `remaining_size`, `src/anlz.rs` 127-129. -/
def Header.remainingSizeWrap (h : Header) : Nat := subWrap32 h.size.toNat 12

/-- `content_size`, `src/anlz.rs` 131-133. -/
def Header.contentSizeWrap (h : Header) : Nat := subWrap32 h.totalSize.toNat h.size.toNat

namespace WideString

/-- `byte_len`, `src/anlz.rs` 257-263: the count is truncated to `u32`, addition and multiplication wrap. -/
def byteLenWrap (s : WideString) : Nat :=
  if s.val.isEmpty then 0 else mulWrap32 (addWrap32 ((encodeUtf16 s.val).length % 2 ^ 32) 1) 2

/-- `write_options`, `src/anlz.rs` 318-335. -/
def encWrap (s : WideString) : Bytes :=
  if s.byteLenWrap > 0 then
    encU32be (UInt32.ofNat s.byteLenWrap) ++ ((encodeUtf16 s.val).flatMap encU16be ++ [0, 0])
  else encU32be (UInt32.ofNat s.byteLenWrap)

end WideString

namespace ExtendedCue

/-- Derived `BinWrite`, `src/anlz.rs` 339-471. -/
def encWrap (c : ExtendedCue) : Bytes := c.front ++ (c.comment.encWrap ++ c.back)

/-- The count of `trailing`, `src/anlz.rs` 469: `68 + byte_len` wraps, the subtraction saturates. -/
def trailingLenWrap (header : Header) (comment : WideString) : Nat :=
  header.totalSize.toNat - addWrap32 68 comment.byteLenWrap

/-- Derived `BinRead`, `src/anlz.rs` 339-471. -/
def readWrap : Rd ExtendedCue := do
  let header ← Header.read
  let hotCue ← Rd.u32be
  let cueType ← CueType.read
  let unknown1 ← Rd.u8
  let unknown2 ← Rd.u16be
  let time ← Rd.u32be
  let loopTime ← Rd.u32be
  let color ← ColorIndex.read
  let unknown3 ← Rd.u8
  let unknown4 ← Rd.u16be
  let unknown5 ← Rd.u32be
  let loopNumerator ← Rd.u16be
  let loopDenominator ← Rd.u16be
  let comment ← WideString.read
  let hotCueColorIndex ← Rd.u8
  let red ← Rd.u8
  let green ← Rd.u8
  let blue ← Rd.u8
  let unknown6 ← Rd.u32be
  let unknown7 ← Rd.u32be
  let unknown8 ← Rd.u32be
  let unknown9 ← Rd.u32be
  let unknown10 ← Rd.u32be
  let trailing ← Rd.bytes (trailingLenWrap header comment)
  pure { header, hotCue, cueType, unknown1, unknown2, time, loopTime, color, unknown3, unknown4, unknown5,
         loopNumerator, loopDenominator, comment, hotCueColorIndex, red, green, blue, unknown6, unknown7,
         unknown8, unknown9, unknown10, trailing }

end ExtendedCue

namespace ExtendedCueList

/-- Derived `BinWrite`, `src/anlz.rs` 807-822; `len() as u16` truncates. -/
def encWrap (c : ExtendedCueList) : Bytes :=
  c.listType.enc ++ (encU16be (UInt16.ofNat c.cues.length) ++ (encU16be c.unknown ++
    c.cues.flatMap ExtendedCue.encWrap))

/-- Derived `BinRead`, `src/anlz.rs` 807-822. -/
def readWrap : Rd ExtendedCueList := do
  let listType ← CueListType.read
  let len ← Rd.u16be
  let unknown ← Rd.u16be
  Rd.require (unknown == 0)
  let cues ← Rd.many ExtendedCue.readWrap len.toNat
  pure { listType, unknown, cues }

end ExtendedCueList

namespace Path

/-- `((path.len() as u32) + 1) * 2`, `src/anlz.rs` 832 and 836. -/
def lenPathWrap (c : Path) : Nat := mulWrap32 (addWrap32 (c.path.length % 2 ^ 32) 1) 2

/-- Derived `BinWrite`, `src/anlz.rs` 825-838. -/
def encWrap (c : Path) : Bytes := encU32be (UInt32.ofNat c.lenPathWrap) ++ encWideUnits c.path

/-- Derived `BinRead`, `src/anlz.rs` 825-838. -/
def readWrap (h : Header) : Rd Path := do
  let len ← Rd.u32be
  Rd.require (len.toNat == h.contentSizeWrap)
  let us ← readWideUnits
  Rd.require (len.toNat == h.contentSizeWrap)
  Rd.require (lenPathWrap ⟨us⟩ == len.toNat)
  pure ⟨us⟩

end Path

namespace Vbr

/-- Derived `BinRead`, `src/anlz.rs` 841-850. -/
def readWrap (h : Header) : Rd Vbr := do
  let unknown1 ← Rd.u32be
  let unknown2 ← Rd.bytes h.contentSizeWrap
  pure { unknown1, unknown2 }

end Vbr

namespace WaveformPreview

/-- Derived `BinRead`, `src/anlz.rs` 853-867. -/
def readWrap (h : Header) : Rd WaveformPreview := do
  let len ← Rd.u32be
  Rd.require (len.toNat == h.contentSizeWrap)
  let unknown ← Rd.u32be
  let data ← Rd.many WaveformPreviewColumn.read len.toNat
  pure { unknown, data }

end WaveformPreview

namespace TinyWaveformPreview

/-- Derived `BinRead`, `src/anlz.rs` 870-884. -/
def readWrap (h : Header) : Rd TinyWaveformPreview := do
  let len ← Rd.u32be
  Rd.require (len.toNat == h.contentSizeWrap)
  let unknown ← Rd.u32be
  let data ← Rd.many TinyWaveformPreviewColumn.read len.toNat
  pure { unknown, data }

end TinyWaveformPreview

/-- The two length fields of the newer waveform sections, `src/anlz.rs` 894-902, 922-930, 946-954, 973-981
and 995-1003. -/
def readEntryLensWrap (h : Header) (entrySize : UInt32) : Rd UInt32 := do
  let lenEntryBytes ← Rd.u32be
  Rd.require (lenEntryBytes == entrySize)
  let lenEntries ← Rd.u32be
  Rd.require (mulWrap32 lenEntryBytes.toNat lenEntries.toNat == h.contentSizeWrap)
  pure lenEntries

namespace WaveformDetail

/-- Derived `BinRead`, `src/anlz.rs` 889-912. -/
def readWrap (h : Header) : Rd WaveformDetail := do
  let len ← readEntryLensWrap h 1
  let unknown ← Rd.u32be
  Rd.require (unknown == 0x00960000)
  let data ← Rd.many WaveformPreviewColumn.read len.toNat
  pure { unknown, data }

end WaveformDetail

namespace WaveformColorPreview

/-- Derived `BinRead`, `src/anlz.rs` 917-936. -/
def readWrap (h : Header) : Rd WaveformColorPreview := do
  let len ← readEntryLensWrap h 6
  let unknown ← Rd.u32be
  let data ← Rd.many WaveformColorPreviewColumn.read len.toNat
  pure { unknown, data }

end WaveformColorPreview

namespace WaveformColorDetail

/-- Derived `BinRead`, `src/anlz.rs` 941-963. -/
def readWrap (h : Header) : Rd WaveformColorDetail := do
  let len ← readEntryLensWrap h 2
  let unknown ← Rd.u32be
  let data ← Rd.many WaveformColorDetailColumn.read len.toNat
  pure { unknown, data }

end WaveformColorDetail

namespace Waveform3BandPreview

/-- Derived `BinRead`, `src/anlz.rs` 968-985. -/
def readWrap (h : Header) : Rd Waveform3BandPreview := do
  let len ← readEntryLensWrap h 3
  let data ← Rd.many Waveform3BandPreviewColumn.read len.toNat
  pure { data }

end Waveform3BandPreview

namespace Waveform3BandDetail

/-- Derived `BinRead`, `src/anlz.rs` 990-1013. -/
def readWrap (h : Header) : Rd Waveform3BandDetail := do
  let len ← readEntryLensWrap h 3
  let unknown ← Rd.u32be
  Rd.require (unknown == 0x00960000)
  let data ← Rd.many Waveform3BandDetailColumn.read len.toNat
  pure { unknown, data }

end Waveform3BandDetail

namespace SongStructureData

/-- The bytes that the iterator of `get_key` produces, `src/anlz.rs` 1078-1083: a wrapping `u16` addition. -/
def getKeyWrap (lenEntries : UInt16) (bs : Bytes) : Bytes :=
  bs.map fun x => UInt8.ofNat (addWrap16 x.toNat lenEntries.toNat % 256)

/-- `check_if_encrypted`, `src/anlz.rs` 1088-1096. -/
def checkIfEncryptedWrap (rawMood : Bytes) (lenEntries : UInt16) : Res Bool :=
  match Mood.read (List.zipWith (fun a b => a ^^^ b) rawMood (getKeyWrap lenEntries (keyData.take 2))) 0 with
  | .ok _ => .ok true
  | .err _ => .ok false
  | .panic => .panic

/-- `read_encrypted`, `src/anlz.rs` 1100-1112. -/
def readEncryptedWrap (isEncrypted : Bool) (lenEntries : UInt16) : Rd SongStructureData := fun d p =>
  if isEncrypted then read lenEntries (decipher (getKeyWrap lenEntries keyData) p d) p
  else read lenEntries d p

/-- `write_encrypted`, `src/anlz.rs` 1116-1129. -/
def encEncryptedWrap (c : SongStructureData) (isEncrypted : Bool) (lenEntries : UInt16) : Bytes :=
  if isEncrypted then XorStream.xorBuf (XorStream.withKey [] 0 (getKeyWrap lenEntries keyData)).key 0 c.enc
  else c.enc

end SongStructureData

namespace SongStructure

/-- Derived `BinWrite`, `src/anlz.rs` 1018-1042; `len() as u16` truncates. -/
def encWrap (c : SongStructure) : Bytes :=
  encU32be 24 ++ (encU16be (UInt16.ofNat c.data.phrases.length) ++
    c.data.encEncryptedWrap c.isEncrypted (UInt16.ofNat c.data.phrases.length))

/-- Derived `BinRead`, `src/anlz.rs` 1018-1042. -/
def readWrap (h : Header) : Rd SongStructure := do
  let lenEntryBytes ← Rd.u32be
  Rd.require (lenEntryBytes == 24)
  let lenEntries ← Rd.u16be
  Rd.require (mulWrap32 lenEntryBytes.toNat lenEntries.toNat == h.contentSizeWrap)
  let isEncrypted ← Rd.restore (do
    let rawMood ← Rd.bytes 2
    Rd.lift (SongStructureData.checkIfEncryptedWrap rawMood lenEntries))
  let data ← SongStructureData.readEncryptedWrap isEncrypted lenEntries
  pure { isEncrypted, data }

end SongStructure

namespace Unknown

/-- Derived `BinRead`, `src/anlz.rs` 1133-1143. -/
def readWrap (h : Header) : Rd Unknown := do
  let headerData ← Rd.bytes h.remainingSizeWrap
  let contentData ← Rd.bytes h.contentSizeWrap
  pure { headerData, contentData }

end Unknown

namespace Content

/-- Derived `BinWrite`, `src/anlz.rs` 699-763. -/
def encWrap : Content → Bytes
  | beatGrid c => c.enc
  | cueList c => c.enc
  | extendedCueList c => c.encWrap
  | path c => c.encWrap
  | vbr c => c.enc
  | waveformPreview c => c.enc
  | tinyWaveformPreview c => c.enc
  | waveformDetail c => c.enc
  | waveformColorPreview c => c.enc
  | waveformColorDetail c => c.enc
  | waveform3BandPreview c => c.enc
  | waveform3BandDetail c => c.enc
  | songStructure c => c.encWrap
  | unknown c => c.enc

/-- Derived `BinRead`, `src/anlz.rs` 699-763: the variants in declaration order. -/
def readWrap (h : Header) : Rd Content :=
  Rd.orElse (variant (h.kind == .beatGrid) BeatGrid.read .beatGrid)
  (Rd.orElse (variant (h.kind == .cueList) CueList.read .cueList)
  (Rd.orElse (variant (h.kind == .extendedCueList) ExtendedCueList.readWrap .extendedCueList)
  (Rd.orElse (variant (h.kind == .path) (Path.readWrap h) .path)
  (Rd.orElse (variant (h.kind == .vbr) (Vbr.readWrap h) .vbr)
  (Rd.orElse (variant (h.kind == .waveformPreview) (WaveformPreview.readWrap h) .waveformPreview)
  (Rd.orElse (variant (h.kind == .tinyWaveformPreview) (TinyWaveformPreview.readWrap h) .tinyWaveformPreview)
  (Rd.orElse (variant (h.kind == .waveformDetail) (WaveformDetail.readWrap h) .waveformDetail)
  (Rd.orElse (variant (h.kind == .waveformColorPreview) (WaveformColorPreview.readWrap h) .waveformColorPreview)
  (Rd.orElse (variant (h.kind == .waveformColorDetail) (WaveformColorDetail.readWrap h) .waveformColorDetail)
  (Rd.orElse (variant (h.kind == .waveform3BandPreview) (Waveform3BandPreview.readWrap h) .waveform3BandPreview)
  (Rd.orElse (variant (h.kind == .waveform3BandDetail) (Waveform3BandDetail.readWrap h) .waveform3BandDetail)
  (Rd.orElse (variant (h.kind == .songStructure) (SongStructure.readWrap h) .songStructure)
  (variant h.kind.isUnknown (Unknown.readWrap h) .unknown)))))))))))))

end Content

namespace AnlzSection

/-- Derived `BinWrite`, `src/anlz.rs` 1146-1154. -/
def encWrap (s : AnlzSection) : Bytes := s.header.enc ++ s.content.encWrap

/-- Derived `BinRead`, `src/anlz.rs` 1146-1154. -/
def readWrap : Rd AnlzSection := do
  let header ← Header.read
  let content ← Content.readWrap header
  pure { header, content }

end AnlzSection

end Rekordcrate.Anlz
