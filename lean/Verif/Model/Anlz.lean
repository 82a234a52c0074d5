import Verif.Model.Text
import Verif.Model.Util
import Verif.Model.Xor

/-! # Model of the analysis file sections (`src/anlz.rs` 37-1154)

Everything is big endian: `ANLZ` and `Header` say so, and the sections inherit it from `ANLZ`
(`src/anlz.rs` 1162, 1186).  Memory is not modelled: a length field of 4 GiB makes the code ask for that
much memory in places. -/

namespace Rekordcrate.Anlz

/-- `ContentKind`, `src/anlz.rs` 41-111.  `Unknown` has four arbitrary bytes. -/
inductive Kind where
  | file | beatGrid | cueList | extendedCueList | extendedCue | cue | path | vbr | waveformPreview
  | tinyWaveformPreview | waveformDetail | waveformColorPreview | waveformColorDetail
  | waveform3BandPreview | waveform3BandDetail | songStructure
  | unknown (a b c d : UInt8)
  deriving DecidableEq, Repr

namespace Kind

/-- The variants with a magic, in declaration order, `src/anlz.rs` 43-105. -/
def named : List (Bytes × Kind) :=
  [([0x50, 0x4d, 0x41, 0x49], file), ([0x50, 0x51, 0x54, 0x5a], beatGrid),
    ([0x50, 0x43, 0x4f, 0x42], cueList), ([0x50, 0x43, 0x4f, 0x32], extendedCueList),
    ([0x50, 0x43, 0x50, 0x32], extendedCue), ([0x50, 0x43, 0x50, 0x54], cue),
    ([0x50, 0x50, 0x54, 0x48], path), ([0x50, 0x56, 0x42, 0x52], vbr),
    ([0x50, 0x57, 0x41, 0x56], waveformPreview), ([0x50, 0x57, 0x56, 0x32], tinyWaveformPreview),
    ([0x50, 0x57, 0x56, 0x33], waveformDetail), ([0x50, 0x57, 0x56, 0x34], waveformColorPreview),
    ([0x50, 0x57, 0x56, 0x35], waveformColorDetail), ([0x50, 0x57, 0x56, 0x36], waveform3BandPreview),
    ([0x50, 0x57, 0x56, 0x37], waveform3BandDetail), ([0x50, 0x53, 0x53, 0x49], songStructure)]

/-- Derived `BinWrite`, `src/anlz.rs` 38-111. -/
def enc : Kind → Bytes
  | unknown a b c d => [a, b, c, d]
  | k => ((named.find? fun e => e.2 = k).map (·.1)).getD []

/-- Derived `BinRead`, `src/anlz.rs` 38-111: the magics in order, then any four bytes. -/
def read : Rd Kind :=
  Rd.orElse (Rd.magicEnum named) (do
    let a ← Rd.u8
    let b ← Rd.u8
    let c ← Rd.u8
    let d ← Rd.u8
    pure (.unknown a b c d))

/-- `matches!(kind, ContentKind::Unknown(_))`, `src/anlz.rs` 761. -/
def isUnknown : Kind → Bool
  | unknown .. => true
  | _ => false

end Kind

/-- `Header`, `src/anlz.rs` 117-124. -/
structure Header where
  kind : Kind
  size : UInt32
  totalSize : UInt32
  deriving DecidableEq, Repr

namespace Header

/-- Derived `BinWrite`, `src/anlz.rs` 114-124. -/
def enc (h : Header) : Bytes := h.kind.enc ++ (encU32be h.size ++ encU32be h.totalSize)

/-- Derived `BinRead`, `src/anlz.rs` 114-124. -/
def read : Rd Header := do
  let kind ← Kind.read
  let size ← Rd.u32be
  let totalSize ← Rd.u32be
  pure { kind, size, totalSize }

/-- `remaining_size`, `src/anlz.rs` 127-129. -/
def remainingSize (h : Header) : Res Nat := subU h.size.toNat 12

/-- `content_size`, `src/anlz.rs` 131-133. -/
def contentSize (h : Header) : Res Nat := subU h.totalSize.toNat h.size.toNat

end Header

/-- `Beat`, `src/anlz.rs` 140-147. -/
structure Beat where
  beatNumber : UInt16
  tempo : UInt16
  time : UInt32
  deriving DecidableEq, Repr

namespace Beat

/-- Derived `BinWrite`, `src/anlz.rs` 137-147. -/
def enc (b : Beat) : Bytes := encU16be b.beatNumber ++ (encU16be b.tempo ++ encU32be b.time)

/-- Derived `BinRead`, `src/anlz.rs` 137-147. -/
def read : Rd Beat := do
  let beatNumber ← Rd.u16be
  let tempo ← Rd.u16be
  let time ← Rd.u32be
  pure { beatNumber, tempo, time }

end Beat

/-- `CueListType`, `src/anlz.rs` 153-158. -/
inductive CueListType where
  | memoryCues | hotCues
  deriving DecidableEq, Repr

namespace CueListType

/-- Discriminants, `src/anlz.rs` 155-157. -/
def code : CueListType → UInt32
  | memoryCues => 0
  | hotCues => 1

/-- Derived `BinWrite` with `repr = u32`, `src/anlz.rs` 150-158. -/
def enc (t : CueListType) : Bytes := encU32be t.code

/-- Derived `BinRead` with `repr = u32`, `src/anlz.rs` 150-158. -/
def read : Rd CueListType := do
  let v ← Rd.u32be
  if v = 0 then pure memoryCues
  else if v = 1 then pure hotCues
  else Rd.fail .noVariant

end CueListType

/-- `CueType`, `src/anlz.rs` 164-169. -/
inductive CueType where
  | point | loop
  deriving DecidableEq, Repr

namespace CueType

/-- Discriminants, `src/anlz.rs` 165-168. -/
def code : CueType → UInt8
  | point => 1
  | loop => 2

/-- Derived `BinWrite` with `repr = u8`, `src/anlz.rs` 161-169. -/
def enc (t : CueType) : Bytes := encU8 t.code

/-- Derived `BinRead` with `repr = u8`, `src/anlz.rs` 161-169. -/
def read : Rd CueType := do
  let v ← Rd.u8
  if v = 1 then pure point
  else if v = 2 then pure loop
  else Rd.fail .noVariant

end CueType

/-- `Cue`, `src/anlz.rs` 175-235. -/
structure Cue where
  header : Header
  hotCue : UInt32
  status : UInt32
  unknown1 : UInt32
  orderFirst : UInt16
  orderLast : UInt16
  cueType : CueType
  unknown2 : UInt8
  unknown3 : UInt16
  time : UInt32
  loopTime : UInt32
  unknown4 : UInt32
  unknown5 : UInt32
  unknown6 : UInt32
  unknown7 : UInt32
  deriving DecidableEq, Repr

namespace Cue

/-- Derived `BinWrite`, `src/anlz.rs` 172-235. -/
def enc (c : Cue) : Bytes :=
  c.header.enc ++ (encU32be c.hotCue ++ (encU32be c.status ++ (encU32be c.unknown1 ++
    (encU16be c.orderFirst ++ (encU16be c.orderLast ++ (c.cueType.enc ++ (encU8 c.unknown2 ++
    (encU16be c.unknown3 ++ (encU32be c.time ++ (encU32be c.loopTime ++ (encU32be c.unknown4 ++
    (encU32be c.unknown5 ++ (encU32be c.unknown6 ++ encU32be c.unknown7)))))))))))))

/-- Derived `BinRead`, `src/anlz.rs` 172-235. -/
def read : Rd Cue := do
  let header ← Header.read
  let hotCue ← Rd.u32be
  let status ← Rd.u32be
  let unknown1 ← Rd.u32be
  let orderFirst ← Rd.u16be
  let orderLast ← Rd.u16be
  let cueType ← CueType.read
  let unknown2 ← Rd.u8
  let unknown3 ← Rd.u16be
  let time ← Rd.u32be
  let loopTime ← Rd.u32be
  let unknown4 ← Rd.u32be
  let unknown5 ← Rd.u32be
  let unknown6 ← Rd.u32be
  let unknown7 ← Rd.u32be
  pure { header, hotCue, status, unknown1, orderFirst, orderLast, cueType, unknown2, unknown3, time,
         loopTime, unknown4, unknown5, unknown6, unknown7 }

end Cue

/-! ## Comments -/

/-- `LenPrefixedWideString`, `src/anlz.rs` 250-251. -/
structure WideString where
  val : String
  deriving DecidableEq, Repr

/-- `chunks_exact(2)` mapped with `u16::from_be_bytes`, `src/anlz.rs` 301-304: an odd byte at the end is
dropped. -/
def pairUnits : Bytes → List UInt16
  | a :: b :: rest => UInt16.ofNat (beDec [a, b]) :: pairUnits rest
  | _ => []

/-- `trim_end_matches('\0')`, `src/anlz.rs` 306. -/
def trimNuls (s : String) : String :=
  String.ofList (s.toList.reverse.dropWhile (· == Char.ofNat 0)).reverse

namespace WideString

/-- `byte_len`, `src/anlz.rs` 257-263: the count is truncated to `u32`, addition and multiplication are
checked. -/
def byteLen (s : WideString) : Res Nat :=
  if s.val.isEmpty then .ok 0
  else
    let n := (encodeUtf16 s.val).length % 2 ^ 32 + 1
    if n < 2 ^ 32 then (if n * 2 < 2 ^ 32 then .ok (n * 2) else .panic) else .panic

/-- `write_options`, `src/anlz.rs` 318-335. -/
def enc (s : WideString) : Res Bytes := do
  let bl ← s.byteLen
  if bl > 0 then
    .ok (encU32be (UInt32.ofNat bl) ++ ((encodeUtf16 s.val).flatMap encU16be ++ [0, 0]))
  else .ok (encU32be (UInt32.ofNat bl))

/-- `read_options`, `src/anlz.rs` 289-312. -/
def read : Rd WideString := do
  let len ← Rd.u32be
  if len = 0 then pure ⟨""⟩
  else do
    let bs ← Rd.bytes len.toNat
    match fromUtf16 (pairUnits bs) with
    | some s => pure ⟨trimNuls s⟩
    | none => Rd.fail .encoding

end WideString

/-- `ExtendedCue`, `src/anlz.rs` 342-471. -/
structure ExtendedCue where
  header : Header
  hotCue : UInt32
  cueType : CueType
  unknown1 : UInt8
  unknown2 : UInt16
  time : UInt32
  loopTime : UInt32
  color : ColorIndex
  unknown3 : UInt8
  unknown4 : UInt16
  unknown5 : UInt32
  loopNumerator : UInt16
  loopDenominator : UInt16
  comment : WideString
  hotCueColorIndex : UInt8
  red : UInt8
  green : UInt8
  blue : UInt8
  unknown6 : UInt32
  unknown7 : UInt32
  unknown8 : UInt32
  unknown9 : UInt32
  unknown10 : UInt32
  trailing : Bytes
  deriving DecidableEq, Repr

namespace ExtendedCue

/-- The fields before the comment, `src/anlz.rs` 344-377. -/
def front (c : ExtendedCue) : Bytes :=
  c.header.enc ++ (encU32be c.hotCue ++ (c.cueType.enc ++ (encU8 c.unknown1 ++ (encU16be c.unknown2 ++
    (encU32be c.time ++ (encU32be c.loopTime ++ (c.color.enc ++ (encU8 c.unknown3 ++ (encU16be c.unknown4 ++
    (encU32be c.unknown5 ++ (encU16be c.loopNumerator ++ encU16be c.loopDenominator)))))))))))

/-- The fields behind the comment, `src/anlz.rs` 448-470. -/
def back (c : ExtendedCue) : Bytes :=
  encU8 c.hotCueColorIndex ++ (encU8 c.red ++ (encU8 c.green ++ (encU8 c.blue ++ (encU32be c.unknown6 ++
    (encU32be c.unknown7 ++ (encU32be c.unknown8 ++ (encU32be c.unknown9 ++ (encU32be c.unknown10 ++
    c.trailing))))))))

/-- Derived `BinWrite`, `src/anlz.rs` 339-471. -/
def enc (c : ExtendedCue) : Res Bytes := do
  let comment ← c.comment.enc
  .ok (c.front ++ (comment ++ c.back))

/-- The count of `trailing`, `src/anlz.rs` 469: `68 + byte_len` is a checked addition, the subtraction
saturates. -/
def trailingLen (header : Header) (comment : WideString) : Res Nat := do
  let bl ← comment.byteLen
  if 68 + bl < 2 ^ 32 then .ok (header.totalSize.toNat - (68 + bl)) else .panic

/-- Derived `BinRead`, `src/anlz.rs` 339-471. -/
def read : Rd ExtendedCue := do
  let header ← Header.read
  let hotCue ← Rd.u32be
  let cueType ← CueType.read
  let unknown1 ← Rd.u8
  let unknown2 ← Rd.u16be
  let time ← Rd.u32be
  let loopTime ← Rd.u32be
  let color ← ColorIndex.read
  let unknown3 ← Rd.u8
  let unknown4 ← Rd.u16be
  let unknown5 ← Rd.u32be
  let loopNumerator ← Rd.u16be
  let loopDenominator ← Rd.u16be
  let comment ← WideString.read
  let hotCueColorIndex ← Rd.u8
  let red ← Rd.u8
  let green ← Rd.u8
  let blue ← Rd.u8
  let unknown6 ← Rd.u32be
  let unknown7 ← Rd.u32be
  let unknown8 ← Rd.u32be
  let unknown9 ← Rd.u32be
  let unknown10 ← Rd.u32be
  let n ← Rd.lift (trailingLen header comment)
  let trailing ← Rd.bytes n
  pure { header, hotCue, cueType, unknown1, unknown2, time, loopTime, color, unknown3, unknown4, unknown5,
         loopNumerator, loopDenominator, comment, hotCueColorIndex, red, green, blue, unknown6, unknown7,
         unknown8, unknown9, unknown10, trailing }

end ExtendedCue

/-! ## Waveform columns -/

/-- `WaveformPreviewColumn`, `src/anlz.rs` 483-492.  The generated type stores one byte; here the two
fields are stored and packed by `enc` / unpacked by `read` (`into_bytes` / `from_bytes`). -/
structure WaveformPreviewColumn where
  height : Fin 32
  whiteness : Fin 8
  deriving DecidableEq, Repr

namespace WaveformPreviewColumn

/-- `into_bytes`, `src/anlz.rs` 486: the first field in the low bits. -/
def enc (c : WaveformPreviewColumn) : Bytes :=
  leEnc 1 (packLSB [(5, c.height.val), (3, c.whiteness.val)])

/-- `from_bytes`, `src/anlz.rs` 485. -/
def ofRaw (x : Nat) : WaveformPreviewColumn :=
  match unpackLSB [5, 3] x with
  | [a, b] => ⟨Fin.ofNat 32 a, Fin.ofNat 8 b⟩
  | _ => ⟨0, 0⟩

/-- Derived `BinRead`, `src/anlz.rs` 484-485. -/
def read : Rd WaveformPreviewColumn := do
  let bs ← Rd.bytes 1
  pure (ofRaw (leDec bs))

end WaveformPreviewColumn

/-- `TinyWaveformPreviewColumn`, `src/anlz.rs` 504-513, stored as its fields. -/
structure TinyWaveformPreviewColumn where
  unused : Fin 16
  height : Fin 16
  deriving DecidableEq, Repr

namespace TinyWaveformPreviewColumn

/-- `into_bytes`, `src/anlz.rs` 507. -/
def enc (c : TinyWaveformPreviewColumn) : Bytes :=
  leEnc 1 (packLSB [(4, c.unused.val), (4, c.height.val)])

/-- `from_bytes`, `src/anlz.rs` 506. -/
def ofRaw (x : Nat) : TinyWaveformPreviewColumn :=
  match unpackLSB [4, 4] x with
  | [a, b] => ⟨Fin.ofNat 16 a, Fin.ofNat 16 b⟩
  | _ => ⟨0, 0⟩

/-- Derived `BinRead`, `src/anlz.rs` 505-506. -/
def read : Rd TinyWaveformPreviewColumn := do
  let bs ← Rd.bytes 1
  pure (ofRaw (leDec bs))

end TinyWaveformPreviewColumn

/-- `WaveformColorPreviewColumn`, `src/anlz.rs` 522-535. -/
structure WaveformColorPreviewColumn where
  unknown1 : UInt8
  unknown2 : UInt8
  energyBottomHalfFreq : UInt8
  energyBottomThirdFreq : UInt8
  energyMidThirdFreq : UInt8
  energyTopThirdFreq : UInt8
  deriving DecidableEq, Repr

namespace WaveformColorPreviewColumn

/-- Derived `BinWrite`, `src/anlz.rs` 519-535. -/
def enc (c : WaveformColorPreviewColumn) : Bytes :=
  encU8 c.unknown1 ++ (encU8 c.unknown2 ++ (encU8 c.energyBottomHalfFreq ++ (encU8 c.energyBottomThirdFreq ++
    (encU8 c.energyMidThirdFreq ++ encU8 c.energyTopThirdFreq))))

/-- Derived `BinRead`, `src/anlz.rs` 519-535. -/
def read : Rd WaveformColorPreviewColumn := do
  let unknown1 ← Rd.u8
  let unknown2 ← Rd.u8
  let energyBottomHalfFreq ← Rd.u8
  let energyBottomThirdFreq ← Rd.u8
  let energyMidThirdFreq ← Rd.u8
  let energyTopThirdFreq ← Rd.u8
  pure { unknown1, unknown2, energyBottomHalfFreq, energyBottomThirdFreq, energyMidThirdFreq, energyTopThirdFreq }

end WaveformColorPreviewColumn

/-- `WaveformColorDetailColumn`, `src/anlz.rs` 547-563, stored as its fields. -/
structure WaveformColorDetailColumn where
  red : Fin 8
  green : Fin 8
  blue : Fin 8
  height : Fin 32
  unknown : Fin 4
  deriving DecidableEq, Repr

namespace WaveformColorDetailColumn

/-- `into_bytes`, `src/anlz.rs` 550: two bytes, the first field in the low bits of the first byte. -/
def enc (c : WaveformColorDetailColumn) : Bytes :=
  leEnc 2 (packLSB [(3, c.red.val), (3, c.green.val), (3, c.blue.val), (5, c.height.val), (2, c.unknown.val)])

/-- `from_bytes`, `src/anlz.rs` 549. -/
def ofRaw (x : Nat) : WaveformColorDetailColumn :=
  match unpackLSB [3, 3, 3, 5, 2] x with
  | [a, b, c, d, e] => ⟨Fin.ofNat 8 a, Fin.ofNat 8 b, Fin.ofNat 8 c, Fin.ofNat 32 d, Fin.ofNat 4 e⟩
  | _ => ⟨0, 0, 0, 0, 0⟩

/-- Derived `BinRead`, `src/anlz.rs` 548-549. -/
def read : Rd WaveformColorDetailColumn := do
  let bs ← Rd.bytes 2
  pure (ofRaw (leDec bs))

end WaveformColorDetailColumn

/-- `Waveform3BandPreviewColumn`, `src/anlz.rs` 572-579. -/
structure Waveform3BandPreviewColumn where
  energyMidThirdFreq : UInt8
  energyTopThirdFreq : UInt8
  energyBottomThirdFreq : UInt8
  deriving DecidableEq, Repr

namespace Waveform3BandPreviewColumn

/-- Derived `BinWrite`, `src/anlz.rs` 569-579. -/
def enc (c : Waveform3BandPreviewColumn) : Bytes :=
  encU8 c.energyMidThirdFreq ++ (encU8 c.energyTopThirdFreq ++ encU8 c.energyBottomThirdFreq)

/-- Derived `BinRead`, `src/anlz.rs` 569-579. -/
def read : Rd Waveform3BandPreviewColumn := do
  let energyMidThirdFreq ← Rd.u8
  let energyTopThirdFreq ← Rd.u8
  let energyBottomThirdFreq ← Rd.u8
  pure { energyMidThirdFreq, energyTopThirdFreq, energyBottomThirdFreq }

end Waveform3BandPreviewColumn

/-- `Waveform3BandDetailColumn`, `src/anlz.rs` 588-595. -/
structure Waveform3BandDetailColumn where
  energyMidThirdFreq : UInt8
  energyTopThirdFreq : UInt8
  energyBottomThirdFreq : UInt8
  deriving DecidableEq, Repr

namespace Waveform3BandDetailColumn

/-- Derived `BinWrite`, `src/anlz.rs` 585-595. -/
def enc (c : Waveform3BandDetailColumn) : Bytes :=
  encU8 c.energyMidThirdFreq ++ (encU8 c.energyTopThirdFreq ++ encU8 c.energyBottomThirdFreq)

/-- Derived `BinRead`, `src/anlz.rs` 585-595. -/
def read : Rd Waveform3BandDetailColumn := do
  let energyMidThirdFreq ← Rd.u8
  let energyTopThirdFreq ← Rd.u8
  let energyBottomThirdFreq ← Rd.u8
  pure { energyMidThirdFreq, energyTopThirdFreq, energyBottomThirdFreq }

end Waveform3BandDetailColumn

/-! ## Phrases -/

/-- `Mood`, `src/anlz.rs` 602-615. -/
inductive Mood where
  | high | mid | low
  deriving DecidableEq, Repr

namespace Mood

/-- Discriminants, `src/anlz.rs` 607-614. -/
def code : Mood → UInt16
  | high => 1
  | mid => 2
  | low => 3

/-- Derived `BinWrite` with `repr = u16`, `src/anlz.rs` 599-615. -/
def enc (m : Mood) : Bytes := encU16be m.code

/-- Derived `BinRead` with `repr = u16`, `src/anlz.rs` 599-615. -/
def read : Rd Mood := do
  let v ← Rd.u16be
  if v = 1 then pure high
  else if v = 2 then pure mid
  else if v = 3 then pure low
  else Rd.fail .noVariant

end Mood

/-- `Bank`, `src/anlz.rs` 621-640. -/
inductive Bank where
  | default | cool | natural | hot | subtle | warm | vivid | club1 | club2
  deriving DecidableEq, Repr

namespace Bank

/-- Variants in declaration order, `src/anlz.rs` 622-639. -/
def all : List Bank := [default, cool, natural, hot, subtle, warm, vivid, club1, club2]

/-- Discriminants, `src/anlz.rs` 622-639. -/
def code : Bank → UInt8
  | default => 0 | cool => 1 | natural => 2 | hot => 3 | subtle => 4 | warm => 5 | vivid => 6
  | club1 => 7 | club2 => 8

/-- Derived `BinWrite` with `repr = u8`, `src/anlz.rs` 618-640. -/
def enc (b : Bank) : Bytes := encU8 b.code

/-- Derived `BinRead` with `repr = u8`, `src/anlz.rs` 618-640. -/
def read : Rd Bank := do
  let v ← Rd.u8
  match all.find? fun b => b.code = v with
  | some b => pure b
  | none => Rd.fail .noVariant

end Bank

/-- `Phrase`, `src/anlz.rs` 646-696. -/
structure Phrase where
  index : UInt16
  beat : UInt16
  kind : UInt16
  unknown1 : UInt8
  k1 : UInt8
  unknown2 : UInt8
  k2 : UInt8
  unknown3 : UInt8
  b : UInt8
  beat2 : UInt16
  beat3 : UInt16
  beat4 : UInt16
  unknown4 : UInt8
  k3 : UInt8
  unknown5 : UInt8
  fill : UInt8
  beatFill : UInt16
  deriving DecidableEq, Repr

namespace Phrase

/-- Derived `BinWrite`, `src/anlz.rs` 643-696. -/
def enc (x : Phrase) : Bytes :=
  encU16be x.index ++ (encU16be x.beat ++ (encU16be x.kind ++ (encU8 x.unknown1 ++ (encU8 x.k1 ++
    (encU8 x.unknown2 ++ (encU8 x.k2 ++ (encU8 x.unknown3 ++ (encU8 x.b ++ (encU16be x.beat2 ++
    (encU16be x.beat3 ++ (encU16be x.beat4 ++ (encU8 x.unknown4 ++ (encU8 x.k3 ++ (encU8 x.unknown5 ++
    (encU8 x.fill ++ encU16be x.beatFill)))))))))))))))

/-- Derived `BinRead`, `src/anlz.rs` 643-696. -/
def read : Rd Phrase := do
  let index ← Rd.u16be
  let beat ← Rd.u16be
  let kind ← Rd.u16be
  let unknown1 ← Rd.u8
  let k1 ← Rd.u8
  let unknown2 ← Rd.u8
  let k2 ← Rd.u8
  let unknown3 ← Rd.u8
  let b ← Rd.u8
  let beat2 ← Rd.u16be
  let beat3 ← Rd.u16be
  let beat4 ← Rd.u16be
  let unknown4 ← Rd.u8
  let k3 ← Rd.u8
  let unknown5 ← Rd.u8
  let fill ← Rd.u8
  let beatFill ← Rd.u16be
  pure { index, beat, kind, unknown1, k1, unknown2, k2, unknown3, b, beat2, beat3, beat4, unknown4, k3,
         unknown5, fill, beatFill }

end Phrase

/-! ## Contents -/

/-- Encoding of a list whose items may fail, in order.  Used for the phrases and cues, `src/anlz.rs` 800, 821
and 1068. -/
def encAll {α : Type} (f : α → Res Bytes) : List α → Res Bytes
  | [] => .ok []
  | a :: as => do
    let x ← f a
    let y ← encAll f as
    .ok (x ++ y)

/-- `BeatGrid`, `src/anlz.rs` 768-782. -/
structure BeatGrid where
  unknown1 : UInt32
  unknown2 : UInt32
  beats : List Beat
  deriving DecidableEq, Repr

namespace BeatGrid

/-- Derived `BinWrite`, `src/anlz.rs` 766-782; `len() as u32` truncates. -/
def enc (c : BeatGrid) : Bytes :=
  encU32be c.unknown1 ++ (encU32be c.unknown2 ++ (encU32be (UInt32.ofNat c.beats.length) ++
    c.beats.flatMap Beat.enc))

/-- Derived `BinRead`, `src/anlz.rs` 766-782. -/
def read : Rd BeatGrid := do
  let unknown1 ← Rd.u32be
  let unknown2 ← Rd.u32be
  let len ← Rd.u32be
  let beats ← Rd.many Beat.read len.toNat
  pure { unknown1, unknown2, beats }

end BeatGrid

/-- `CueList`, `src/anlz.rs` 787-801. -/
structure CueList where
  listType : CueListType
  unknown : UInt16
  memoryCount : UInt32
  cues : List Cue
  deriving DecidableEq, Repr

namespace CueList

/-- Derived `BinWrite`, `src/anlz.rs` 785-801; `len() as u16` truncates. -/
def enc (c : CueList) : Bytes :=
  c.listType.enc ++ (encU16be c.unknown ++ (encU16be (UInt16.ofNat c.cues.length) ++
    (encU32be c.memoryCount ++ c.cues.flatMap Cue.enc)))

/-- Derived `BinRead`, `src/anlz.rs` 785-801. -/
def read : Rd CueList := do
  let listType ← CueListType.read
  let unknown ← Rd.u16be
  let len ← Rd.u16be
  let memoryCount ← Rd.u32be
  let cues ← Rd.many Cue.read len.toNat
  pure { listType, unknown, memoryCount, cues }

end CueList

/-- `ExtendedCueList`, `src/anlz.rs` 809-822. -/
structure ExtendedCueList where
  listType : CueListType
  unknown : UInt16
  cues : List ExtendedCue
  deriving DecidableEq, Repr

namespace ExtendedCueList

/-- Derived `BinWrite`, `src/anlz.rs` 807-822; `len() as u16` truncates. -/
def enc (c : ExtendedCueList) : Res Bytes := do
  let cues ← encAll ExtendedCue.enc c.cues
  .ok (c.listType.enc ++ (encU16be (UInt16.ofNat c.cues.length) ++ (encU16be c.unknown ++ cues)))

/-- Derived `BinRead`, `src/anlz.rs` 807-822. -/
def read : Rd ExtendedCueList := do
  let listType ← CueListType.read
  let len ← Rd.u16be
  let unknown ← Rd.u16be
  Rd.require (unknown == 0)
  let cues ← Rd.many ExtendedCue.read len.toNat
  pure { listType, unknown, cues }

end ExtendedCueList

/-- The loop of `binrw::NullWideString` on the rest of the stream: units up to the next zero unit, which is
consumed, and the number of bytes consumed; nothing if the stream ends before.  Used at `src/anlz.rs` 837. -/
def scanUnits : Bytes → Option (List UInt16 × Nat)
  | a :: b :: rest =>
    if UInt16.ofNat (beDec [a, b]) = 0 then some ([], 2)
    else (scanUnits rest).map fun r => (UInt16.ofNat (beDec [a, b]) :: r.1, r.2 + 2)
  | _ => none

/-- `binrw::NullWideString` reader.  Used at `src/anlz.rs` 837. -/
def readWideUnits : Rd (List UInt16) := fun d p =>
  match scanUnits (d.drop p) with
  | some (us, n) => .ok (us, p + n)
  | none => .err .eof

/-- `binrw::NullWideString` writer: the units and a zero unit.  Used at `src/anlz.rs` 837. -/
def encWideUnits (us : List UInt16) : Bytes := us.flatMap encU16be ++ encU16be 0

/-- `Path`, `src/anlz.rs` 828-838.  The string is its list of UTF-16 units (`NullWideString`). -/
structure Path where
  path : List UInt16
  deriving DecidableEq, Repr

namespace Path

/-- `((path.len() as u32) + 1) * 2`, `src/anlz.rs` 832 and 836: the cast truncates, the arithmetic is
checked. -/
def lenPath (c : Path) : Res Nat :=
  let n := c.path.length % 2 ^ 32 + 1
  if n < 2 ^ 32 then (if n * 2 < 2 ^ 32 then .ok (n * 2) else .panic) else .panic

/-- Derived `BinWrite`, `src/anlz.rs` 825-838. -/
def enc (c : Path) : Res Bytes := do
  let len ← c.lenPath
  .ok (encU32be (UInt32.ofNat len) ++ encWideUnits c.path)

/-- Derived `BinRead`, `src/anlz.rs` 825-838. -/
def read (h : Header) : Rd Path := do
  let len ← Rd.u32be
  let size ← Rd.lift h.contentSize
  Rd.require (len.toNat == size)
  let us ← readWideUnits
  let size ← Rd.lift h.contentSize
  Rd.require (len.toNat == size)
  let n ← Rd.lift (Path.lenPath ⟨us⟩)
  Rd.require (n == len.toNat)
  pure ⟨us⟩

end Path

/-- `VBR`, `src/anlz.rs` 844-850. -/
structure Vbr where
  unknown1 : UInt32
  unknown2 : Bytes
  deriving DecidableEq, Repr

namespace Vbr

/-- Derived `BinWrite`, `src/anlz.rs` 841-850. -/
def enc (c : Vbr) : Bytes := encU32be c.unknown1 ++ c.unknown2

/-- Derived `BinRead`, `src/anlz.rs` 841-850. -/
def read (h : Header) : Rd Vbr := do
  let unknown1 ← Rd.u32be
  let n ← Rd.lift h.contentSize
  let unknown2 ← Rd.bytes n
  pure { unknown1, unknown2 }

end Vbr

/-- `WaveformPreview`, `src/anlz.rs` 856-867. -/
structure WaveformPreview where
  unknown : UInt32
  data : List WaveformPreviewColumn
  deriving DecidableEq, Repr

namespace WaveformPreview

/-- Derived `BinWrite`, `src/anlz.rs` 853-867; `len() as u32` truncates. -/
def enc (c : WaveformPreview) : Bytes :=
  encU32be (UInt32.ofNat c.data.length) ++ (encU32be c.unknown ++ c.data.flatMap WaveformPreviewColumn.enc)

/-- Derived `BinRead`, `src/anlz.rs` 853-867. -/
def read (h : Header) : Rd WaveformPreview := do
  let len ← Rd.u32be
  let size ← Rd.lift h.contentSize
  Rd.require (len.toNat == size)
  let unknown ← Rd.u32be
  let data ← Rd.many WaveformPreviewColumn.read len.toNat
  pure { unknown, data }

end WaveformPreview

/-- `TinyWaveformPreview`, `src/anlz.rs` 873-884. -/
structure TinyWaveformPreview where
  unknown : UInt32
  data : List TinyWaveformPreviewColumn
  deriving DecidableEq, Repr

namespace TinyWaveformPreview

/-- Derived `BinWrite`, `src/anlz.rs` 870-884; `len() as u32` truncates. -/
def enc (c : TinyWaveformPreview) : Bytes :=
  encU32be (UInt32.ofNat c.data.length) ++ (encU32be c.unknown ++ c.data.flatMap TinyWaveformPreviewColumn.enc)

/-- Derived `BinRead`, `src/anlz.rs` 870-884. -/
def read (h : Header) : Rd TinyWaveformPreview := do
  let len ← Rd.u32be
  let size ← Rd.lift h.contentSize
  Rd.require (len.toNat == size)
  let unknown ← Rd.u32be
  let data ← Rd.many TinyWaveformPreviewColumn.read len.toNat
  pure { unknown, data }

end TinyWaveformPreview

/-- `u32` multiplication with overflow checks.  Used at `src/anlz.rs` 261, 832, 836, 901, 929, 953, 980, 1002
and 1029. -/
def mulU32 (a b : Nat) : Res Nat := if a * b < 2 ^ 32 then .ok (a * b) else .panic

/-- The two length fields of the newer waveform sections: the entry size is checked, and
`len_entry_bytes * len_entries == header.content_size()`, `src/anlz.rs` 894-902, 922-930, 946-954, 973-981
and 995-1003.  Gives the number of entries. -/
def readEntryLens (h : Header) (entrySize : UInt32) : Rd UInt32 := do
  let lenEntryBytes ← Rd.u32be
  Rd.require (lenEntryBytes == entrySize)
  let lenEntries ← Rd.u32be
  let product ← Rd.lift (mulU32 lenEntryBytes.toNat lenEntries.toNat)
  let size ← Rd.lift h.contentSize
  Rd.require (product == size)
  pure lenEntries

/-- `WaveformDetail`, `src/anlz.rs` 892-912. -/
structure WaveformDetail where
  unknown : UInt32
  data : List WaveformPreviewColumn
  deriving DecidableEq, Repr

namespace WaveformDetail

/-- Derived `BinWrite`, `src/anlz.rs` 889-912. -/
def enc (c : WaveformDetail) : Bytes :=
  encU32be 1 ++ (encU32be (UInt32.ofNat c.data.length) ++ (encU32be c.unknown ++
    c.data.flatMap WaveformPreviewColumn.enc))

/-- Derived `BinRead`, `src/anlz.rs` 889-912. -/
def read (h : Header) : Rd WaveformDetail := do
  let len ← readEntryLens h 1
  let unknown ← Rd.u32be
  Rd.require (unknown == 0x00960000)
  let data ← Rd.many WaveformPreviewColumn.read len.toNat
  pure { unknown, data }

end WaveformDetail

/-- `WaveformColorPreview`, `src/anlz.rs` 920-936. -/
structure WaveformColorPreview where
  unknown : UInt32
  data : List WaveformColorPreviewColumn
  deriving DecidableEq, Repr

namespace WaveformColorPreview

/-- Derived `BinWrite`, `src/anlz.rs` 917-936. -/
def enc (c : WaveformColorPreview) : Bytes :=
  encU32be 6 ++ (encU32be (UInt32.ofNat c.data.length) ++ (encU32be c.unknown ++
    c.data.flatMap WaveformColorPreviewColumn.enc))

/-- Derived `BinRead`, `src/anlz.rs` 917-936. -/
def read (h : Header) : Rd WaveformColorPreview := do
  let len ← readEntryLens h 6
  let unknown ← Rd.u32be
  let data ← Rd.many WaveformColorPreviewColumn.read len.toNat
  pure { unknown, data }

end WaveformColorPreview

/-- `WaveformColorDetail`, `src/anlz.rs` 944-963. -/
structure WaveformColorDetail where
  unknown : UInt32
  data : List WaveformColorDetailColumn
  deriving DecidableEq, Repr

namespace WaveformColorDetail

/-- Derived `BinWrite`, `src/anlz.rs` 941-963. -/
def enc (c : WaveformColorDetail) : Bytes :=
  encU32be 2 ++ (encU32be (UInt32.ofNat c.data.length) ++ (encU32be c.unknown ++
    c.data.flatMap WaveformColorDetailColumn.enc))

/-- Derived `BinRead`, `src/anlz.rs` 941-963. -/
def read (h : Header) : Rd WaveformColorDetail := do
  let len ← readEntryLens h 2
  let unknown ← Rd.u32be
  let data ← Rd.many WaveformColorDetailColumn.read len.toNat
  pure { unknown, data }

end WaveformColorDetail

/-- `Waveform3BandPreview`, `src/anlz.rs` 971-985. -/
structure Waveform3BandPreview where
  data : List Waveform3BandPreviewColumn
  deriving DecidableEq, Repr

namespace Waveform3BandPreview

/-- Derived `BinWrite`, `src/anlz.rs` 968-985. -/
def enc (c : Waveform3BandPreview) : Bytes :=
  encU32be 3 ++ (encU32be (UInt32.ofNat c.data.length) ++ c.data.flatMap Waveform3BandPreviewColumn.enc)

/-- Derived `BinRead`, `src/anlz.rs` 968-985. -/
def read (h : Header) : Rd Waveform3BandPreview := do
  let len ← readEntryLens h 3
  let data ← Rd.many Waveform3BandPreviewColumn.read len.toNat
  pure { data }

end Waveform3BandPreview

/-- `Waveform3BandDetail`, `src/anlz.rs` 993-1013. -/
structure Waveform3BandDetail where
  unknown : UInt32
  data : List Waveform3BandDetailColumn
  deriving DecidableEq, Repr

namespace Waveform3BandDetail

/-- Derived `BinWrite`, `src/anlz.rs` 990-1013. -/
def enc (c : Waveform3BandDetail) : Bytes :=
  encU32be 3 ++ (encU32be (UInt32.ofNat c.data.length) ++ (encU32be c.unknown ++
    c.data.flatMap Waveform3BandDetailColumn.enc))

/-- Derived `BinRead`, `src/anlz.rs` 990-1013. -/
def read (h : Header) : Rd Waveform3BandDetail := do
  let len ← readEntryLens h 3
  let unknown ← Rd.u32be
  Rd.require (unknown == 0x00960000)
  let data ← Rd.many Waveform3BandDetailColumn.read len.toNat
  pure { unknown, data }

end Waveform3BandDetail

/-! ## Song structure -/

/-- `SongStructureData`, `src/anlz.rs` 1051-1069. -/
structure SongStructureData where
  mood : Mood
  unknown1 : UInt32
  unknown2 : UInt16
  endBeat : UInt16
  unknown3 : UInt16
  bank : Bank
  unknown4 : UInt8
  phrases : List Phrase
  deriving DecidableEq, Repr

namespace SongStructureData

/-- Derived `BinWrite`, `src/anlz.rs` 1048-1069. -/
def enc (c : SongStructureData) : Bytes :=
  c.mood.enc ++ (encU32be c.unknown1 ++ (encU16be c.unknown2 ++ (encU16be c.endBeat ++ (encU16be c.unknown3 ++
    (c.bank.enc ++ (encU8 c.unknown4 ++ c.phrases.flatMap Phrase.enc))))))

/-- Derived `BinRead`, `src/anlz.rs` 1048-1069. -/
def read (lenEntries : UInt16) : Rd SongStructureData := do
  let mood ← Mood.read
  let unknown1 ← Rd.u32be
  let unknown2 ← Rd.u16be
  let endBeat ← Rd.u16be
  let unknown3 ← Rd.u16be
  let bank ← Bank.read
  let unknown4 ← Rd.u8
  let phrases ← Rd.many Phrase.read lenEntries.toNat
  pure { mood, unknown1, unknown2, endBeat, unknown3, bank, unknown4, phrases }

/-- `KEY_DATA`, `src/anlz.rs` 1072-1075. -/
def keyData : Bytes :=
  [0xCB, 0xE1, 0xEE, 0xFA, 0xE5, 0xEE, 0xAD, 0xEE, 0xE9, 0xD2, 0xE9, 0xEB, 0xE1, 0xE9, 0xF3,
    0xE8, 0xE9, 0xF4, 0xE1]

/-- One byte of the key, `src/anlz.rs` 1079-1082: a checked `u16` addition. -/
def keyByteOf (lenEntries : UInt16) (x : UInt8) : Res UInt8 := do
  let v ← addU16 x.toNat lenEntries.toNat
  .ok (UInt8.ofNat (v % 256))

/-- The first bytes that the iterator of `get_key` produces, `src/anlz.rs` 1078-1083, collected. -/
def getKey (lenEntries : UInt16) : Bytes → Res Bytes
  | [] => .ok []
  | x :: xs => do
    let a ← keyByteOf lenEntries x
    let as ← getKey lenEntries xs
    .ok (a :: as)

/-- `check_if_encrypted`, `src/anlz.rs` 1088-1096: the reader `Mood::read` on the deciphered bytes. -/
def checkIfEncrypted (rawMood : Bytes) (lenEntries : UInt16) : Res Bool := do
  let key ← getKey lenEntries (keyData.take 2)
  let buffer := List.zipWith (fun a b => a ^^^ b) rawMood key
  match Mood.read buffer 0 with
  | .ok _ => .ok true
  | .err _ => .ok false
  | .panic => .panic

/-- What a reader sees through an `XorStream` that was created at position `p` (`src/xor.rs` 26-48), when it
reads forwards from there: the bytes from `p` on are xored with the repeating key. -/
def decipher (key : Bytes) (p : Nat) (d : Bytes) : Bytes :=
  d.take p ++ XorStream.xorBuf (XorStream.withKey d p key).key 0 (d.drop p)

/-- `read_encrypted`, `src/anlz.rs` 1100-1112.  The derived reader only reads forwards. -/
def readEncrypted (isEncrypted : Bool) (lenEntries : UInt16) : Rd SongStructureData := fun d p =>
  if isEncrypted then
    match getKey lenEntries keyData with
    | .ok key => read lenEntries (decipher key p d) p
    | .err e => .err e
    | .panic => .panic
  else read lenEntries d p

/-- `write_encrypted`, `src/anlz.rs` 1116-1129: the fields go through an `XorStream` (`src/xor.rs` 51-61)
one after the other. -/
def encEncrypted (c : SongStructureData) (isEncrypted : Bool) (lenEntries : UInt16) : Res Bytes :=
  if isEncrypted then do
    let key ← getKey lenEntries keyData
    .ok (XorStream.xorBuf (XorStream.withKey [] 0 key).key 0 c.enc)
  else .ok c.enc

end SongStructureData

/-- `SongStructure`, `src/anlz.rs` 1021-1042. -/
structure SongStructure where
  isEncrypted : Bool
  data : SongStructureData
  deriving DecidableEq, Repr

namespace SongStructure

/-- Derived `BinWrite`, `src/anlz.rs` 1018-1042; `len() as u16` truncates. -/
def enc (c : SongStructure) : Res Bytes := do
  let len := UInt16.ofNat c.data.phrases.length
  let data ← c.data.encEncrypted c.isEncrypted len
  .ok (encU32be 24 ++ (encU16be len ++ data))

/-- Derived `BinRead`, `src/anlz.rs` 1018-1042. -/
def read (h : Header) : Rd SongStructure := do
  let lenEntryBytes ← Rd.u32be
  Rd.require (lenEntryBytes == 24)
  let lenEntries ← Rd.u16be
  let product ← Rd.lift (mulU32 lenEntryBytes.toNat lenEntries.toNat)
  let size ← Rd.lift h.contentSize
  Rd.require (product == size)
  let isEncrypted ← Rd.restore (do
    let rawMood ← Rd.bytes 2
    Rd.lift (SongStructureData.checkIfEncrypted rawMood lenEntries))
  let data ← SongStructureData.readEncrypted isEncrypted lenEntries
  pure { isEncrypted, data }

end SongStructure

/-- `Unknown`, `src/anlz.rs` 1136-1143. -/
structure Unknown where
  headerData : Bytes
  contentData : Bytes
  deriving DecidableEq, Repr

namespace Unknown

/-- Derived `BinWrite`, `src/anlz.rs` 1133-1143. -/
def enc (c : Unknown) : Bytes := c.headerData ++ c.contentData

/-- Derived `BinRead`, `src/anlz.rs` 1133-1143. -/
def read (h : Header) : Rd Unknown := do
  let n ← Rd.lift h.remainingSize
  let headerData ← Rd.bytes n
  let m ← Rd.lift h.contentSize
  let contentData ← Rd.bytes m
  pure { headerData, contentData }

end Unknown

/-- `Content`, `src/anlz.rs` 702-763. -/
inductive Content where
  | beatGrid (c : BeatGrid)
  | cueList (c : CueList)
  | extendedCueList (c : ExtendedCueList)
  | path (c : Path)
  | vbr (c : Vbr)
  | waveformPreview (c : WaveformPreview)
  | tinyWaveformPreview (c : TinyWaveformPreview)
  | waveformDetail (c : WaveformDetail)
  | waveformColorPreview (c : WaveformColorPreview)
  | waveformColorDetail (c : WaveformColorDetail)
  | waveform3BandPreview (c : Waveform3BandPreview)
  | waveform3BandDetail (c : Waveform3BandDetail)
  | songStructure (c : SongStructure)
  | unknown (c : Unknown)
  deriving DecidableEq, Repr

namespace Content

/-- Derived `BinWrite`, `src/anlz.rs` 699-763. -/
def enc : Content → Res Bytes
  | beatGrid c => .ok c.enc
  | cueList c => .ok c.enc
  | extendedCueList c => c.enc
  | path c => c.enc
  | vbr c => .ok c.enc
  | waveformPreview c => .ok c.enc
  | tinyWaveformPreview c => .ok c.enc
  | waveformDetail c => .ok c.enc
  | waveformColorPreview c => .ok c.enc
  | waveformColorDetail c => .ok c.enc
  | waveform3BandPreview c => .ok c.enc
  | waveform3BandDetail c => .ok c.enc
  | songStructure c => c.enc
  | unknown c => .ok c.enc

/-- A variant of `Content`: the `pre_assert` on the kind, then the fields.  The variants are at `src/anlz.rs`
704-763. -/
def variant {α : Type} (guard : Bool) (r : Rd α) (f : α → Content) : Rd Content := do
  Rd.require guard
  let a ← r
  pure (f a)

/-- Derived `BinRead`, `src/anlz.rs` 699-763: the variants in declaration order. -/
def read (h : Header) : Rd Content :=
  Rd.orElse (variant (h.kind == .beatGrid) BeatGrid.read .beatGrid)
  (Rd.orElse (variant (h.kind == .cueList) CueList.read .cueList)
  (Rd.orElse (variant (h.kind == .extendedCueList) ExtendedCueList.read .extendedCueList)
  (Rd.orElse (variant (h.kind == .path) (Path.read h) .path)
  (Rd.orElse (variant (h.kind == .vbr) (Vbr.read h) .vbr)
  (Rd.orElse (variant (h.kind == .waveformPreview) (WaveformPreview.read h) .waveformPreview)
  (Rd.orElse (variant (h.kind == .tinyWaveformPreview) (TinyWaveformPreview.read h) .tinyWaveformPreview)
  (Rd.orElse (variant (h.kind == .waveformDetail) (WaveformDetail.read h) .waveformDetail)
  (Rd.orElse (variant (h.kind == .waveformColorPreview) (WaveformColorPreview.read h) .waveformColorPreview)
  (Rd.orElse (variant (h.kind == .waveformColorDetail) (WaveformColorDetail.read h) .waveformColorDetail)
  (Rd.orElse (variant (h.kind == .waveform3BandPreview) (Waveform3BandPreview.read h) .waveform3BandPreview)
  (Rd.orElse (variant (h.kind == .waveform3BandDetail) (Waveform3BandDetail.read h) .waveform3BandDetail)
  (Rd.orElse (variant (h.kind == .songStructure) (SongStructure.read h) .songStructure)
  (variant h.kind.isUnknown (Unknown.read h) .unknown)))))))))))))

end Content

/-- `Section`, `src/anlz.rs` 1148-1154. -/
structure AnlzSection where
  header : Header
  content : Content
  deriving DecidableEq, Repr

namespace AnlzSection

/-- Derived `BinWrite`, `src/anlz.rs` 1146-1154. -/
def enc (s : AnlzSection) : Res Bytes := do
  let content ← s.content.enc
  .ok (s.header.enc ++ content)

/-- Derived `BinRead`, `src/anlz.rs` 1146-1154. -/
def read : Rd AnlzSection := do
  let header ← Header.read
  let content ← Content.read header
  pure { header, content }

end AnlzSection

end Rekordcrate.Anlz
