import Verif.Model.OffsetArray
import Verif.Model.Header
import Verif.Model.Util

/-! # Model of the rows in `src/pdb/mod.rs` and `src/pdb/ext.rs`

Newtypes over integers (`TrackId(u32)`, `Subtype(u16)`, ...) are plain integers.  All rows are little
endian.  The bytes of the fields before a trailing offset array are written with several `write_all`
calls; the model merges consecutive ones. -/

namespace Rekordcrate

/-- `Subtype::get_offset_size`, `src/pdb/mod.rs` 857-864: bit 2 chooses the width. -/
def offsetSizeOf (subtype : UInt16) : OffsetSize :=
  if subtype &&& 0x04 = 0 then .u8 else .u16

/-- `[..].iter().sum()` of the `heap_bytes_required` implementations: a checked `u16` sum.  The implementations
are in `src/pdb/mod.rs`, for instance 1044-1060. -/
def sumHeap : List (Res Nat) → Res Nat
  | [] => .ok 0
  | x :: xs => do
    let a ← x
    let s ← sumHeap xs
    addU16 a s

/-- `MenuVisibility`, `src/pdb/mod.rs` 1866-1878. -/
inductive MenuVisibility where
  | visible | hidden
  | unknown (v : UInt8)
  deriving DecidableEq, Repr

/-- The number written for a visibility, `src/pdb/mod.rs` 1866-1878. -/
def MenuVisibility.code : MenuVisibility → UInt8
  | visible => 0 | hidden => 1
  | unknown v => v

/-- Derived `BinWrite`, `src/pdb/mod.rs` 1866-1878. -/
def MenuVisibility.enc (v : MenuVisibility) : Bytes := encU8 v.code

/-- Derived `BinRead`, `src/pdb/mod.rs` 1866-1878: the magic variants in order, then `Unknown`. -/
def MenuVisibility.read : Rd MenuVisibility :=
  Rd.orElse (Rd.magicEnum ([visible, hidden].map fun t => (t.enc, t)))
    (do let v ← Rd.u8; pure (.unknown v))

/-- `TrailingName`, `src/pdb/mod.rs` 984-989. -/
structure TrailingName where
  name : DString
  deriving DecidableEq, Repr

/-- `OffsetArrayItems<1> for TrailingName`, `src/pdb/mod.rs` 991-1002. -/
instance : OffsetItems TrailingName where
  count := 1
  asItems t := [t.name]
  fromItems l := { name := l.getD 0 .empty }

/-- `TagOrCategoryStrings`, `src/pdb/ext.rs` 60-67. -/
structure TagOrCategoryStrings where
  name : DString
  unknown : DString
  deriving DecidableEq, Repr

/-- `OffsetArrayItems<2> for TagOrCategoryStrings`, `src/pdb/ext.rs` 69-80. -/
instance : OffsetItems TagOrCategoryStrings where
  count := 2
  asItems t := [t.name, t.unknown]
  fromItems l := { name := l.getD 0 .empty, unknown := l.getD 1 .empty }

/-- `TrackStrings`, `src/pdb/mod.rs` 1625-1672. -/
structure TrackStrings where
  isrc : DString
  lyricist : DString
  unknownString2 : DString
  unknownString3 : DString
  unknownString4 : DString
  message : DString
  publishTrackInformation : DString
  autoloadHotcues : DString
  unknownString5 : DString
  unknownString6 : DString
  dateAdded : DString
  releaseDate : DString
  mixName : DString
  unknownString7 : DString
  analyzePath : DString
  analyzeDate : DString
  comment : DString
  title : DString
  unknownString8 : DString
  filename : DString
  filePath : DString
  deriving DecidableEq, Repr

/-- `OffsetArrayItems<21> for TrackStrings`, `src/pdb/mod.rs` 1674-1730. -/
instance : OffsetItems TrackStrings where
  count := 21
  asItems t :=
    [t.isrc, t.lyricist, t.unknownString2, t.unknownString3, t.unknownString4, t.message,
    t.publishTrackInformation, t.autoloadHotcues, t.unknownString5, t.unknownString6, t.dateAdded,
    t.releaseDate, t.mixName, t.unknownString7, t.analyzePath, t.analyzeDate, t.comment, t.title,
    t.unknownString8, t.filename, t.filePath]
  fromItems l := {
    isrc := l.getD 0 .empty
    lyricist := l.getD 1 .empty
    unknownString2 := l.getD 2 .empty
    unknownString3 := l.getD 3 .empty
    unknownString4 := l.getD 4 .empty
    message := l.getD 5 .empty
    publishTrackInformation := l.getD 6 .empty
    autoloadHotcues := l.getD 7 .empty
    unknownString5 := l.getD 8 .empty
    unknownString6 := l.getD 9 .empty
    dateAdded := l.getD 10 .empty
    releaseDate := l.getD 11 .empty
    mixName := l.getD 12 .empty
    unknownString7 := l.getD 13 .empty
    analyzePath := l.getD 14 .empty
    analyzeDate := l.getD 15 .empty
    comment := l.getD 16 .empty
    title := l.getD 17 .empty
    unknownString8 := l.getD 18 .empty
    filename := l.getD 19 .empty
    filePath := l.getD 20 .empty }

/-- `Album`, `src/pdb/mod.rs` 1005-1025. -/
structure Album where
  subtype : UInt16
  indexShift : UInt16
  unknown2 : UInt32
  artistId : UInt32
  id : UInt32
  unknown3 : UInt32
  offsets : OffsetContainer TrailingName
  deriving DecidableEq, Repr

namespace Album

/-- The fields before the offset array as written, `src/pdb/mod.rs` 1005-1025. -/
def head (r : Album) : Bytes :=
  encU16 r.subtype ++ (encU16 r.indexShift ++ (encU32 r.unknown2 ++ (encU32 r.artistId ++ (encU32
  r.id ++ encU32 r.unknown3))))

/-- Derived `BinWrite`, `src/pdb/mod.rs` 1005-1025. -/
def write (r : Album) : Wr Unit := do
  Wr.emit r.head
  r.offsets.write 20 (offsetSizeOf r.subtype)

/-- Derived `BinRead`, `src/pdb/mod.rs` 1005-1025. -/
def read : Rd Album := do
  let subtype ← Rd.u16
  let indexShift ← Rd.u16
  let unknown2 ← Rd.u32
  let artistId ← Rd.u32
  let id ← Rd.u32
  let unknown3 ← Rd.u32
  let offsets ← OffsetContainer.read 20 (offsetSizeOf subtype)
  pure {
    subtype, indexShift, unknown2, artistId, id, unknown3, offsets }

/-- `heap_bytes_required`, `src/pdb/mod.rs` 1044-1060. -/
def heapBytes (r : Album) : Res Nat :=
  sumHeap [.ok 2, .ok 2, .ok 4, .ok 4, .ok 4, .ok 4, r.offsets.heapBytes (offsetSizeOf r.subtype)]

end Album

/-- `Artist`, `src/pdb/mod.rs` 1063-1077. -/
structure Artist where
  subtype : UInt16
  indexShift : UInt16
  id : UInt32
  offsets : OffsetContainer TrailingName
  deriving DecidableEq, Repr

namespace Artist

/-- The fields before the offset array as written, `src/pdb/mod.rs` 1063-1077. -/
def head (r : Artist) : Bytes :=
  encU16 r.subtype ++ (encU16 r.indexShift ++ encU32 r.id)

/-- Derived `BinWrite`, `src/pdb/mod.rs` 1063-1077. -/
def write (r : Artist) : Wr Unit := do
  Wr.emit r.head
  r.offsets.write 8 (offsetSizeOf r.subtype)

/-- Derived `BinRead`, `src/pdb/mod.rs` 1063-1077. -/
def read : Rd Artist := do
  let subtype ← Rd.u16
  let indexShift ← Rd.u16
  let id ← Rd.u32
  let offsets ← OffsetContainer.read 8 (offsetSizeOf subtype)
  pure {
    subtype, indexShift, id, offsets }

/-- `heap_bytes_required`, `src/pdb/mod.rs` 1096-1109. -/
def heapBytes (r : Artist) : Res Nat :=
  sumHeap [.ok 2, .ok 2, .ok 4, r.offsets.heapBytes (offsetSizeOf r.subtype)]

end Artist

/-- `Artwork`, `src/pdb/mod.rs` 1112-1120. -/
structure Artwork where
  id : UInt32
  path : DString
  deriving DecidableEq, Repr

namespace Artwork

/-- Derived `BinWrite`, `src/pdb/mod.rs` 1112-1120, as the bytes written. -/
def enc (r : Artwork) : Res Bytes := do
  let path ← r.path.enc
  pure (encU32 r.id ++ path)

/-- Derived `BinWrite`, `src/pdb/mod.rs` 1112-1120. -/
def write (r : Artwork) : Wr Unit := Wr.emitRes r.enc

/-- Derived `BinRead`, `src/pdb/mod.rs` 1112-1120. -/
def read : Rd Artwork := do
  let id ← Rd.u32
  let path ← DString.read
  pure {
    id, path }

/-- `heap_bytes_required`, `src/pdb/mod.rs` 1139-1149. -/
def heapBytes (r : Artwork) : Res Nat :=
  sumHeap [.ok 4, r.path.heapBytes]

end Artwork

/-- `Color`, `src/pdb/mod.rs` 1152-1166. -/
structure Color where
  unknown1 : UInt32
  unknown2 : UInt8
  color : ColorIndex
  unknown3 : UInt16
  name : DString
  deriving DecidableEq, Repr

namespace Color

/-- Derived `BinWrite`, `src/pdb/mod.rs` 1152-1166, as the bytes written. -/
def enc (r : Color) : Res Bytes := do
  let name ← r.name.enc
  pure (encU32 r.unknown1 ++ (encU8 r.unknown2 ++ (r.color.enc ++ (encU16 r.unknown3 ++ name))))

/-- Derived `BinWrite`, `src/pdb/mod.rs` 1152-1166. -/
def write (r : Color) : Wr Unit := Wr.emitRes r.enc

/-- Derived `BinRead`, `src/pdb/mod.rs` 1152-1166. -/
def read : Rd Color := do
  let unknown1 ← Rd.u32
  let unknown2 ← Rd.u8
  let color ← ColorIndex.read
  let unknown3 ← Rd.u16
  let name ← DString.read
  pure {
    unknown1, unknown2, color, unknown3, name }

/-- `heap_bytes_required`, `src/pdb/mod.rs` 1185-1198. -/
def heapBytes (r : Color) : Res Nat :=
  sumHeap [.ok 4, .ok 1, .ok 1, .ok 2, r.name.heapBytes]

end Color

/-- `Genre`, `src/pdb/mod.rs` 1201-1209. -/
structure Genre where
  id : UInt32
  name : DString
  deriving DecidableEq, Repr

namespace Genre

/-- Derived `BinWrite`, `src/pdb/mod.rs` 1201-1209, as the bytes written. -/
def enc (r : Genre) : Res Bytes := do
  let name ← r.name.enc
  pure (encU32 r.id ++ name)

/-- Derived `BinWrite`, `src/pdb/mod.rs` 1201-1209. -/
def write (r : Genre) : Wr Unit := Wr.emitRes r.enc

/-- Derived `BinRead`, `src/pdb/mod.rs` 1201-1209. -/
def read : Rd Genre := do
  let id ← Rd.u32
  let name ← DString.read
  pure {
    id, name }

/-- `heap_bytes_required`, `src/pdb/mod.rs` 1228-1238. -/
def heapBytes (r : Genre) : Res Nat :=
  sumHeap [.ok 4, r.name.heapBytes]

end Genre

/-- `HistoryPlaylist`, `src/pdb/mod.rs` 1241-1249. -/
structure HistoryPlaylist where
  id : UInt32
  name : DString
  deriving DecidableEq, Repr

namespace HistoryPlaylist

/-- Derived `BinWrite`, `src/pdb/mod.rs` 1241-1249, as the bytes written. -/
def enc (r : HistoryPlaylist) : Res Bytes := do
  let name ← r.name.enc
  pure (encU32 r.id ++ name)

/-- Derived `BinWrite`, `src/pdb/mod.rs` 1241-1249. -/
def write (r : HistoryPlaylist) : Wr Unit := Wr.emitRes r.enc

/-- Derived `BinRead`, `src/pdb/mod.rs` 1241-1249. -/
def read : Rd HistoryPlaylist := do
  let id ← Rd.u32
  let name ← DString.read
  pure {
    id, name }

/-- `heap_bytes_required`, `src/pdb/mod.rs` 1268-1278. -/
def heapBytes (r : HistoryPlaylist) : Res Nat :=
  sumHeap [.ok 4, r.name.heapBytes]

end HistoryPlaylist

/-- `HistoryEntry`, `src/pdb/mod.rs` 1281-1291. -/
structure HistoryEntry where
  trackId : UInt32
  playlistId : UInt32
  entryIndex : UInt32
  deriving DecidableEq, Repr

namespace HistoryEntry

/-- Derived `BinWrite`, `src/pdb/mod.rs` 1281-1291, as the bytes written. -/
def enc (r : HistoryEntry) : Res Bytes := do
  pure (encU32 r.trackId ++ (encU32 r.playlistId ++ encU32 r.entryIndex))

/-- Derived `BinWrite`, `src/pdb/mod.rs` 1281-1291. -/
def write (r : HistoryEntry) : Wr Unit := Wr.emitRes r.enc

/-- Derived `BinRead`, `src/pdb/mod.rs` 1281-1291. -/
def read : Rd HistoryEntry := do
  let trackId ← Rd.u32
  let playlistId ← Rd.u32
  let entryIndex ← Rd.u32
  pure {
    trackId, playlistId, entryIndex }

/-- `heap_bytes_required`, `src/pdb/mod.rs` 1310-1321. -/
def heapBytes (_r : HistoryEntry) : Res Nat :=
  sumHeap [.ok 4, .ok 4, .ok 4]

end HistoryEntry

/-- `History`, `src/pdb/mod.rs` 1328-1349. -/
structure History where
  subtype : UInt16
  indexShift : UInt16
  numTracks : UInt32
  date : DString
  version : DString
  label : DString
  deriving DecidableEq, Repr

namespace History

/-- Derived `BinWrite`, `src/pdb/mod.rs` 1328-1349, as the bytes written. -/
def enc (r : History) : Res Bytes := do
  let date ← r.date.enc
  let version ← r.version.enc
  let label ← r.label.enc
  pure (encU16 r.subtype ++ (encU16 r.indexShift ++ (encU32 r.numTracks ++ (encU32 0 ++ (date ++
  (encU16 0x1E19 ++ (version ++ label)))))))

/-- Derived `BinWrite`, `src/pdb/mod.rs` 1328-1349. -/
def write (r : History) : Wr Unit := Wr.emitRes r.enc

/-- Derived `BinRead`, `src/pdb/mod.rs` 1328-1349. -/
def read : Rd History := do
  let subtype ← Rd.u16
  let indexShift ← Rd.u16
  let numTracks ← Rd.u32
  Rd.magic (encU32 0)
  let date ← DString.read
  Rd.magic (encU16 0x1E19)
  let version ← DString.read
  let label ← DString.read
  pure {
    subtype, indexShift, numTracks, date, version, label }

/-- `heap_bytes_required`, `src/pdb/mod.rs` 1351-1367. -/
def heapBytes (r : History) : Res Nat :=
  sumHeap [.ok 2, .ok 2, .ok 4, .ok 4, r.date.heapBytes, .ok 2, r.version.heapBytes,
  r.label.heapBytes]

end History

/-- `Key`, `src/pdb/mod.rs` 1387-1397. -/
structure Key where
  id : UInt32
  id2 : UInt32
  name : DString
  deriving DecidableEq, Repr

namespace Key

/-- Derived `BinWrite`, `src/pdb/mod.rs` 1387-1397, as the bytes written. -/
def enc (r : Key) : Res Bytes := do
  let name ← r.name.enc
  pure (encU32 r.id ++ (encU32 r.id2 ++ name))

/-- Derived `BinWrite`, `src/pdb/mod.rs` 1387-1397. -/
def write (r : Key) : Wr Unit := Wr.emitRes r.enc

/-- Derived `BinRead`, `src/pdb/mod.rs` 1387-1397. -/
def read : Rd Key := do
  let id ← Rd.u32
  let id2 ← Rd.u32
  let name ← DString.read
  pure {
    id, id2, name }

/-- `heap_bytes_required`, `src/pdb/mod.rs` 1416-1427. -/
def heapBytes (r : Key) : Res Nat :=
  sumHeap [.ok 4, .ok 4, r.name.heapBytes]

end Key

/-- `Label`, `src/pdb/mod.rs` 1430-1438. -/
structure Label where
  id : UInt32
  name : DString
  deriving DecidableEq, Repr

namespace Label

/-- Derived `BinWrite`, `src/pdb/mod.rs` 1430-1438, as the bytes written. -/
def enc (r : Label) : Res Bytes := do
  let name ← r.name.enc
  pure (encU32 r.id ++ name)

/-- Derived `BinWrite`, `src/pdb/mod.rs` 1430-1438. -/
def write (r : Label) : Wr Unit := Wr.emitRes r.enc

/-- Derived `BinRead`, `src/pdb/mod.rs` 1430-1438. -/
def read : Rd Label := do
  let id ← Rd.u32
  let name ← DString.read
  pure {
    id, name }

/-- `heap_bytes_required`, `src/pdb/mod.rs` 1457-1467. -/
def heapBytes (r : Label) : Res Nat :=
  sumHeap [.ok 4, r.name.heapBytes]

end Label

/-- `PlaylistTreeNode`, `src/pdb/mod.rs` 1470-1486. -/
structure PlaylistTreeNode where
  parentId : UInt32
  unknown : UInt32
  sortOrder : UInt32
  id : UInt32
  nodeIsFolder : UInt32
  name : DString
  deriving DecidableEq, Repr

namespace PlaylistTreeNode

/-- Derived `BinWrite`, `src/pdb/mod.rs` 1470-1486, as the bytes written. -/
def enc (r : PlaylistTreeNode) : Res Bytes := do
  let name ← r.name.enc
  pure (encU32 r.parentId ++ (encU32 r.unknown ++ (encU32 r.sortOrder ++ (encU32 r.id ++ (encU32
  r.nodeIsFolder ++ name)))))

/-- Derived `BinWrite`, `src/pdb/mod.rs` 1470-1486. -/
def write (r : PlaylistTreeNode) : Wr Unit := Wr.emitRes r.enc

/-- Derived `BinRead`, `src/pdb/mod.rs` 1470-1486. -/
def read : Rd PlaylistTreeNode := do
  let parentId ← Rd.u32
  let unknown ← Rd.u32
  let sortOrder ← Rd.u32
  let id ← Rd.u32
  let nodeIsFolder ← Rd.u32
  let name ← DString.read
  pure {
    parentId, unknown, sortOrder, id, nodeIsFolder, name }

/-- `heap_bytes_required`, `src/pdb/mod.rs` 1513-1527. -/
def heapBytes (r : PlaylistTreeNode) : Res Nat :=
  sumHeap [.ok 4, .ok 4, .ok 4, .ok 4, .ok 4, r.name.heapBytes]

/-- `is_folder`, `src/pdb/mod.rs` 1507-1510. -/
def isFolder (r : PlaylistTreeNode) : Bool := r.nodeIsFolder > 0

end PlaylistTreeNode

/-- `PlaylistEntry`, `src/pdb/mod.rs` 1530-1540. -/
structure PlaylistEntry where
  entryIndex : UInt32
  trackId : UInt32
  playlistId : UInt32
  deriving DecidableEq, Repr

namespace PlaylistEntry

/-- Derived `BinWrite`, `src/pdb/mod.rs` 1530-1540, as the bytes written. -/
def enc (r : PlaylistEntry) : Res Bytes := do
  pure (encU32 r.entryIndex ++ (encU32 r.trackId ++ encU32 r.playlistId))

/-- Derived `BinWrite`, `src/pdb/mod.rs` 1530-1540. -/
def write (r : PlaylistEntry) : Wr Unit := Wr.emitRes r.enc

/-- Derived `BinRead`, `src/pdb/mod.rs` 1530-1540. -/
def read : Rd PlaylistEntry := do
  let entryIndex ← Rd.u32
  let trackId ← Rd.u32
  let playlistId ← Rd.u32
  pure {
    entryIndex, trackId, playlistId }

/-- `heap_bytes_required`, `src/pdb/mod.rs` 1559-1570. -/
def heapBytes (_r : PlaylistEntry) : Res Nat :=
  sumHeap [.ok 4, .ok 4, .ok 4]

end PlaylistEntry

/-- `ColumnEntry`, `src/pdb/mod.rs` 1574-1593. -/
structure ColumnEntry where
  id : UInt16
  unknown0 : UInt16
  columnName : DString
  deriving DecidableEq, Repr

namespace ColumnEntry

/-- Derived `BinWrite`, `src/pdb/mod.rs` 1574-1593, as the bytes written. -/
def enc (r : ColumnEntry) : Res Bytes := do
  let columnName ← r.columnName.enc
  pure (encU16 r.id ++ (encU16 r.unknown0 ++ columnName))

/-- Derived `BinWrite`, `src/pdb/mod.rs` 1574-1593. -/
def write (r : ColumnEntry) : Wr Unit := Wr.emitRes r.enc

/-- Derived `BinRead`, `src/pdb/mod.rs` 1574-1593. -/
def read : Rd ColumnEntry := do
  let id ← Rd.u16
  let unknown0 ← Rd.u16
  let columnName ← DString.read
  pure {
    id, unknown0, columnName }

/-- `heap_bytes_required`, `src/pdb/mod.rs` 1612-1623. -/
def heapBytes (r : ColumnEntry) : Res Nat :=
  sumHeap [.ok 2, .ok 2, r.columnName.heapBytes]

end ColumnEntry

/-- `Menu`, `src/pdb/mod.rs` 1888-1918. -/
structure Menu where
  categoryId : UInt16
  contentPointer : UInt16
  unknown : UInt8
  visibility : MenuVisibility
  sortOrder : UInt16
  deriving DecidableEq, Repr

namespace Menu

/-- Derived `BinWrite`, `src/pdb/mod.rs` 1888-1918, as the bytes written. -/
def enc (r : Menu) : Res Bytes := do
  pure (encU16 r.categoryId ++ (encU16 r.contentPointer ++ (encU8 r.unknown ++ (r.visibility.enc ++
  encU16 r.sortOrder))))

/-- Derived `BinWrite`, `src/pdb/mod.rs` 1888-1918. -/
def write (r : Menu) : Wr Unit := Wr.emitRes r.enc

/-- Derived `BinRead`, `src/pdb/mod.rs` 1888-1918. -/
def read : Rd Menu := do
  let categoryId ← Rd.u16
  let contentPointer ← Rd.u16
  let unknown ← Rd.u8
  let visibility ← MenuVisibility.read
  let sortOrder ← Rd.u16
  pure {
    categoryId, contentPointer, unknown, visibility, sortOrder }

/-- `heap_bytes_required`, `src/pdb/mod.rs` 1920-1933. -/
def heapBytes (_r : Menu) : Res Nat :=
  sumHeap [.ok 2, .ok 2, .ok 1, .ok 1, .ok 2]

end Menu

/-- `Track`, `src/pdb/mod.rs` 1733-1804. -/
structure Track where
  subtype : UInt16
  indexShift : UInt16
  bitmask : UInt32
  sampleRate : UInt32
  composerId : UInt32
  fileSize : UInt32
  unknown2 : UInt32
  unknown3 : UInt16
  unknown4 : UInt16
  artworkId : UInt32
  keyId : UInt32
  origArtistId : UInt32
  labelId : UInt32
  remixerId : UInt32
  bitrate : UInt32
  trackNumber : UInt32
  tempo : UInt32
  genreId : UInt32
  albumId : UInt32
  artistId : UInt32
  id : UInt32
  discNumber : UInt16
  playCount : UInt16
  year : UInt16
  sampleDepth : UInt16
  duration : UInt16
  unknown5 : UInt16
  color : ColorIndex
  rating : UInt8
  fileType : FileType
  offsets : OffsetContainer TrackStrings
  deriving DecidableEq, Repr

namespace Track

/-- The fields before the offset array as written, `src/pdb/mod.rs` 1733-1804. -/
def head (r : Track) : Bytes :=
  encU16 r.subtype ++ (encU16 r.indexShift ++ (encU32 r.bitmask ++ (encU32 r.sampleRate ++ (encU32
  r.composerId ++ (encU32 r.fileSize ++ (encU32 r.unknown2 ++ (encU16 r.unknown3 ++ (encU16
  r.unknown4 ++ (encU32 r.artworkId ++ (encU32 r.keyId ++ (encU32 r.origArtistId ++ (encU32
  r.labelId ++ (encU32 r.remixerId ++ (encU32 r.bitrate ++ (encU32 r.trackNumber ++ (encU32 r.tempo
  ++ (encU32 r.genreId ++ (encU32 r.albumId ++ (encU32 r.artistId ++ (encU32 r.id ++ (encU16
  r.discNumber ++ (encU16 r.playCount ++ (encU16 r.year ++ (encU16 r.sampleDepth ++ (encU16
  r.duration ++ (encU16 r.unknown5 ++ (r.color.enc ++ (encU8 r.rating ++
  r.fileType.enc))))))))))))))))))))))))))))

/-- Derived `BinWrite`, `src/pdb/mod.rs` 1733-1804. -/
def write (r : Track) : Wr Unit := do
  Wr.emit r.head
  r.offsets.write 92 (offsetSizeOf r.subtype)

/-- Derived `BinRead`, `src/pdb/mod.rs` 1733-1804. -/
def read : Rd Track := do
  let subtype ← Rd.u16
  let indexShift ← Rd.u16
  let bitmask ← Rd.u32
  let sampleRate ← Rd.u32
  let composerId ← Rd.u32
  let fileSize ← Rd.u32
  let unknown2 ← Rd.u32
  let unknown3 ← Rd.u16
  let unknown4 ← Rd.u16
  let artworkId ← Rd.u32
  let keyId ← Rd.u32
  let origArtistId ← Rd.u32
  let labelId ← Rd.u32
  let remixerId ← Rd.u32
  let bitrate ← Rd.u32
  let trackNumber ← Rd.u32
  let tempo ← Rd.u32
  let genreId ← Rd.u32
  let albumId ← Rd.u32
  let artistId ← Rd.u32
  let id ← Rd.u32
  let discNumber ← Rd.u16
  let playCount ← Rd.u16
  let year ← Rd.u16
  let sampleDepth ← Rd.u16
  let duration ← Rd.u16
  let unknown5 ← Rd.u16
  let color ← ColorIndex.read
  let rating ← Rd.u8
  let fileType ← FileType.read
  let offsets ← OffsetContainer.read 92 (offsetSizeOf subtype)
  pure {
    subtype, indexShift, bitmask, sampleRate, composerId, fileSize, unknown2, unknown3, unknown4,
    artworkId, keyId, origArtistId, labelId, remixerId, bitrate, trackNumber, tempo, genreId,
    albumId, artistId, id, discNumber, playCount, year, sampleDepth, duration, unknown5, color,
    rating, fileType, offsets }

/-- `heap_bytes_required`, `src/pdb/mod.rs` 1823-1863. -/
def heapBytes (r : Track) : Res Nat :=
  sumHeap [.ok 2, .ok 2, .ok 4, .ok 4, .ok 4, .ok 4, .ok 4, .ok 2, .ok 2, .ok 4, .ok 4, .ok 4, .ok
  4, .ok 4, .ok 4, .ok 4, .ok 4, .ok 4, .ok 4, .ok 4, .ok 4, .ok 2, .ok 2, .ok 2, .ok 2, .ok 2, .ok
  2, .ok 1, .ok 1, .ok 2, r.offsets.heapBytes (offsetSizeOf r.subtype)]

end Track

/-- `TagOrCategory`, `src/pdb/ext.rs` 87-115.  `parent_id` is `Option<NonZero<u32>>` with `br(try)`
(`src/pdb/ext.rs` 42-50); `None` is 0 here, and reading it is reading a `u32`: zero makes `NonZero` fail
after its four bytes, and an end of file makes the next field fail. -/
structure TagOrCategory where
  subtype : UInt16
  indexShift : UInt16
  unknown1 : UInt32
  unknown2 : UInt32
  parentId : UInt32
  position : UInt32
  id : UInt32
  rawIsCategory : UInt32
  offsets : OffsetContainer TagOrCategoryStrings
  deriving DecidableEq, Repr

namespace TagOrCategory

/-- The fields before the offset array as written, `src/pdb/ext.rs` 87-115. -/
def head (r : TagOrCategory) : Bytes :=
  encU16 r.subtype ++ (encU16 r.indexShift ++ (encU32 r.unknown1 ++ (encU32 r.unknown2 ++ (encU32
  r.parentId ++ (encU32 r.position ++ (encU32 r.id ++ encU32 r.rawIsCategory))))))

/-- Derived `BinWrite`, `src/pdb/ext.rs` 87-115. -/
def write (r : TagOrCategory) : Wr Unit := do
  Wr.emit r.head
  r.offsets.write 28 (offsetSizeOf r.subtype)

/-- Derived `BinRead`, `src/pdb/ext.rs` 87-115. -/
def read : Rd TagOrCategory := do
  let subtype ← Rd.u16
  let indexShift ← Rd.u16
  let unknown1 ← Rd.u32
  let unknown2 ← Rd.u32
  let parentId ← Rd.u32
  let position ← Rd.u32
  let id ← Rd.u32
  let rawIsCategory ← Rd.u32
  let offsets ← OffsetContainer.read 28 (offsetSizeOf subtype)
  pure {
    subtype, indexShift, unknown1, unknown2, parentId, position, id, rawIsCategory, offsets }

/-- `heap_bytes_required`, `src/pdb/ext.rs` 117-135. -/
def heapBytes (r : TagOrCategory) : Res Nat :=
  sumHeap [.ok 2, .ok 2, .ok 4, .ok 4, .ok 4, .ok 4, .ok 4, .ok 4, r.offsets.heapBytes
  (offsetSizeOf r.subtype)]

end TagOrCategory

/-- `TrackTag`, `src/pdb/ext.rs` 139-150. -/
structure TrackTag where
  trackId : UInt32
  tagId : UInt32
  unknownConst : UInt32
  deriving DecidableEq, Repr

namespace TrackTag

/-- Derived `BinWrite`, `src/pdb/ext.rs` 139-150, as the bytes written. -/
def enc (r : TrackTag) : Res Bytes := do
  pure (encU32 0 ++ (encU32 r.trackId ++ (encU32 r.tagId ++ encU32 r.unknownConst)))

/-- Derived `BinWrite`, `src/pdb/ext.rs` 139-150. -/
def write (r : TrackTag) : Wr Unit := Wr.emitRes r.enc

/-- Derived `BinRead`, `src/pdb/ext.rs` 139-150. -/
def read : Rd TrackTag := do
  Rd.magic (encU32 0)
  let trackId ← Rd.u32
  let tagId ← Rd.u32
  let unknownConst ← Rd.u32
  pure {
    trackId, tagId, unknownConst }

/-- `heap_bytes_required`, `src/pdb/ext.rs` 152-164. -/
def heapBytes (_r : TrackTag) : Res Nat :=
  sumHeap [.ok 4, .ok 4, .ok 4, .ok 4]

end TrackTag

/-- `PlainRow`, `src/pdb/mod.rs` 1953-2014. -/
inductive PlainRow where
  | album (r : Album)
  | artist (r : Artist)
  | artwork (r : Artwork)
  | color (r : Color)
  | genre (r : Genre)
  | historyPlaylist (r : HistoryPlaylist)
  | historyEntry (r : HistoryEntry)
  | history (r : History)
  | key (r : Key)
  | label (r : Label)
  | playlistTreeNode (r : PlaylistTreeNode)
  | playlistEntry (r : PlaylistEntry)
  | columnEntry (r : ColumnEntry)
  | menu (r : Menu)
  | track (r : Track)
  deriving DecidableEq, Repr

namespace PlainRow

/-- Derived `BinWrite`, `src/pdb/mod.rs` 1953-2014. -/
def write : PlainRow → Wr Unit
  | album r => r.write
  | artist r => r.write
  | artwork r => r.write
  | color r => r.write
  | genre r => r.write
  | historyPlaylist r => r.write
  | historyEntry r => r.write
  | history r => r.write
  | key r => r.write
  | label r => r.write
  | playlistTreeNode r => r.write
  | playlistEntry r => r.write
  | columnEntry r => r.write
  | menu r => r.write
  | track r => r.write

/-- Derived `BinRead`, `src/pdb/mod.rs` 1953-2014.  Each variant is guarded by a `pre_assert` on the page
type; the guards exclude each other, so at most one variant is parsed (the error is then an enum
error). -/
def read : PlainPageType → Rd PlainRow
  | .albums => do let r ← Album.read; pure (.album r)
  | .artists => do let r ← Artist.read; pure (.artist r)
  | .artwork => do let r ← Artwork.read; pure (.artwork r)
  | .colors => do let r ← Color.read; pure (.color r)
  | .genres => do let r ← Genre.read; pure (.genre r)
  | .historyPlaylists => do let r ← HistoryPlaylist.read; pure (.historyPlaylist r)
  | .historyEntries => do let r ← HistoryEntry.read; pure (.historyEntry r)
  | .history => do let r ← History.read; pure (.history r)
  | .keys => do let r ← Key.read; pure (.key r)
  | .labels => do let r ← Label.read; pure (.label r)
  | .playlistTree => do let r ← PlaylistTreeNode.read; pure (.playlistTreeNode r)
  | .playlistEntries => do let r ← PlaylistEntry.read; pure (.playlistEntry r)
  | .columns => do let r ← ColumnEntry.read; pure (.columnEntry r)
  | .menu => do let r ← Menu.read; pure (.menu r)
  | .tracks => do let r ← Track.read; pure (.track r)

/-- `heap_bytes_required`, `src/pdb/mod.rs` 2016-2039. -/
def heapBytes : PlainRow → Res Nat
  | album r => r.heapBytes
  | artist r => r.heapBytes
  | artwork r => r.heapBytes
  | color r => r.heapBytes
  | genre r => r.heapBytes
  | historyPlaylist r => r.heapBytes
  | historyEntry r => r.heapBytes
  | history r => r.heapBytes
  | key r => r.heapBytes
  | label r => r.heapBytes
  | playlistTreeNode r => r.heapBytes
  | playlistEntry r => r.heapBytes
  | columnEntry r => r.heapBytes
  | menu r => r.heapBytes
  | track r => r.heapBytes

/-- The page type of the table a row belongs to: `RowVariant::PAGE_TYPE`, `src/pdb/mod.rs` 1028, 1080,
1123, 1169, 1212, 1252, 1294, 1370, 1400, 1441, 1489, 1543, 1596, 1807, 1936. -/
def pageType : PlainRow → PlainPageType
  | album _ => .albums
  | artist _ => .artists
  | artwork _ => .artwork
  | color _ => .colors
  | genre _ => .genres
  | historyPlaylist _ => .historyPlaylists
  | historyEntry _ => .historyEntries
  | history _ => .history
  | key _ => .keys
  | label _ => .labels
  | playlistTreeNode _ => .playlistTree
  | playlistEntry _ => .playlistEntries
  | columnEntry _ => .columns
  | menu _ => .menu
  | track _ => .tracks

end PlainRow

/-- `ExtRow`, `src/pdb/ext.rs` 179-196. -/
inductive ExtRow where
  | tag (r : TagOrCategory)
  | trackTag (r : TrackTag)
  deriving DecidableEq, Repr

namespace ExtRow

/-- Derived `BinWrite`, `src/pdb/ext.rs` 179-196. -/
def write : ExtRow → Wr Unit
  | tag r => r.write
  | trackTag r => r.write

/-- Derived `BinRead`, `src/pdb/ext.rs` 179-196; the guards exclude each other. -/
def read : ExtPageType → Rd ExtRow
  | .tag => do let r ← TagOrCategory.read; pure (.tag r)
  | .trackTag => do let r ← TrackTag.read; pure (.trackTag r)

/-- `heap_bytes_required`, `src/pdb/ext.rs` 198-206. -/
def heapBytes : ExtRow → Res Nat
  | tag r => r.heapBytes
  | trackTag r => r.heapBytes

end ExtRow

/-- `Row`, `src/pdb/mod.rs` 2042-2078. -/
inductive Row where
  | plain (r : PlainRow)
  | ext (r : ExtRow)
  | unknown
  deriving DecidableEq, Repr

namespace Row

/-- Derived `BinWrite`, `src/pdb/mod.rs` 2042-2078; `Unknown` writes nothing. -/
def write : Row → Wr Unit
  | plain r => r.write
  | ext r => r.write
  | unknown => pure ()

/-- Derived `BinRead`, `src/pdb/mod.rs` 2042-2078; the guards exclude each other. -/
def read : PageType → Rd Row
  | .plain t => do let r ← PlainRow.read t; pure (.plain r)
  | .ext t => do let r ← ExtRow.read t; pure (.ext r)
  | .unknown _ => pure .unknown

/-- `heap_bytes_required`, `src/pdb/mod.rs` 2093-2102. -/
def heapBytes : Row → Res Nat
  | plain r => r.heapBytes
  | ext r => r.heapBytes
  | unknown => .panic

end Row

end Rekordcrate
