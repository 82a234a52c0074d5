import Verif.Model.Database

/-! # The database in a build without overflow checks (`cargo build --release`)

The rest of the model describes a build with overflow checks, where arithmetic that leaves the range of its
type panics.  `Cargo.toml` has no `profile` section, so in a release build the same arithmetic wraps.
This file models, function by function, the code of `src/pdb` that does such arithmetic, and what calls it,
for a release build; the names end in `Wrap`.  Functions without arithmetic are those of the other files.
`unwrap`, `expect`, indexing and the setters of bit fields panic in every build.  `usize` has 64 bits. -/

namespace Rekordcrate

/-- `u16` addition without overflow checks.  For instance `src/pdb/mod.rs` 581 and 587. -/
def addWrap16 (a b : Nat) : Nat := (a + b) % 65536

/-- `u16` subtraction without overflow checks.  For instance `src/pdb/string.rs` 243. -/
def subWrap16 (a b : Nat) : Nat := (a + 65536 - b) % 65536

/-- `u32` subtraction without overflow checks.  For instance `src/pdb/mod.rs` 686-688. -/
def subWrap32 (a b : Nat) : Nat := (a + 2 ^ 32 - b) % 2 ^ 32

/-- `usize` subtraction without overflow checks.  For instance `src/pdb/io.rs` 108. -/
def subWrap64 (a b : Nat) : Nat := (a + 2 ^ 64 - b) % 2 ^ 64

/-! ## Strings -/

namespace DString

/-- `heap_bytes_required`, `src/pdb/string.rs` 184-199. -/
def heapWrap : DString → Res Nat
  | .short bs => .ok (addWrap16 1 (bs.length % 65536))
  | .long b => match b.byteCount with
    | .ok n => .ok (addWrap16 4 n)
    | _ => .panic

/-- Derived `BinWrite`, `src/pdb/string.rs` 215-246. -/
def encWrap : DString → Res Bytes
  | .short bs => .ok ([UInt8.ofNat (((bs.length + 1) * 2 + 1) % 256)] ++ bs)
  | .long b => match b.byteCount with
    | .ok n => .ok ([b.flags] ++ (encU16 (UInt16.ofNat (addWrap16 n 4)) ++ ([0] ++ b.enc)))
    | _ => .panic

/-- Derived `BinRead` of the `ShortASCII` variant, `src/pdb/string.rs` 217-229; the count is a `usize`. -/
def readShortWrap : Rd DString := do
  let header ← Rd.u8
  Rd.require (header.toNat % 2 == 1)
  let content ← Rd.bytes (subWrap64 (header.toNat / 2) 1)
  pure (.short content)

/-- Derived `BinRead` of the `Long` variant, `src/pdb/string.rs` 231-245; the length is a `u16`. -/
def readLongWrap : Rd DString := do
  let flags ← Rd.u8
  Rd.require (flags.toNat % 2 == 0)
  let length ← Rd.u16
  Rd.magic [0]
  let content ← LongBody.read flags (subWrap16 length.toNat 4)
  pure (.long content)

/-- Derived `BinRead` of `DeviceSQLString`, `src/pdb/string.rs` 58-61 and 215-246. -/
def readWrap : Rd DString := Rd.orElse readShortWrap readLongWrap

end DString

/-! ## Offset arrays -/

namespace OffsetContainer

variable {T : Type} [OffsetItems T]

/-- The reading loop, `src/pdb/offset_array.rs` 158-164, with `try_map_polyfill`
(`src/util.rs` 219-229). -/
def readItemsWrap (d : Bytes) (base : Nat) : Nat → List Nat → Res (List DString)
  | _, [] => .ok []
  | cur, o :: os =>
    match DString.readWrap d (cur + o) with
    | .ok (v, _) =>
      match readItemsWrap d base base os with
      | .ok vs => .ok (v :: vs)
      | .err e => .err e
      | .panic => .panic
    | .err e =>
      match readItemsWrap d base (cur + o) os with
      | .panic => .panic
      | _ => .err e
    | .panic => .panic

/-- The reading loop as a reader, `src/pdb/offset_array.rs` 158-164. -/
def readAllWrap (base : Nat) (seeks : List Nat) : Rd (List DString) := fun d p =>
  match readItemsWrap d base p seeks with
  | .ok vs => .ok (vs, base)
  | .err e => .err e
  | .panic => .panic

/-- `BinRead`, `src/pdb/offset_array.rs` 143-170. -/
def readWrap (offset : Nat) (size : OffsetSize) : Rd (OffsetContainer T) := do
  let start ← Rd.pos
  let offsets ← OffsetArray.read (OffsetItems.count T) size
  Rd.require (offsets.sizeMatches size)
  let base ← Rd.lift (calculateBase start offset)
  Rd.seekTo base
  let parsed ← readAllWrap base offsets.seeks
  pure { offsets := some offsets, inner := OffsetItems.fromItems parsed }

/-- The writing loop for calculated offsets, `src/pdb/offset_array.rs` 194-209. -/
def writeItemsWrap (base : Nat) : List DString → Wr (List Nat)
  | [] => pure []
  | v :: vs => do
    let cur ← Wr.pos
    let aligned := alignedOffset (cur - base) v.alignment
    Wr.emit (List.replicate (aligned - (cur - base)) 0)
    Wr.emitRes v.encWrap
    let os ← writeItemsWrap base vs
    pure (aligned :: os)

/-- The writing loop for provided offsets, `src/pdb/offset_array.rs` 228-236. -/
def writeProvidedWrap (base : Nat) : List (DString × Nat) → Wr Unit
  | [] => pure ()
  | (v, o) :: rest => do
    Wr.seekBy o
    Wr.emitRes v.encWrap
    Wr.seekTo base
    writeProvidedWrap base rest

/-- `BinWrite`, `src/pdb/offset_array.rs` 181-239. -/
def writeWrap (c : OffsetContainer T) (offset : Nat) (size : OffsetSize) : Wr Unit := do
  let start ← Wr.pos
  let base ← Wr.lift (calculateBase start offset)
  let items := OffsetItems.asItems c.inner
  match c.offsets with
  | none =>
    Wr.seekBy (((OffsetItems.count T + 1) * size.bytes : Nat) : Int)
    let raw ← writeItemsWrap base items
    let offsets ← Wr.lift (OffsetArray.new raw size)
    Wr.seekTo start
    Wr.emit offsets.enc
  | some offsets =>
    Wr.lift (if offsets.sizeMatches size then .ok () else .err .assertFail)
    Wr.emit offsets.enc
    Wr.seekTo base
    writeProvidedWrap base (items.zip offsets.seeks)

/-- The loop of `heap_bytes_required`, `src/pdb/offset_array.rs` 249-255. -/
def heapLoopWrap (calculated : Bool) : Nat → List DString → Res Nat
  | total, [] => .ok total
  | total, v :: vs => do
    let total := if calculated then alignedOffset total v.alignment % 65536 else total
    let n ← v.heapWrap
    heapLoopWrap calculated (addWrap16 total n) vs

/-- `heap_bytes_required`, `src/pdb/offset_array.rs` 242-258. -/
def heapWrap (c : OffsetContainer T) (size : OffsetSize) : Res Nat :=
  heapLoopWrap c.offsets.isNone (((OffsetItems.count T + 1) * size.bytes) % 65536)
    (OffsetItems.asItems c.inner)

end OffsetContainer

/-! ## Rows

Rows without strings (`HistoryEntry`, `PlaylistEntry`, `Menu`, `TrackTag`) have no arithmetic that can
overflow. -/

/-- `[..].iter().sum()` of the `heap_bytes_required` implementations: a wrapping `u16` sum.  The implementations
are in `src/pdb/mod.rs`, for instance 1044-1060. -/
def sumHeapWrap : List (Res Nat) → Res Nat
  | [] => .ok 0
  | x :: xs => do
    let a ← x
    let s ← sumHeapWrap xs
    .ok (addWrap16 a s)

namespace Album

/-- Derived `BinWrite`, `src/pdb/mod.rs` 1005-1025. -/
def writeWrap (r : Album) : Wr Unit := do
  Wr.emit r.head
  r.offsets.writeWrap 20 (offsetSizeOf r.subtype)

/-- Derived `BinRead`, `src/pdb/mod.rs` 1005-1025. -/
def readWrap : Rd Album := do
  let subtype ← Rd.u16
  let indexShift ← Rd.u16
  let unknown2 ← Rd.u32
  let artistId ← Rd.u32
  let id ← Rd.u32
  let unknown3 ← Rd.u32
  let offsets ← OffsetContainer.readWrap 20 (offsetSizeOf subtype)
  pure {
    subtype, indexShift, unknown2, artistId, id, unknown3, offsets }

/-- `heap_bytes_required`, `src/pdb/mod.rs` 1044-1060. -/
def heapWrap (r : Album) : Res Nat :=
  sumHeapWrap [.ok 2, .ok 2, .ok 4, .ok 4, .ok 4, .ok 4, r.offsets.heapWrap (offsetSizeOf r.subtype)]

end Album

namespace Artist

/-- Derived `BinWrite`, `src/pdb/mod.rs` 1063-1077. -/
def writeWrap (r : Artist) : Wr Unit := do
  Wr.emit r.head
  r.offsets.writeWrap 8 (offsetSizeOf r.subtype)

/-- Derived `BinRead`, `src/pdb/mod.rs` 1063-1077. -/
def readWrap : Rd Artist := do
  let subtype ← Rd.u16
  let indexShift ← Rd.u16
  let id ← Rd.u32
  let offsets ← OffsetContainer.readWrap 8 (offsetSizeOf subtype)
  pure {
    subtype, indexShift, id, offsets }

/-- `heap_bytes_required`, `src/pdb/mod.rs` 1096-1109. -/
def heapWrap (r : Artist) : Res Nat :=
  sumHeapWrap [.ok 2, .ok 2, .ok 4, r.offsets.heapWrap (offsetSizeOf r.subtype)]

end Artist

namespace Artwork

/-- Derived `BinWrite`, `src/pdb/mod.rs` 1112-1120, as the bytes written. -/
def encWrap (r : Artwork) : Res Bytes := do
  let path ← r.path.encWrap
  pure (encU32 r.id ++ path)

/-- Derived `BinWrite`, `src/pdb/mod.rs` 1112-1120. -/
def writeWrap (r : Artwork) : Wr Unit := Wr.emitRes r.encWrap

/-- Derived `BinRead`, `src/pdb/mod.rs` 1112-1120. -/
def readWrap : Rd Artwork := do
  let id ← Rd.u32
  let path ← DString.readWrap
  pure {
    id, path }

/-- `heap_bytes_required`, `src/pdb/mod.rs` 1139-1149. -/
def heapWrap (r : Artwork) : Res Nat :=
  sumHeapWrap [.ok 4, r.path.heapWrap]

end Artwork

namespace Color

/-- Derived `BinWrite`, `src/pdb/mod.rs` 1152-1166, as the bytes written. -/
def encWrap (r : Color) : Res Bytes := do
  let name ← r.name.encWrap
  pure (encU32 r.unknown1 ++ (encU8 r.unknown2 ++ (r.color.enc ++ (encU16 r.unknown3 ++ name))))

/-- Derived `BinWrite`, `src/pdb/mod.rs` 1152-1166. -/
def writeWrap (r : Color) : Wr Unit := Wr.emitRes r.encWrap

/-- Derived `BinRead`, `src/pdb/mod.rs` 1152-1166. -/
def readWrap : Rd Color := do
  let unknown1 ← Rd.u32
  let unknown2 ← Rd.u8
  let color ← ColorIndex.read
  let unknown3 ← Rd.u16
  let name ← DString.readWrap
  pure {
    unknown1, unknown2, color, unknown3, name }

/-- `heap_bytes_required`, `src/pdb/mod.rs` 1185-1198. -/
def heapWrap (r : Color) : Res Nat :=
  sumHeapWrap [.ok 4, .ok 1, .ok 1, .ok 2, r.name.heapWrap]

end Color

namespace Genre

/-- Derived `BinWrite`, `src/pdb/mod.rs` 1201-1209, as the bytes written. -/
def encWrap (r : Genre) : Res Bytes := do
  let name ← r.name.encWrap
  pure (encU32 r.id ++ name)

/-- Derived `BinWrite`, `src/pdb/mod.rs` 1201-1209. -/
def writeWrap (r : Genre) : Wr Unit := Wr.emitRes r.encWrap

/-- Derived `BinRead`, `src/pdb/mod.rs` 1201-1209. -/
def readWrap : Rd Genre := do
  let id ← Rd.u32
  let name ← DString.readWrap
  pure {
    id, name }

/-- `heap_bytes_required`, `src/pdb/mod.rs` 1228-1238. -/
def heapWrap (r : Genre) : Res Nat :=
  sumHeapWrap [.ok 4, r.name.heapWrap]

end Genre

namespace HistoryPlaylist

/-- Derived `BinWrite`, `src/pdb/mod.rs` 1241-1249, as the bytes written. -/
def encWrap (r : HistoryPlaylist) : Res Bytes := do
  let name ← r.name.encWrap
  pure (encU32 r.id ++ name)

/-- Derived `BinWrite`, `src/pdb/mod.rs` 1241-1249. -/
def writeWrap (r : HistoryPlaylist) : Wr Unit := Wr.emitRes r.encWrap

/-- Derived `BinRead`, `src/pdb/mod.rs` 1241-1249. -/
def readWrap : Rd HistoryPlaylist := do
  let id ← Rd.u32
  let name ← DString.readWrap
  pure {
    id, name }

/-- `heap_bytes_required`, `src/pdb/mod.rs` 1268-1278. -/
def heapWrap (r : HistoryPlaylist) : Res Nat :=
  sumHeapWrap [.ok 4, r.name.heapWrap]

end HistoryPlaylist

namespace History

/-- Derived `BinWrite`, `src/pdb/mod.rs` 1328-1349, as the bytes written. -/
def encWrap (r : History) : Res Bytes := do
  let date ← r.date.encWrap
  let version ← r.version.encWrap
  let label ← r.label.encWrap
  pure (encU16 r.subtype ++ (encU16 r.indexShift ++ (encU32 r.numTracks ++ (encU32 0 ++ (date ++
  (encU16 0x1E19 ++ (version ++ label)))))))

/-- Derived `BinWrite`, `src/pdb/mod.rs` 1328-1349. -/
def writeWrap (r : History) : Wr Unit := Wr.emitRes r.encWrap

/-- Derived `BinRead`, `src/pdb/mod.rs` 1328-1349. -/
def readWrap : Rd History := do
  let subtype ← Rd.u16
  let indexShift ← Rd.u16
  let numTracks ← Rd.u32
  Rd.magic (encU32 0)
  let date ← DString.readWrap
  Rd.magic (encU16 0x1E19)
  let version ← DString.readWrap
  let label ← DString.readWrap
  pure {
    subtype, indexShift, numTracks, date, version, label }

/-- `heap_bytes_required`, `src/pdb/mod.rs` 1351-1367. -/
def heapWrap (r : History) : Res Nat :=
  sumHeapWrap [.ok 2, .ok 2, .ok 4, .ok 4, r.date.heapWrap, .ok 2, r.version.heapWrap,
  r.label.heapWrap]

end History

namespace Key

/-- Derived `BinWrite`, `src/pdb/mod.rs` 1387-1397, as the bytes written. -/
def encWrap (r : Key) : Res Bytes := do
  let name ← r.name.encWrap
  pure (encU32 r.id ++ (encU32 r.id2 ++ name))

/-- Derived `BinWrite`, `src/pdb/mod.rs` 1387-1397. -/
def writeWrap (r : Key) : Wr Unit := Wr.emitRes r.encWrap

/-- Derived `BinRead`, `src/pdb/mod.rs` 1387-1397. -/
def readWrap : Rd Key := do
  let id ← Rd.u32
  let id2 ← Rd.u32
  let name ← DString.readWrap
  pure {
    id, id2, name }

/-- `heap_bytes_required`, `src/pdb/mod.rs` 1416-1427. -/
def heapWrap (r : Key) : Res Nat :=
  sumHeapWrap [.ok 4, .ok 4, r.name.heapWrap]

end Key

namespace Label

/-- Derived `BinWrite`, `src/pdb/mod.rs` 1430-1438, as the bytes written. -/
def encWrap (r : Label) : Res Bytes := do
  let name ← r.name.encWrap
  pure (encU32 r.id ++ name)

/-- Derived `BinWrite`, `src/pdb/mod.rs` 1430-1438. -/
def writeWrap (r : Label) : Wr Unit := Wr.emitRes r.encWrap

/-- Derived `BinRead`, `src/pdb/mod.rs` 1430-1438. -/
def readWrap : Rd Label := do
  let id ← Rd.u32
  let name ← DString.readWrap
  pure {
    id, name }

/-- `heap_bytes_required`, `src/pdb/mod.rs` 1457-1467. -/
def heapWrap (r : Label) : Res Nat :=
  sumHeapWrap [.ok 4, r.name.heapWrap]

end Label

namespace PlaylistTreeNode

/-- Derived `BinWrite`, `src/pdb/mod.rs` 1470-1486, as the bytes written. -/
def encWrap (r : PlaylistTreeNode) : Res Bytes := do
  let name ← r.name.encWrap
  pure (encU32 r.parentId ++ (encU32 r.unknown ++ (encU32 r.sortOrder ++ (encU32 r.id ++ (encU32
  r.nodeIsFolder ++ name)))))

/-- Derived `BinWrite`, `src/pdb/mod.rs` 1470-1486. -/
def writeWrap (r : PlaylistTreeNode) : Wr Unit := Wr.emitRes r.encWrap

/-- Derived `BinRead`, `src/pdb/mod.rs` 1470-1486. -/
def readWrap : Rd PlaylistTreeNode := do
  let parentId ← Rd.u32
  let unknown ← Rd.u32
  let sortOrder ← Rd.u32
  let id ← Rd.u32
  let nodeIsFolder ← Rd.u32
  let name ← DString.readWrap
  pure {
    parentId, unknown, sortOrder, id, nodeIsFolder, name }

/-- `heap_bytes_required`, `src/pdb/mod.rs` 1513-1527. -/
def heapWrap (r : PlaylistTreeNode) : Res Nat :=
  sumHeapWrap [.ok 4, .ok 4, .ok 4, .ok 4, .ok 4, r.name.heapWrap]

end PlaylistTreeNode

namespace ColumnEntry

/-- Derived `BinWrite`, `src/pdb/mod.rs` 1574-1593, as the bytes written. -/
def encWrap (r : ColumnEntry) : Res Bytes := do
  let columnName ← r.columnName.encWrap
  pure (encU16 r.id ++ (encU16 r.unknown0 ++ columnName))

/-- Derived `BinWrite`, `src/pdb/mod.rs` 1574-1593. -/
def writeWrap (r : ColumnEntry) : Wr Unit := Wr.emitRes r.encWrap

/-- Derived `BinRead`, `src/pdb/mod.rs` 1574-1593. -/
def readWrap : Rd ColumnEntry := do
  let id ← Rd.u16
  let unknown0 ← Rd.u16
  let columnName ← DString.readWrap
  pure {
    id, unknown0, columnName }

/-- `heap_bytes_required`, `src/pdb/mod.rs` 1612-1623. -/
def heapWrap (r : ColumnEntry) : Res Nat :=
  sumHeapWrap [.ok 2, .ok 2, r.columnName.heapWrap]

end ColumnEntry

namespace Track

/-- Derived `BinWrite`, `src/pdb/mod.rs` 1733-1804. -/
def writeWrap (r : Track) : Wr Unit := do
  Wr.emit r.head
  r.offsets.writeWrap 92 (offsetSizeOf r.subtype)

/-- Derived `BinRead`, `src/pdb/mod.rs` 1733-1804. -/
def readWrap : Rd Track := do
  let subtype ← Rd.u16
  let indexShift ← Rd.u16
  let bitmask ← Rd.u32
  let sampleRate ← Rd.u32
  let composerId ← Rd.u32
  let fileSize ← Rd.u32
  let unknown2 ← Rd.u32
  let unknown3 ← Rd.u16
  let unknown4 ← Rd.u16
  let artworkId ← Rd.u32
  let keyId ← Rd.u32
  let origArtistId ← Rd.u32
  let labelId ← Rd.u32
  let remixerId ← Rd.u32
  let bitrate ← Rd.u32
  let trackNumber ← Rd.u32
  let tempo ← Rd.u32
  let genreId ← Rd.u32
  let albumId ← Rd.u32
  let artistId ← Rd.u32
  let id ← Rd.u32
  let discNumber ← Rd.u16
  let playCount ← Rd.u16
  let year ← Rd.u16
  let sampleDepth ← Rd.u16
  let duration ← Rd.u16
  let unknown5 ← Rd.u16
  let color ← ColorIndex.read
  let rating ← Rd.u8
  let fileType ← FileType.read
  let offsets ← OffsetContainer.readWrap 92 (offsetSizeOf subtype)
  pure {
    subtype, indexShift, bitmask, sampleRate, composerId, fileSize, unknown2, unknown3, unknown4,
    artworkId, keyId, origArtistId, labelId, remixerId, bitrate, trackNumber, tempo, genreId,
    albumId, artistId, id, discNumber, playCount, year, sampleDepth, duration, unknown5, color,
    rating, fileType, offsets }

/-- `heap_bytes_required`, `src/pdb/mod.rs` 1823-1863. -/
def heapWrap (r : Track) : Res Nat :=
  sumHeapWrap [.ok 2, .ok 2, .ok 4, .ok 4, .ok 4, .ok 4, .ok 4, .ok 2, .ok 2, .ok 4, .ok 4, .ok 4, .ok
  4, .ok 4, .ok 4, .ok 4, .ok 4, .ok 4, .ok 4, .ok 4, .ok 4, .ok 2, .ok 2, .ok 2, .ok 2, .ok 2, .ok
  2, .ok 1, .ok 1, .ok 2, r.offsets.heapWrap (offsetSizeOf r.subtype)]

end Track

namespace TagOrCategory

/-- Derived `BinWrite`, `src/pdb/ext.rs` 87-115. -/
def writeWrap (r : TagOrCategory) : Wr Unit := do
  Wr.emit r.head
  r.offsets.writeWrap 28 (offsetSizeOf r.subtype)

/-- Derived `BinRead`, `src/pdb/ext.rs` 87-115. -/
def readWrap : Rd TagOrCategory := do
  let subtype ← Rd.u16
  let indexShift ← Rd.u16
  let unknown1 ← Rd.u32
  let unknown2 ← Rd.u32
  let parentId ← Rd.u32
  let position ← Rd.u32
  let id ← Rd.u32
  let rawIsCategory ← Rd.u32
  let offsets ← OffsetContainer.readWrap 28 (offsetSizeOf subtype)
  pure {
    subtype, indexShift, unknown1, unknown2, parentId, position, id, rawIsCategory, offsets }

/-- `heap_bytes_required`, `src/pdb/ext.rs` 117-135. -/
def heapWrap (r : TagOrCategory) : Res Nat :=
  sumHeapWrap [.ok 2, .ok 2, .ok 4, .ok 4, .ok 4, .ok 4, .ok 4, .ok 4, r.offsets.heapWrap
  (offsetSizeOf r.subtype)]

end TagOrCategory

namespace PlainRow

/-- Derived `BinWrite`, `src/pdb/mod.rs` 1953-2014. -/
def writeWrap : PlainRow → Wr Unit
  | album r => r.writeWrap
  | artist r => r.writeWrap
  | artwork r => r.writeWrap
  | color r => r.writeWrap
  | genre r => r.writeWrap
  | historyPlaylist r => r.writeWrap
  | historyEntry r => r.write
  | history r => r.writeWrap
  | key r => r.writeWrap
  | label r => r.writeWrap
  | playlistTreeNode r => r.writeWrap
  | playlistEntry r => r.write
  | columnEntry r => r.writeWrap
  | menu r => r.write
  | track r => r.writeWrap

/-- Derived `BinRead`, `src/pdb/mod.rs` 1953-2014.  Each variant is guarded by a `pre_assert` on the page
type; the guards exclude each other, so at most one variant is parsed (the error is then an enum
error). -/
def readWrap : PlainPageType → Rd PlainRow
  | .albums => do let r ← Album.readWrap; pure (.album r)
  | .artists => do let r ← Artist.readWrap; pure (.artist r)
  | .artwork => do let r ← Artwork.readWrap; pure (.artwork r)
  | .colors => do let r ← Color.readWrap; pure (.color r)
  | .genres => do let r ← Genre.readWrap; pure (.genre r)
  | .historyPlaylists => do let r ← HistoryPlaylist.readWrap; pure (.historyPlaylist r)
  | .historyEntries => do let r ← HistoryEntry.read; pure (.historyEntry r)
  | .history => do let r ← History.readWrap; pure (.history r)
  | .keys => do let r ← Key.readWrap; pure (.key r)
  | .labels => do let r ← Label.readWrap; pure (.label r)
  | .playlistTree => do let r ← PlaylistTreeNode.readWrap; pure (.playlistTreeNode r)
  | .playlistEntries => do let r ← PlaylistEntry.read; pure (.playlistEntry r)
  | .columns => do let r ← ColumnEntry.readWrap; pure (.columnEntry r)
  | .menu => do let r ← Menu.read; pure (.menu r)
  | .tracks => do let r ← Track.readWrap; pure (.track r)

/-- `heap_bytes_required`, `src/pdb/mod.rs` 2016-2039. -/
def heapWrap : PlainRow → Res Nat
  | album r => r.heapWrap
  | artist r => r.heapWrap
  | artwork r => r.heapWrap
  | color r => r.heapWrap
  | genre r => r.heapWrap
  | historyPlaylist r => r.heapWrap
  | historyEntry r => r.heapBytes
  | history r => r.heapWrap
  | key r => r.heapWrap
  | label r => r.heapWrap
  | playlistTreeNode r => r.heapWrap
  | playlistEntry r => r.heapBytes
  | columnEntry r => r.heapWrap
  | menu r => r.heapBytes
  | track r => r.heapWrap

end PlainRow

namespace ExtRow

/-- Derived `BinWrite`, `src/pdb/ext.rs` 179-196. -/
def writeWrap : ExtRow → Wr Unit
  | tag r => r.writeWrap
  | trackTag r => r.write

/-- Derived `BinRead`, `src/pdb/ext.rs` 179-196; the guards exclude each other. -/
def readWrap : ExtPageType → Rd ExtRow
  | .tag => do let r ← TagOrCategory.readWrap; pure (.tag r)
  | .trackTag => do let r ← TrackTag.read; pure (.trackTag r)

/-- `heap_bytes_required`, `src/pdb/ext.rs` 198-206. -/
def heapWrap : ExtRow → Res Nat
  | tag r => r.heapWrap
  | trackTag r => r.heapBytes

end ExtRow

namespace Row

/-- Derived `BinWrite`, `src/pdb/mod.rs` 2042-2078; `Unknown` writes nothing. -/
def writeWrap : Row → Wr Unit
  | plain r => r.writeWrap
  | ext r => r.writeWrap
  | unknown => pure ()

/-- Derived `BinRead`, `src/pdb/mod.rs` 2042-2078; the guards exclude each other. -/
def readWrap : PageType → Rd Row
  | .plain t => do let r ← PlainRow.readWrap t; pure (.plain r)
  | .ext t => do let r ← ExtRow.readWrap t; pure (.ext r)
  | .unknown _ => pure .unknown

/-- `heap_bytes_required`, `src/pdb/mod.rs` 2093-2102. -/
def heapWrap : Row → Res Nat
  | plain r => r.heapWrap
  | ext r => r.heapWrap
  | unknown => .panic

end Row

/-! ## Pages -/

namespace IndexPageContent

/-- `total_entries`, `src/pdb/mod.rs` 378-384: `u32` subtractions. -/
def totalEntriesWrap (pageSize : Nat) : Nat :=
  subWrap32 (subWrap32 (subWrap32 pageSize 32) 28) 20 / 4

/-- Derived `BinWrite`, `src/pdb/mod.rs` 355-375; the number of empty entries is a `usize`. -/
def writeWrap (c : IndexPageContent) (pageSize : Nat) : Wr Unit := do
  Wr.emit c.header.enc
  Wr.emit (c.entries.flatMap IndexEntry.enc)
  Wr.emit ((List.replicate (subWrap64 (totalEntriesWrap pageSize) c.header.numEntries.toNat)
    IndexEntry.empty).flatMap IndexEntry.enc)
  Wr.emit (List.replicate 20 0)

end IndexPageContent

namespace DataPageContent

/-- `page_heap_size`, `src/pdb/mod.rs` 686-688: `u32` subtractions. -/
def pageHeapSizeWrap (pageSize : Nat) : Nat := subWrap32 (subWrap32 pageSize 32) 8

/-- `parse_at_offsets`, `src/util.rs` 146-169, for rows: the pairs of offset and row. -/
def parseAtOffsetsWrap (t : PageType) (base : Nat) : List UInt16 → Rd (List (UInt16 × Row))
  | [] => pure []
  | o :: os => do
    Rd.seekBy (o.toNat : Nat)
    let v ← Row.readWrap t
    Rd.seekTo base
    let rest ← parseAtOffsetsWrap t base os
    pure ((o, v) :: rest)

/-- `write_at_offsets`, `src/util.rs` 172-193, for one row. -/
def writeRowAtWrap (base : Nat) (x : UInt16 × Row) : Wr Unit := do
  Wr.seekBy (x.1.toNat : Nat)
  x.2.writeWrap
  Wr.seekTo base

/-- `write_at_offsets`, `src/util.rs` 172-193, for rows; a map is traversed in key order. -/
def writeAtOffsetsWrap (rows : RowMap) : Wr Unit := do
  let base ← Wr.pos
  Wr.forEach (writeRowAtWrap base) rows

/-- Derived `BinWrite`, `src/pdb/mod.rs` 649-683. -/
def writeWrap (c : DataPageContent) (pageSize : Nat) : Wr Unit := do
  Wr.emit c.header.enc
  writeGroups (pageHeapSizeWrap pageSize) c.rowGroups
  writeAtOffsetsWrap c.rows
  Wr.seekBy (pageHeapSizeWrap pageSize : Nat)

/-- The rows at all present offsets, `src/pdb/mod.rs` 667-668. -/
def readRowsWrap (t : PageType) (gs : List RowGroup) : Rd RowMap := do
  let base ← Rd.pos
  let l ← parseAtOffsetsWrap t base (gs.flatMap RowGroup.presentRowsOffsets)
  pure (RowMap.ofList l)

/-- Derived `BinRead`, `src/pdb/mod.rs` 649-683. -/
def readWrap (pageSize : Nat) (h : PageHeader) : Rd DataPageContent := do
  let header ← DataPageHeader.read
  let rowGroups ← readGroups (pageHeapSizeWrap pageSize) h.packedRowCounts.numRowGroups
  let rows ← readRowsWrap h.pageType rowGroups
  Rd.require (rows.length == h.packedRowCounts.numRowsValid.val)
  Rd.seekBy (pageHeapSizeWrap pageSize : Nat)
  pure { header, rowGroups, rows }

end DataPageContent

namespace PageContent

/-- Derived `BinWrite`, `src/pdb/mod.rs` 424-439. -/
def writeWrap (pageSize : Nat) : PageContent → Wr Unit
  | data c => c.writeWrap pageSize
  | index c => c.writeWrap pageSize

/-- Derived `BinRead`, `src/pdb/mod.rs` 424-439. -/
def readWrap (pageSize : Nat) (h : PageHeader) : Rd PageContent :=
  Rd.orElse
    (do Rd.require (!h.pageFlags.isIndexPage); let c ← DataPageContent.readWrap pageSize h; pure (.data c))
    (do Rd.require h.pageFlags.isIndexPage; let c ← IndexPageContent.read; pure (.index c))

end PageContent

namespace Page

/-- Derived `BinWrite`, `src/pdb/mod.rs` 550-564. -/
def writeWrap (pg : Page) (pageSize : Nat) : Wr Unit := do
  Wr.emit pg.header.enc
  pg.content.writeWrap pageSize

/-- Derived `BinRead`, `src/pdb/mod.rs` 550-564. -/
def readWrap (pageSize : Nat) (db : DatabaseType) : Rd Page := do
  let header ← PageHeader.read db
  let content ← PageContent.readWrap pageSize header
  pure { header, content }

/-- `u16::next_multiple_of(4)`, used in `src/pdb/mod.rs` 578. -/
def alignUp4Wrap (n : Nat) : Nat :=
  if n % 4 = 0 then n else addWrap16 n (4 - n % 4)

/-- `Page::allocate_row` up to the creation of the closure, `src/pdb/mod.rs` 573-602.  The counters of rows
are bit fields, whose setters panic in every build. -/
def allocateRowWrap (pg : Page) (bytes : UInt16) : Res (Page × Option RowSlot) :=
  match pg.content with
  | .index _ => .ok (pg, none)
  | .data dpc =>
    let bytes := alignUp4Wrap bytes.toNat
    let required := addWrap16 (addWrap16 bytes 4) 2
    if pg.header.freeSize.toNat < required then
      .ok (pg, none)
    else do
      let offset := pg.header.usedSize
      let used := addWrap16 pg.header.usedSize.toNat bytes
      let free := subWrap16 pg.header.freeSize.toNat bytes
      let counts ← pg.header.packedRowCounts.incrementNumRows
      match counts.lastRowIndex with
      | none => .panic
      | some (g, s) => do
        let groups := if g < dpc.rowGroups.length then dpc.rowGroups else dpc.rowGroups ++ [RowGroup.empty]
        let free := if g < dpc.rowGroups.length then free else subWrap16 free 4
        match groups[g]? with
        | none => .panic
        | some grp => do
          let grp ← grp.insertOffset s offset
          .ok
            ({ header := { pg.header with
                 usedSize := UInt16.ofNat used
                 freeSize := UInt16.ofNat (subWrap16 free 2)
                 packedRowCounts := counts }
               content := .data { dpc with rowGroups := groups.set g grp } },
             some ⟨offset, g, s⟩)

end Page

/-! ## The database -/

/-- `BinWrite for LazyPage`, `src/pdb/io.rs` 49-67. -/
def LazyPage.writeWrap (pageSize : UInt32) : LazyPage → Wr Unit
  | notLoaded => Wr.seekBy (pageSize.toNat : Nat)
  | loaded pg => pg.writeWrap pageSize.toNat

/-- Derived `BinWrite`, `src/pdb/io.rs` 28-41. -/
def LazyDatabase.writeWrap (c : LazyDatabase) : Wr Unit := do
  Wr.emit c.header.enc
  Wr.emit (List.replicate (c.header.pageSize.toNat - c.header.enc.length) 0)
  Wr.forEach (LazyPage.writeWrap c.header.pageSize) c.pages

/-- `read_page`, `src/pdb/io.rs` 69-80. -/
def readPageWrap (io : Bytes) (i : PageIndex) (pageSize : UInt32) (db : DatabaseType) : Res Page := do
  let off ← i.offset pageSize
  let r ← Page.readWrap pageSize.toNat db io off
  .ok r.1

/-- `PageIterator::next`, `src/pdb/io.rs` 272-310. -/
def PageIterator.nextWrap (it : PageIterator) : Res (Option Nat) × PageIterator :=
  match it.nextPage with
  | none => (.ok none, it)
  | some i =>
    if i.val.toNat < it.offset then (.err (.pageOrderViolation i.val.toNat), it)
    else
      let k := i.val.toNat - it.offset
      let taken := { it with len := 0 }
      if it.len < k then (.err (.pageNotPresent i.val.toNat), taken)
      else if it.len - k = 0 then (.err (.pageNotPresent i.val.toNat), taken)
      else
        let slot := it.start + k
        let it' : PageIterator :=
          { it with start := slot + 1, len := it.len - k - 1, offset := i.val.toNat + 1 }
        match it.pages[slot]? with
        | none => (.panic, it')
        | some (.loaded pg) =>
          (.ok (some slot), { it' with nextPage := if i = it.lastPage then none else some pg.header.nextPage })
        | some .notLoaded =>
          match readPageWrap it.io i it.pageSize it.dbType with
          | .ok pg =>
            (.ok (some slot),
              { it' with
                pages := it.pages.set slot (.loaded pg)
                nextPage := if i = it.lastPage then none else some pg.header.nextPage })
          | .err e => (.err e, it')
          | .panic => (.panic, it')

namespace Database

/-- `load_page`, `src/pdb/io.rs` 104-123: `index.0 as usize - 1`. -/
def loadPageWrap (d : Database) (i : PageIndex) : Res (Database × Page) :=
  match d.content.pages[subWrap64 i.val.toNat 1]? with
  | none => .err (.pageNotPresent i.val.toNat)
  | some (.loaded pg) => .ok (d, pg)
  | some .notLoaded => do
    let pg ← readPageWrap d.io i d.content.header.pageSize d.dbType
    .ok (d.setPage (subWrap64 i.val.toNat 1) pg, pg)

/-- `flush`, `src/pdb/io.rs` 213-218: the writes. -/
def flushWritesWrap (d : Database) : Res (List Patch) := do
  let r ← d.content.writeWrap 0
  .ok r.2.2

/-- `flush` and `close`, `src/pdb/io.rs` 213-224. -/
def flushWrap (d : Database) : Res Database := do
  let ps ← d.flushWritesWrap
  .ok { d with io := applyPatches d.io ps }

end Database

end Rekordcrate
