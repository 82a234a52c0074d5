import Verif.Spec.TextAt

/-! # Specification vocabulary for the bytes that are read as a row

The positions are the ones of the format documentation linked from `src/pdb/mod.rs`. -/

namespace Rekordcrate

/-- A string is stored at a position and ends at another. -/
abbrev StringRel := Bytes → Nat → DString → Nat → Prop

/-- A string is stored at `p` whose length is possible. -/
def SoundTextAt : StringRel := fun d p v q => TextAt d p v q ∧ ¬ BadString d p

/-- The row at `p` has an offset array `at_` bytes further on: the number 3 and the offsets of the strings `vs` from the
start of the row. -/
def ArrayAt (S : StringRel) (d : Bytes) (p at_ : Nat) (w : OffsetSize) (vs : List DString) (a : Option OffsetArray) :
    Prop :=
  OffsetAt d (p + at_) w 3 ∧ ∃ os : List Nat, os.length = vs.length ∧ a = some (OffsetArray.ofNats os w) ∧
    ∀ (i o : Nat) (v : DString), os[i]? = some o → vs[i]? = some v →
      OffsetAt d (p + at_ + (i + 1) * w.bytes) w o ∧ ∃ e, S d (p + o) v e

/-- The `Album` row `r` is stored at `p`: its fields are at the documented positions. The row is left at `q`. -/
def Album.At (S : StringRel) (d : Bytes) (p : Nat) (r : Album) (q : Nat) : Prop :=
  U16At d p r.subtype.toNat ∧ U16At d (p + 2) r.indexShift.toNat ∧ U32At d (p + 4) r.unknown2.toNat ∧
  U32At d (p + 8) r.artistId.toNat ∧ U32At d (p + 12) r.id.toNat ∧ U32At d (p + 16) r.unknown3.toNat ∧
  ArrayAt S d p 20 (docWidth r.subtype)
      [r.offsets.inner.name] r.offsets.offsets ∧ q = p

/-- The `Artist` row `r` is stored at `p`: its fields are at the documented positions. The row is left at `q`. -/
def Artist.At (S : StringRel) (d : Bytes) (p : Nat) (r : Artist) (q : Nat) : Prop :=
  U16At d p r.subtype.toNat ∧ U16At d (p + 2) r.indexShift.toNat ∧ U32At d (p + 4) r.id.toNat ∧
  ArrayAt S d p 8 (docWidth r.subtype)
      [r.offsets.inner.name] r.offsets.offsets ∧ q = p

/-- The `Artwork` row `r` is stored at `p`: its fields are at the documented positions. The row is left at `q`. -/
def Artwork.At (S : StringRel) (d : Bytes) (p : Nat) (r : Artwork) (q : Nat) : Prop :=
  U32At d p r.id.toNat ∧ S d (p + 4) r.path q

/-- The `Color` row `r` is stored at `p`: its fields are at the documented positions. The row is left at `q`. -/
def Color.At (S : StringRel) (d : Bytes) (p : Nat) (r : Color) (q : Nat) : Prop :=
  U32At d p r.unknown1.toNat ∧ ByteAt d (p + 4) r.unknown2 ∧ ByteAt d (p + 5) r.color.docCode ∧
  U16At d (p + 6) r.unknown3.toNat ∧ S d (p + 8) r.name q

/-- The `Genre` row `r` is stored at `p`: its fields are at the documented positions. The row is left at `q`. -/
def Genre.At (S : StringRel) (d : Bytes) (p : Nat) (r : Genre) (q : Nat) : Prop :=
  U32At d p r.id.toNat ∧ S d (p + 4) r.name q

/-- The `HistoryPlaylist` row `r` is stored at `p`: its fields are at the documented positions. The row is left at `q`. -/
def HistoryPlaylist.At (S : StringRel) (d : Bytes) (p : Nat) (r : HistoryPlaylist) (q : Nat) : Prop :=
  U32At d p r.id.toNat ∧ S d (p + 4) r.name q

/-- The `HistoryEntry` row `r` is stored at `p`: its fields are at the documented positions. The row is left at `q`. -/
def HistoryEntry.At (d : Bytes) (p : Nat) (r : HistoryEntry) (q : Nat) : Prop :=
  U32At d p r.trackId.toNat ∧ U32At d (p + 4) r.playlistId.toNat ∧ U32At d (p + 8) r.entryIndex.toNat ∧
  q = p + 12

/-- The `History` row `r` is stored at `p`: its fields are at the documented positions. The row is left at `q`. -/
def History.At (S : StringRel) (d : Bytes) (p : Nat) (r : History) (q : Nat) : Prop :=
  ∃ e1 e2, U16At d p r.subtype.toNat ∧ U16At d (p + 2) r.indexShift.toNat ∧ U32At d (p + 4) r.numTracks.toNat ∧
  U32At d (p + 8) 0 ∧ S d (p + 12) r.date e1 ∧ U16At d e1 0x1E19 ∧ S d (e1 + 2) r.version e2 ∧ S d e2 r.label q

/-- The `Key` row `r` is stored at `p`: its fields are at the documented positions. The row is left at `q`. -/
def Key.At (S : StringRel) (d : Bytes) (p : Nat) (r : Key) (q : Nat) : Prop :=
  U32At d p r.id.toNat ∧ U32At d (p + 4) r.id2.toNat ∧ S d (p + 8) r.name q

/-- The `Label` row `r` is stored at `p`: its fields are at the documented positions. The row is left at `q`. -/
def Label.At (S : StringRel) (d : Bytes) (p : Nat) (r : Label) (q : Nat) : Prop :=
  U32At d p r.id.toNat ∧ S d (p + 4) r.name q

/-- The `PlaylistTreeNode` row `r` is stored at `p`: its fields are at the documented positions. The row is left at `q`. -/
def PlaylistTreeNode.At (S : StringRel) (d : Bytes) (p : Nat) (r : PlaylistTreeNode) (q : Nat) : Prop :=
  U32At d p r.parentId.toNat ∧ U32At d (p + 4) r.unknown.toNat ∧ U32At d (p + 8) r.sortOrder.toNat ∧
  U32At d (p + 12) r.id.toNat ∧ U32At d (p + 16) r.nodeIsFolder.toNat ∧ S d (p + 20) r.name q

/-- The `PlaylistEntry` row `r` is stored at `p`: its fields are at the documented positions. The row is left at `q`. -/
def PlaylistEntry.At (d : Bytes) (p : Nat) (r : PlaylistEntry) (q : Nat) : Prop :=
  U32At d p r.entryIndex.toNat ∧ U32At d (p + 4) r.trackId.toNat ∧ U32At d (p + 8) r.playlistId.toNat ∧
  q = p + 12

/-- The `ColumnEntry` row `r` is stored at `p`: its fields are at the documented positions. The row is left at `q`. -/
def ColumnEntry.At (S : StringRel) (d : Bytes) (p : Nat) (r : ColumnEntry) (q : Nat) : Prop :=
  U16At d p r.id.toNat ∧ U16At d (p + 2) r.unknown0.toNat ∧ S d (p + 4) r.columnName q

/-- The `Menu` row `r` is stored at `p`: its fields are at the documented positions. The row is left at `q`. -/
def Menu.At (d : Bytes) (p : Nat) (r : Menu) (q : Nat) : Prop :=
  U16At d p r.categoryId.toNat ∧ U16At d (p + 2) r.contentPointer.toNat ∧ ByteAt d (p + 4) r.unknown ∧
  ByteAt d (p + 5) r.visibility.docCode ∧ r.visibility.Canonical ∧ U16At d (p + 6) r.sortOrder.toNat ∧
  q = p + 8

/-- The `Track` row `r` is stored at `p`: its fields are at the documented positions. The row is left at `q`. -/
def Track.At (S : StringRel) (d : Bytes) (p : Nat) (r : Track) (q : Nat) : Prop :=
  U16At d p r.subtype.toNat ∧ U16At d (p + 2) r.indexShift.toNat ∧ U32At d (p + 4) r.bitmask.toNat ∧
  U32At d (p + 8) r.sampleRate.toNat ∧ U32At d (p + 12) r.composerId.toNat ∧
  U32At d (p + 16) r.fileSize.toNat ∧ U32At d (p + 20) r.unknown2.toNat ∧ U16At d (p + 24) r.unknown3.toNat ∧
  U16At d (p + 26) r.unknown4.toNat ∧ U32At d (p + 28) r.artworkId.toNat ∧ U32At d (p + 32) r.keyId.toNat ∧
  U32At d (p + 36) r.origArtistId.toNat ∧ U32At d (p + 40) r.labelId.toNat ∧
  U32At d (p + 44) r.remixerId.toNat ∧ U32At d (p + 48) r.bitrate.toNat ∧
  U32At d (p + 52) r.trackNumber.toNat ∧ U32At d (p + 56) r.tempo.toNat ∧ U32At d (p + 60) r.genreId.toNat ∧
  U32At d (p + 64) r.albumId.toNat ∧ U32At d (p + 68) r.artistId.toNat ∧ U32At d (p + 72) r.id.toNat ∧
  U16At d (p + 76) r.discNumber.toNat ∧ U16At d (p + 78) r.playCount.toNat ∧ U16At d (p + 80) r.year.toNat ∧
  U16At d (p + 82) r.sampleDepth.toNat ∧ U16At d (p + 84) r.duration.toNat ∧
  U16At d (p + 86) r.unknown5.toNat ∧ ByteAt d (p + 88) r.color.docCode ∧ ByteAt d (p + 89) r.rating ∧
  U16At d (p + 90) r.fileType.docCode ∧ r.fileType.Canonical ∧
  ArrayAt S d p 92 (docWidth r.subtype)
      [r.offsets.inner.isrc, r.offsets.inner.lyricist, r.offsets.inner.unknownString2,
        r.offsets.inner.unknownString3, r.offsets.inner.unknownString4, r.offsets.inner.message,
        r.offsets.inner.publishTrackInformation, r.offsets.inner.autoloadHotcues,
        r.offsets.inner.unknownString5, r.offsets.inner.unknownString6, r.offsets.inner.dateAdded,
        r.offsets.inner.releaseDate, r.offsets.inner.mixName, r.offsets.inner.unknownString7,
        r.offsets.inner.analyzePath, r.offsets.inner.analyzeDate, r.offsets.inner.comment,
        r.offsets.inner.title, r.offsets.inner.unknownString8, r.offsets.inner.filename,
        r.offsets.inner.filePath] r.offsets.offsets ∧
  q = p

/-- The `TagOrCategory` row `r` is stored at `p`: its fields are at the documented positions. The row is left at `q`. -/
def TagOrCategory.At (S : StringRel) (d : Bytes) (p : Nat) (r : TagOrCategory) (q : Nat) : Prop :=
  U16At d p r.subtype.toNat ∧ U16At d (p + 2) r.indexShift.toNat ∧ U32At d (p + 4) r.unknown1.toNat ∧
  U32At d (p + 8) r.unknown2.toNat ∧ U32At d (p + 12) r.parentId.toNat ∧ U32At d (p + 16) r.position.toNat ∧
  U32At d (p + 20) r.id.toNat ∧ U32At d (p + 24) r.rawIsCategory.toNat ∧
  ArrayAt S d p 28 (docWidth r.subtype)
      [r.offsets.inner.name, r.offsets.inner.unknown] r.offsets.offsets ∧
  q = p

/-- The `TrackTag` row `r` is stored at `p`: its fields are at the documented positions. The row is left at `q`. -/
def TrackTag.At (d : Bytes) (p : Nat) (r : TrackTag) (q : Nat) : Prop :=
  U32At d p 0 ∧ U32At d (p + 4) r.trackId.toNat ∧ U32At d (p + 8) r.tagId.toNat ∧
  U32At d (p + 12) r.unknownConst.toNat ∧ q = p + 16

/-- The row is stored at `p` in a page of the type `t`. -/
def Row.At (S : StringRel) (d : Bytes) (p : Nat) (t : PageType) (row : Row) (q : Nat) : Prop :=
  match t, row with
  | .plain .albums, .plain (.album r) => Album.At S d p r q
  | .plain .artists, .plain (.artist r) => Artist.At S d p r q
  | .plain .artwork, .plain (.artwork r) => Artwork.At S d p r q
  | .plain .colors, .plain (.color r) => Color.At S d p r q
  | .plain .genres, .plain (.genre r) => Genre.At S d p r q
  | .plain .historyPlaylists, .plain (.historyPlaylist r) => HistoryPlaylist.At S d p r q
  | .plain .historyEntries, .plain (.historyEntry r) => HistoryEntry.At d p r q
  | .plain .history, .plain (.history r) => History.At S d p r q
  | .plain .keys, .plain (.key r) => Key.At S d p r q
  | .plain .labels, .plain (.label r) => Label.At S d p r q
  | .plain .playlistTree, .plain (.playlistTreeNode r) => PlaylistTreeNode.At S d p r q
  | .plain .playlistEntries, .plain (.playlistEntry r) => PlaylistEntry.At d p r q
  | .plain .columns, .plain (.columnEntry r) => ColumnEntry.At S d p r q
  | .plain .menu, .plain (.menu r) => Menu.At d p r q
  | .plain .tracks, .plain (.track r) => Track.At S d p r q
  | .ext .tag, .ext (.tag r) => TagOrCategory.At S d p r q
  | .ext .trackTag, .ext (.trackTag r) => TrackTag.At d p r q
  | .unknown _, .unknown => q = p
  | _, _ => False

end Rekordcrate
