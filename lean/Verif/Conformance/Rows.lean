import Verif.Model.Database

/-!
# The project's own test vectors for rows and headers, run on the model

These are **tests of the model, not proofs of properties**: every `example` states that the model agrees
with one assertion of the project's tests on one value. They show that the model was not only written
from the code but also gives what the code gives, on the bytes the project recorded from real exports. No
property of `properties.jsonl` is claimed by anything here.

`test_roundtrip` (`src/util.rs` 274-304) asserts four things of a value and its bytes: the value is
written as the bytes; those are read back as the value; the recorded bytes are read as the value; and that
is written as the recorded bytes again. With `Agrees` both directions are stated on the recorded bytes,
which is all four. The values are the literals of the Rust tests, translated field by field.
-/

namespace Rekordcrate.Conformance

/-- `"…".parse().unwrap()` of the tests, `src/pdb/string.rs` 176-182. -/
def str (s : String) : DString :=
  match DString.new s with
  | .ok x => x
  | _ => DString.empty

/-- `DeviceSQLString::new_isrc("…".to_string()).unwrap()` of the tests. -/
def isrc (s : String) : DString :=
  match DString.newIsrc s with
  | .ok x => x
  | _ => DString.empty

/-- What a writer leaves in an empty `Cursor<Vec<u8>>`. -/
def outOf (w : Wr Unit) : Option Bytes :=
  match w 0 with
  | .ok (_, _, ps) => some (applyPatches [] ps)
  | _ => none

/-- What a reader finds at the start of a `Cursor`. -/
def inOf {α : Type} (r : Rd α) (bs : Bytes) : Option α :=
  match r bs 0 with
  | .ok (x, _) => some x
  | _ => none

/-- The assertions of `test_roundtrip`, `src/util.rs` 274-304. -/
abbrev Agrees {α : Type} (r : Rd α) (w : α → Wr Unit) (bin : Bytes) (obj : α) : Prop :=
  outOf (w obj) = some bin ∧ inOf r bin = some obj

/-- `empty_header`, `src/pdb/test_roundtrip.rs` 15-30. -/
example : Agrees (Header.read .plain) (fun h => Wr.emit h.enc)
    [0, 0, 0, 0, 0, 16, 0, 0, 0, 0, 0, 0, 1, 0, 0, 0, 0, 0, 0, 0, 1, 0, 0, 0, 0, 0, 0, 0]
    ({ pageSize := 4096,
       numTables := 0,
       nextUnusedPage := ⟨1⟩,
       unknown := 0,
       sequence := 1,
       tables := [] } : Header) := by
  decide +kernel

/-- `demo_tracks_header`, `src/pdb/test_roundtrip.rs` 33-183. -/
example : Agrees (Header.read .plain) (fun h => Wr.emit h.enc)
    [0, 0, 0, 0, 0, 16, 0, 0, 20, 0, 0, 0, 51, 0, 0, 0, 5, 0, 0, 0, 34, 0, 0, 0, 0, 0, 0, 0, 0, 0, 0,
     0, 47, 0, 0, 0, 1, 0, 0, 0, 2, 0, 0, 0, 1, 0, 0, 0, 4, 0, 0, 0, 3, 0, 0, 0, 3, 0, 0, 0, 2, 0, 0,
     0, 49, 0, 0, 0, 5, 0, 0, 0, 6, 0, 0, 0, 3, 0, 0, 0, 8, 0, 0, 0, 7, 0, 0, 0, 7, 0, 0, 0, 4, 0, 0,
     0, 50, 0, 0, 0, 9, 0, 0, 0, 10, 0, 0, 0, 5, 0, 0, 0, 46, 0, 0, 0, 11, 0, 0, 0, 12, 0, 0, 0, 6, 0,
     0, 0, 42, 0, 0, 0, 13, 0, 0, 0, 14, 0, 0, 0, 7, 0, 0, 0, 16, 0, 0, 0, 15, 0, 0, 0, 15, 0, 0, 0, 8,
     0, 0, 0, 18, 0, 0, 0, 17, 0, 0, 0, 17, 0, 0, 0, 9, 0, 0, 0, 20, 0, 0, 0, 19, 0, 0, 0, 19, 0, 0, 0,
     10, 0, 0, 0, 22, 0, 0, 0, 21, 0, 0, 0, 21, 0, 0, 0, 11, 0, 0, 0, 24, 0, 0, 0, 23, 0, 0, 0, 23, 0,
     0, 0, 12, 0, 0, 0, 26, 0, 0, 0, 25, 0, 0, 0, 25, 0, 0, 0, 13, 0, 0, 0, 28, 0, 0, 0, 27, 0, 0, 0,
     27, 0, 0, 0, 14, 0, 0, 0, 30, 0, 0, 0, 29, 0, 0, 0, 29, 0, 0, 0, 15, 0, 0, 0, 32, 0, 0, 0, 31, 0,
     0, 0, 31, 0, 0, 0, 16, 0, 0, 0, 43, 0, 0, 0, 33, 0, 0, 0, 34, 0, 0, 0, 17, 0, 0, 0, 44, 0, 0, 0,
     35, 0, 0, 0, 36, 0, 0, 0, 18, 0, 0, 0, 45, 0, 0, 0, 37, 0, 0, 0, 38, 0, 0, 0, 19, 0, 0, 0, 48, 0,
     0, 0, 39, 0, 0, 0, 41, 0, 0, 0]
    ({ pageSize := 4096,
       numTables := 20,
       nextUnusedPage := ⟨51⟩,
       unknown := 5,
       sequence := 34,
       tables := [({ pageType := (PageType.plain PlainPageType.tracks),
                     emptyCandidate := 47,
                     firstPage := ⟨1⟩,
                     lastPage := ⟨2⟩ } : Table),
                  ({ pageType := (PageType.plain PlainPageType.genres),
                     emptyCandidate := 4,
                     firstPage := ⟨3⟩,
                     lastPage := ⟨3⟩ } : Table),
                  ({ pageType := (PageType.plain PlainPageType.artists),
                     emptyCandidate := 49,
                     firstPage := ⟨5⟩,
                     lastPage := ⟨6⟩ } : Table),
                  ({ pageType := (PageType.plain PlainPageType.albums),
                     emptyCandidate := 8,
                     firstPage := ⟨7⟩,
                     lastPage := ⟨7⟩ } : Table),
                  ({ pageType := (PageType.plain PlainPageType.labels),
                     emptyCandidate := 50,
                     firstPage := ⟨9⟩,
                     lastPage := ⟨10⟩ } : Table),
                  ({ pageType := (PageType.plain PlainPageType.keys),
                     emptyCandidate := 46,
                     firstPage := ⟨11⟩,
                     lastPage := ⟨12⟩ } : Table),
                  ({ pageType := (PageType.plain PlainPageType.colors),
                     emptyCandidate := 42,
                     firstPage := ⟨13⟩,
                     lastPage := ⟨14⟩ } : Table),
                  ({ pageType := (PageType.plain PlainPageType.playlistTree),
                     emptyCandidate := 16,
                     firstPage := ⟨15⟩,
                     lastPage := ⟨15⟩ } : Table),
                  ({ pageType := (PageType.plain PlainPageType.playlistEntries),
                     emptyCandidate := 18,
                     firstPage := ⟨17⟩,
                     lastPage := ⟨17⟩ } : Table),
                  ({ pageType := (PageType.unknown 9),
                     emptyCandidate := 20,
                     firstPage := ⟨19⟩,
                     lastPage := ⟨19⟩ } : Table),
                  ({ pageType := (PageType.unknown 10),
                     emptyCandidate := 22,
                     firstPage := ⟨21⟩,
                     lastPage := ⟨21⟩ } : Table),
                  ({ pageType := (PageType.plain PlainPageType.historyPlaylists),
                     emptyCandidate := 24,
                     firstPage := ⟨23⟩,
                     lastPage := ⟨23⟩ } : Table),
                  ({ pageType := (PageType.plain PlainPageType.historyEntries),
                     emptyCandidate := 26,
                     firstPage := ⟨25⟩,
                     lastPage := ⟨25⟩ } : Table),
                  ({ pageType := (PageType.plain PlainPageType.artwork),
                     emptyCandidate := 28,
                     firstPage := ⟨27⟩,
                     lastPage := ⟨27⟩ } : Table),
                  ({ pageType := (PageType.unknown 14),
                     emptyCandidate := 30,
                     firstPage := ⟨29⟩,
                     lastPage := ⟨29⟩ } : Table),
                  ({ pageType := (PageType.unknown 15),
                     emptyCandidate := 32,
                     firstPage := ⟨31⟩,
                     lastPage := ⟨31⟩ } : Table),
                  ({ pageType := (PageType.plain PlainPageType.columns),
                     emptyCandidate := 43,
                     firstPage := ⟨33⟩,
                     lastPage := ⟨34⟩ } : Table),
                  ({ pageType := (PageType.plain PlainPageType.menu),
                     emptyCandidate := 44,
                     firstPage := ⟨35⟩,
                     lastPage := ⟨36⟩ } : Table),
                  ({ pageType := (PageType.unknown 18),
                     emptyCandidate := 45,
                     firstPage := ⟨37⟩,
                     lastPage := ⟨38⟩ } : Table),
                  ({ pageType := (PageType.plain PlainPageType.history),
                     emptyCandidate := 48,
                     firstPage := ⟨39⟩,
                     lastPage := ⟨41⟩ } : Table)] } : Header) := by
  decide +kernel

/-- `track_row`, `src/pdb/test_roundtrip.rs` 186-276. -/
example : Agrees Track.read Track.write
    [36, 0, 0, 0, 0, 7, 12, 0, 68, 172, 0, 0, 0, 0, 0, 0, 168, 71, 105, 0, 218, 177, 193, 12, 128, 250,
     231, 5, 0, 0, 0, 0, 5, 0, 0, 0, 0, 0, 0, 0, 1, 0, 0, 0, 0, 0, 0, 0, 64, 1, 0, 0, 0, 0, 0, 0, 0,
     50, 0, 0, 0, 0, 0, 0, 0, 0, 0, 0, 1, 0, 0, 0, 1, 0, 0, 0, 0, 0, 0, 0, 0, 0, 16, 0, 172, 0, 41, 0,
     0, 0, 1, 0, 3, 0, 136, 0, 137, 0, 138, 0, 140, 0, 142, 0, 143, 0, 144, 0, 145, 0, 148, 0, 149, 0,
     150, 0, 161, 0, 162, 0, 163, 0, 164, 0, 208, 0, 219, 0, 249, 0, 6, 1, 7, 1, 24, 1, 3, 3, 5, 51, 5,
     51, 3, 3, 3, 7, 79, 78, 3, 3, 23, 50, 48, 49, 56, 45, 48, 53, 45, 50, 53, 3, 3, 3, 89, 47, 80, 73,
     79, 78, 69, 69, 82, 47, 85, 83, 66, 65, 78, 76, 90, 47, 80, 48, 49, 54, 47, 48, 48, 48, 48, 56,
     55, 53, 69, 47, 65, 78, 76, 90, 48, 48, 48, 48, 46, 68, 65, 84, 23, 50, 48, 50, 50, 45, 48, 50,
     45, 48, 50, 61, 84, 114, 97, 99, 107, 115, 32, 98, 121, 32, 119, 119, 119, 46, 108, 111, 111, 112,
     109, 97, 115, 116, 101, 114, 115, 46, 99, 111, 109, 27, 68, 101, 109, 111, 32, 84, 114, 97, 99,
     107, 32, 49, 3, 35, 68, 101, 109, 111, 32, 84, 114, 97, 99, 107, 32, 49, 46, 109, 112, 51, 105,
     47, 67, 111, 110, 116, 101, 110, 116, 115, 47, 76, 111, 111, 112, 109, 97, 115, 116, 101, 114,
     115, 47, 85, 110, 107, 110, 111, 119, 110, 65, 108, 98, 117, 109, 47, 68, 101, 109, 111, 32, 84,
     114, 97, 99, 107, 32, 49, 46, 109, 112, 51]
    ({ subtype := 0x24,
       indexShift := 0x0000,
       bitmask := 788224,
       sampleRate := 44100,
       composerId := 0,
       fileSize := 6899624,
       unknown2 := 214020570,
       unknown3 := 64128,
       unknown4 := 1511,
       artworkId := 0,
       keyId := 5,
       origArtistId := 0,
       labelId := 1,
       remixerId := 0,
       bitrate := 320,
       trackNumber := 0,
       tempo := 12800,
       genreId := 0,
       albumId := 0,
       artistId := 1,
       id := 1,
       discNumber := 0,
       playCount := 0,
       year := 0,
       sampleDepth := 16,
       duration := 172,
       unknown5 := 41,
       color := ColorIndex.none,
       rating := 0,
       fileType := FileType.mp3,
       offsets := { offsets := (some (.u16 [136, 137, 138, 140, 142, 143, 144, 145, 148, 149, 150, 161,
                                            162, 163, 164, 208, 219, 249, 262, 263, 280])),
                    inner := ({ isrc := (isrc ""),
                                lyricist := DString.empty,
                                unknownString2 := (str "3"),
                                unknownString3 := (str "3"),
                                unknownString4 := DString.empty,
                                message := DString.empty,
                                publishTrackInformation := DString.empty,
                                autoloadHotcues := (str "ON"),
                                unknownString5 := DString.empty,
                                unknownString6 := DString.empty,
                                dateAdded := (str "2018-05-25"),
                                releaseDate := DString.empty,
                                mixName := DString.empty,
                                unknownString7 := DString.empty,
                                analyzePath := (str "/PIONEER/USBANLZ/P016/0000875E/ANLZ0000.DAT"),
                                analyzeDate := (str "2022-02-02"),
                                comment := (str "Tracks by www.loopmasters.com"),
                                title := (str "Demo Track 1"),
                                unknownString8 := DString.empty,
                                filename := (str "Demo Track 1.mp3"),
                                filePath := (str "/Contents/Loopmasters/UnknownAlbum/Demo Track 1.mp3") } : TrackStrings) } } : Track) := by
  decide +kernel

/-- `artist_row`, `src/pdb/test_roundtrip.rs` 279-297. -/
example : Agrees Artist.read Artist.write
    [96, 0, 0, 0, 1, 0, 0, 0, 3, 10, 25, 76, 111, 111, 112, 109, 97, 115, 116, 101, 114, 115]
    ({ subtype := 0x60,
       indexShift := 0x0000,
       id := 1,
       offsets := { offsets := (some (.u8 [10])),
                    inner := ({name := (str "Loopmasters")} : TrailingName) } } : Artist) := by
  decide +kernel

/-- `album_row`, `src/pdb/test_roundtrip.rs` 300-347. -/
example : Agrees Album.read Album.write
    [0x80, 0x00, 0x00, 0x00, 0x00, 0x00, 0x00, 0x00, 0x02, 0x00, 0x00, 0x00, 0x02, 0x00, 0x00, 0x00,
     0x00, 0x00, 0x00, 0x00, 0x03, 0x16, 0x15, 0x47, 0x4f, 0x4f, 0x44, 0x20, 0x4c, 0x55, 0x43, 0x4b]
    ({ subtype := 0x80,
       indexShift := 0x0000,
       unknown2 := 0,
       artistId := 2,
       id := 2,
       unknown3 := 0,
       offsets := { offsets := (some (.u8 [0x16])),
                    inner := ({name := (str "GOOD LUCK")} : TrailingName) } } : Album) := by
  decide +kernel

/-- `album_row2`, `src/pdb/test_roundtrip.rs` 300-347. -/
example : Agrees Album.read Album.write
    [0x80, 0x00, 0x00, 0x00, 0x00, 0x00, 0x00, 0x00, 0x00, 0x00, 0x00, 0x00, 0x03, 0x00, 0x00, 0x00,
     0x00, 0x00, 0x00, 0x00, 0x03, 0x16, 0x23, 0x54, 0x65, 0x63, 0x68, 0x6e, 0x6f, 0x20, 0x52, 0x61,
     0x76, 0x65, 0x20, 0x32, 0x30, 0x32, 0x33]
    ({ subtype := 0x80,
       indexShift := 0x0000,
       unknown2 := 0,
       artistId := 0,
       id := 3,
       unknown3 := 0,
       offsets := { offsets := (some (.u8 [0x16])),
                    inner := ({name := (str "Techno Rave 2023")} : TrailingName) } } : Album) := by
  decide +kernel

/-- `label_row`, `src/pdb/test_roundtrip.rs` 350-361. -/
example : Agrees Label.read Label.write
    [1, 0, 0, 0, 25, 76, 111, 111, 112, 109, 97, 115, 116, 101, 114, 115]
    ({id := 1, name := (str "Loopmasters")} : Label) := by
  decide +kernel

/-- `key_row`, `src/pdb/test_roundtrip.rs` 364-371. -/
example : Agrees Key.read Key.write
    [1, 0, 0, 0, 1, 0, 0, 0, 7, 68, 109]
    ({id := 1, id2 := 1, name := (str "Dm")} : Key) := by
  decide +kernel

/-- `color_row`, `src/pdb/test_roundtrip.rs` 374-383. -/
example : Agrees Color.read Color.write
    [0, 0, 0, 0, 1, 1, 0, 0, 11, 80, 105, 110, 107]
    ({unknown1 := 0, unknown2 := 1, color := ColorIndex.pink, unknown3 := 0, name := (str "Pink")} : Color) := by
  decide +kernel

/-- `playlist_tree_row`, `src/pdb/test_roundtrip.rs` 386-404. -/
example : Agrees PlaylistTreeNode.read PlaylistTreeNode.write
    [0, 0, 0, 0, 0, 0, 0, 0, 0, 0, 0, 0, 1, 0, 0, 0, 1, 0, 0, 0, 0x33, 0x63, 0x75, 0x72, 0x72, 0x65,
     0x6e, 0x74, 0x20, 0x73, 0x65, 0x74, 0x20, 0x32, 0x30, 0x32, 0x31, 0x20, 0x72, 0x65, 0x64, 0x75,
     0x63, 0x65, 0x64]
    ({ parentId := 0,
       unknown := 0,
       sortOrder := 0,
       id := 1,
       nodeIsFolder := 1,
       name := (str "current set 2021 reduced") } : PlaylistTreeNode) := by
  decide +kernel

/-- `playlist_entry_row`, `src/pdb/test_roundtrip.rs` 407-415. -/
example : Agrees PlaylistEntry.read PlaylistEntry.write
    [1, 0, 0, 0, 1, 0, 0, 0, 6, 0, 0, 0]
    ({entryIndex := 1, trackId := 1, playlistId := 6} : PlaylistEntry) := by
  decide +kernel

/-- `column_entry`, `src/pdb/test_roundtrip.rs` 418-429. -/
example : Agrees ColumnEntry.read ColumnEntry.write
    [0x01, 0x00, 0x80, 0x00, 0x90, 0x12, 0x00, 0x00, 0xfa, 0xff, 0x47, 0x00, 0x45, 0x00, 0x4e, 0x00,
     0x52, 0x00, 0x45, 0x00, 0xfb, 0xff]
    ({id := 1, unknown0 := 128, columnName := (str "￺GENRE￻")} : ColumnEntry) := by
  decide +kernel

/-- `menu_row`, `src/pdb/test_roundtrip.rs` 432-442. -/
example : Agrees Menu.read Menu.write
    [0x02, 0x00, 0x02, 0x00, 0x02, 0x00, 0x01, 0x00]
    ({ categoryId := 2,
       contentPointer := 2,
       unknown := 2,
       visibility := MenuVisibility.visible,
       sortOrder := 1 } : Menu) := by
  decide +kernel

/-- `history_row`, `src/pdb/test_roundtrip.rs` 445-463. -/
example : Agrees History.read History.write
    [0x80, 0x02, 0x80, 0x00, 0x05, 0x00, 0x00, 0x00, 0x00, 0x00, 0x00, 0x00, 0x17, 0x32, 0x30, 0x32,
     0x32, 0x2d, 0x30, 0x32, 0x2d, 0x30, 0x32, 0x19, 0x1e, 0x0b, 0x31, 0x30, 0x30, 0x30, 0x03]
    ({ subtype := 0x0280,
       indexShift := 0x0080,
       numTracks := 5,
       date := (str "2022-02-02"),
       version := (str "1000"),
       label := (str "") } : History) := by
  decide +kernel

/-- `history_row_with_label`, `src/pdb/test_roundtrip.rs` 466-484. -/
example : Agrees History.read History.write
    [0x80, 0x02, 0xc0, 0x01, 0x0c, 0x00, 0x00, 0x00, 0x00, 0x00, 0x00, 0x00, 0x17, 0x32, 0x30, 0x32,
     0x34, 0x2d, 0x30, 0x34, 0x2d, 0x31, 0x38, 0x19, 0x1e, 0x0b, 0x31, 0x30, 0x30, 0x30, 0x19, 0x5a,
     0x41, 0x4b, 0x53, 0x20, 0x42, 0x41, 0x43, 0x4b, 0x55, 0x50]
    ({ subtype := 0x0280,
       indexShift := 0x01c0,
       numTracks := 12,
       date := (str "2024-04-18"),
       version := (str "1000"),
       label := (str "ZAKS BACKUP") } : History) := by
  decide +kernel

end Rekordcrate.Conformance
