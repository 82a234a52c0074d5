import Verif.Conformance.Rows
import Verif.Model.Anlz

/-!
# The project's other small test vectors, run on the model

As in `Verif/Conformance/Rows.lean`, these are **tests of the model, not proofs of properties**.

Of `src/pdb/offset_array.rs` only the tests with strings or without items can be run: the model has the
container only for the item type that the rows use, `DeviceSQLString`. The tests of `src/util.rs` for
`parse_at_offsets` and `write_at_offsets` use `u16` items, where the model has the two functions for rows.
-/

namespace Rekordcrate.Conformance

/-! ## Strings, `src/pdb/string.rs` 291-391 -/

/-- Writing a string. -/
abbrev writeStr (s : DString) : Wr Unit := Wr.emitRes s.enc

/-- `default_string`, `src/pdb/string.rs` 297-300. -/
example : Agrees DString.read writeStr [0x3] DString.empty := by decide +kernel

/-- `short_ascii_string`, `src/pdb/string.rs` 303-306. -/
example : Agrees DString.read writeStr [0x9, 0x66, 0x6F, 0x6F] (str "foo") := by decide +kernel

/-- `long_ascii_string`, `src/pdb/string.rs` 309-326. -/
example : Agrees DString.read writeStr
    [0x40, 0x83, 0x00, 0x00, 0x4C, 0x6F, 0x72, 0x65, 0x6D, 0x20, 0x69, 0x70, 0x73, 0x75,
     0x6D, 0x20, 0x64, 0x6F, 0x6C, 0x6F, 0x72, 0x20, 0x73, 0x69, 0x74, 0x20, 0x61, 0x6D,
     0x65, 0x74, 0x2C, 0x20, 0x63, 0x6F, 0x6E, 0x73, 0x65, 0x74, 0x65, 0x74, 0x75, 0x72,
     0x20, 0x73, 0x61, 0x64, 0x69, 0x70, 0x73, 0x63, 0x69, 0x6E, 0x67, 0x20, 0x65, 0x6C,
     0x69, 0x74, 0x72, 0x2C, 0x20, 0x73, 0x65, 0x64, 0x20, 0x64, 0x69, 0x61, 0x6D, 0x20,
     0x6E, 0x6F, 0x6E, 0x75, 0x6D, 0x79, 0x20, 0x65, 0x69, 0x72, 0x6D, 0x6F, 0x64, 0x20,
     0x74, 0x65, 0x6D, 0x70, 0x6F, 0x72, 0x20, 0x69, 0x6E, 0x76, 0x69, 0x64, 0x75, 0x6E,
     0x74, 0x20, 0x75, 0x74, 0x20, 0x6C, 0x61, 0x62, 0x6F, 0x72, 0x65, 0x20, 0x65, 0x74,
     0x20, 0x64, 0x6F, 0x6C, 0x6F, 0x72, 0x65, 0x20, 0x6D, 0x61, 0x67, 0x6E, 0x61, 0x20,
     0x61, 0x6C, 0x69, 0x71, 0x75]
    (str ("Lorem ipsum dolor sit amet, consetetur sadipscing elitr, sed diam nonumy eirmod tempor " ++
      "invidunt ut labore et dolore magna aliqu")) := by decide +kernel

/-- `non_ascii`, `src/pdb/string.rs` 329-336. -/
example : Agrees DString.read writeStr
    [0x90, 0x14, 0x00, 0x00, 0x49, 0x00, 0x20, 0x00, 0x64, 0x27, 0x20, 0x00, 0x52, 0x00,
     0x75, 0x00, 0x73, 0x00, 0x74, 0x00]
    (str "I ❤ Rust") := by decide +kernel

/-- `isrc_edge_case`, `src/pdb/string.rs` 356-373. -/
example :
    Agrees DString.read writeStr
      [0x90, 0x12, 0x00, 0x00, 0x03, 0x47, 0x42, 0x41, 0x59, 0x45, 0x36, 0x37, 0x30, 0x30,
       0x31, 0x34, 0x39, 0x00] (isrc "GBAYE6700149") ∧
    Agrees DString.read writeStr [0x3] (isrc "") ∧
    DString.newIsrc "non-conforming garbage" = .err .invalidIsrc := by decide +kernel

/-! ## Flags, `src/pdb/bitfields.rs` 126-144 -/

/-- `test_page_flags_index` and `test_page_flags_data`, `src/pdb/bitfields.rs` 130-143. -/
example :
    PageFlags.newIndexPage.enc = [0x64] ∧ PageFlags.newDataPage.enc = [0x24] ∧
    { PageFlags.newDataPage with containsDeleted := true }.enc = [0x34] := by decide +kernel

/-! ## Offset arrays, `src/pdb/offset_array.rs` 344-600 -/

/-- `Multiple` with strings as items, `src/pdb/offset_array.rs` 470-497. -/
structure Multiple where
  a : DString
  b : DString
  deriving DecidableEq

instance : OffsetItems Multiple where
  count := 2
  asItems m := [m.a, m.b]
  fromItems
    | [a, b] => ⟨a, b⟩
    | _ => ⟨DString.empty, DString.empty⟩

/-- The type `()` as items, `src/pdb/offset_array.rs` 376-398. -/
instance : OffsetItems Unit where
  count := 0
  asItems _ := []
  fromItems _ := ()

/-- `empty`, `src/pdb/offset_array.rs` 377-398. -/
example :
    Agrees (OffsetContainer.read (T := Unit) 0 .u8) (fun c => c.write 0 .u8) [0x03]
      ⟨some (.u8 []), ()⟩ ∧
    Agrees (OffsetContainer.read (T := Unit) 0 .u16) (fun c => c.write 0 .u16) [0x03, 0x00]
      ⟨some (.u16 []), ()⟩ := by decide +kernel

/-- `calculated_aligns_ucs2_item_to_4bytes`, `src/pdb/offset_array.rs` 546-564. -/
example :
    outOf (OffsetContainer.write (T := Multiple) ⟨none, ⟨str "foo", str "é"⟩⟩ 0 .u8) =
      some [0x03, 0x03, 0x08, 0x09, 0x66, 0x6F, 0x6F, 0x00, 0x90, 0x06, 0x00, 0x00, 0xE9, 0x00] := by
  decide +kernel

/-! ## Cues, `src/anlz.rs` 1195-1249 -/

/-- `extended_cue_empty_comment_roundtrip`, `src/anlz.rs` 1201-1248. -/
example : Agrees Anlz.ExtendedCue.read (fun c => Wr.emitRes c.enc)
    [0x50, 0x43, 0x50, 0x32, 0x00, 0x00, 0x00, 0x10, 0x00, 0x00, 0x00, 0x58, 0x00, 0x00,
     0x00, 0x04, 0x01, 0x00, 0x03, 0xe8, 0x00, 0x04, 0x62, 0xf7, 0xff, 0xff, 0xff, 0xff,
     0x00, 0x01, 0x00, 0x00, 0x00, 0x00, 0x00, 0x00, 0x00, 0x00, 0x00, 0x00, 0x00, 0x00,
     0x00, 0x00, 0x00, 0x4d, 0x00, 0xff, 0x00, 0x00, 0x00, 0x00, 0x00, 0xc1, 0x70, 0x00,
     0x00, 0x00, 0x00, 0x00, 0x00, 0x00, 0x00, 0x00, 0x00, 0x00, 0x00, 0x00, 0x02, 0x30,
     0x77, 0x61, 0x00, 0x00, 0x00, 0x00, 0x00, 0x00, 0x00, 0x00, 0x00, 0x00, 0x10, 0x00,
     0x00, 0x00, 0x00, 0x00]
    { header := { kind := .extendedCue, size := 16, totalSize := 88 }
      hotCue := 4, cueType := .point, unknown1 := 0, unknown2 := 1000, time := 287479
      loopTime := 4294967295, color := .none, unknown3 := 1, unknown4 := 0, unknown5 := 0
      loopNumerator := 0, loopDenominator := 0, comment := ⟨""⟩, hotCueColorIndex := 0
      red := 0x4d, green := 0x00, blue := 0xff, unknown6 := 0, unknown7 := 0x00c17000
      unknown8 := 0, unknown9 := 0, unknown10 := 0
      trailing := [0x02, 0x30, 0x77, 0x61, 0x00, 0x00, 0x00, 0x00, 0x00, 0x00, 0x00, 0x00, 0x00, 0x00,
        0x10, 0x00, 0x00, 0x00, 0x00, 0x00] } := by decide +kernel

/-! ## Allocating rows, `src/pdb/test_modification.rs` -/

/-- The pages of these tests, e.g. `src/pdb/test_modification.rs` 17-40. -/
def keysPage (rows : Fin 8192) (valid : Fin 2048) (free used : UInt16) (groups : List RowGroup)
    (content : List (UInt16 × Row)) : Page :=
  { header :=
      { pageIndex := ⟨12⟩, pageType := .plain .keys, nextPage := ⟨51⟩, unknown1 := 13484, unknown2 := 0
        packedRowCounts := ⟨rows, valid⟩, pageFlags := .newDataPage, freeSize := free, usedSize := used }
    content := .data
      { header := ⟨0, 0, 0, 0⟩, rowGroups := groups, rows := RowMap.ofList content } }

/-- The rows of these tests, e.g. `src/pdb/test_modification.rs` 42-46. -/
def keyRow (id : UInt32) (name : String) : Row := .plain (.key { id := id, id2 := id, name := str name })

/-- `heap_bytes_required`, `allocate_row` and the call of its closure, as in
`src/pdb/test_modification.rs` 47-49. -/
def allocate (pg : Page) (row : Row) : Option Page :=
  match row.heapBytes with
  | .ok n =>
    match pg.allocateRow (UInt16.ofNat n) with
    | .ok (pg, some slot) =>
      match pg.insertRow slot row with
      | .ok pg => some pg
      | _ => none
    | _ => none
  | _ => none

/-- `allocate_row_empty_page`, `src/pdb/test_modification.rs` 11-102. -/
example : allocate (keysPage 0 0 3000 0 [] []) (keyRow 1 "Emin") =
    some (keysPage 1 1 2978 16 [⟨[0, 0, 0, 0, 0, 0, 0, 0, 0, 0, 0, 0, 0, 0, 0, 0x0000], 0x0001, 0⟩]
      [(0x0000, keyRow 1 "Emin")]) := by decide +kernel

/-- `allocate_row_existing_row_group`, `src/pdb/test_modification.rs` 105-220. -/
example :
    allocate
      (keysPage 1 1 2978 16 [⟨[0, 0, 0, 0, 0, 0, 0, 0, 0, 0, 0, 0, 0, 0, 0, 0x0000], 0x0001, 0⟩]
        [(0x0000, keyRow 1 "Emin")]) (keyRow 2 "Fmaj") =
    some (keysPage 2 2 2960 32 [⟨[0, 0, 0, 0, 0, 0, 0, 0, 0, 0, 0, 0, 0, 0, 0x0010, 0x0000], 0x0003, 0⟩]
      [(0x0000, keyRow 1 "Emin"), (0x0010, keyRow 2 "Fmaj")]) := by decide +kernel

/-- `allocate_row_interrupted`, `src/pdb/test_modification.rs` 223-327. -/
example :
    (keysPage 1 1 2978 16 [⟨[0, 0, 0, 0, 0, 0, 0, 0, 0, 0, 0, 0, 0, 0, 0, 0x0000], 0x0001, 0⟩]
      [(0x0000, keyRow 1 "Emin")]).allocateRow 16 =
    .ok (keysPage 2 1 2960 32 [⟨[0, 0, 0, 0, 0, 0, 0, 0, 0, 0, 0, 0, 0, 0, 0x0010, 0x0000], 0x0001, 0⟩]
      [(0x0000, keyRow 1 "Emin")], some ⟨0x0010, 0, 1⟩) := by decide +kernel

/-- The sixteen rows of `src/pdb/test_modification.rs` 340-455. -/
def sixteen : List (UInt16 × Row) :=
  [(0x0000, keyRow 1 "Emin"), (0x0010, keyRow 2 "Fmaj"), (0x0020, keyRow 3 "E"),
   (0x002c, keyRow 4 "Amin"), (0x003c, keyRow 5 "2d"), (0x0048, keyRow 6 "Bmin"),
   (0x0058, keyRow 7 "Cmin"), (0x0068, keyRow 8 "Cmaj"), (0x0078, keyRow 9 "Abmin"),
   (0x0088, keyRow 10 "Dmin"), (0x0098, keyRow 11 "Gmin"), (0x00a8, keyRow 12 "Dm"),
   (0x00b4, keyRow 13 "Am"), (0x00c0, keyRow 14 "A#"), (0x00cc, keyRow 15 "G#min"),
   (0x00dc, keyRow 16 "A#min")]

/-- The row group of `src/pdb/test_modification.rs` 332-339. -/
def fullGroup : RowGroup :=
  ⟨[0x00dc, 0x00cc, 0x00c0, 0x00b4, 0x00a8, 0x0098, 0x0088, 0x0078, 0x0068, 0x0058, 0x0048, 0x003c,
    0x002c, 0x0020, 0x0010, 0x0000], 0xffff, 0⟩

/-- `allocate_row_full_row_group`, `src/pdb/test_modification.rs` 330-698. -/
example :
    allocate (keysPage 16 16 2000 0x00ec [fullGroup] sixteen) (keyRow 17 "Amaj") =
    some (keysPage 17 17 1978 0x00fc
      [fullGroup, ⟨[0, 0, 0, 0, 0, 0, 0, 0, 0, 0, 0, 0, 0, 0, 0, 0x00ec], 0x0001, 0⟩]
      (sixteen ++ [(0x00ec, keyRow 17 "Amaj")])) := by decide +kernel

/-- `allocate_row_full_page`, `src/pdb/test_modification.rs` 701-740. -/
example :
    (keyRow 1 "Emin").heapBytes = .ok 13 ∧
    (keysPage 0 0 1 0 [] []).allocateRow 13 = .ok (keysPage 0 0 1 0 [] [], none) := by decide +kernel

end Rekordcrate.Conformance
