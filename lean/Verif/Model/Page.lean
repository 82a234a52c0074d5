import Verif.Model.Header
import Verif.Model.Bitfields
import Verif.Model.Rows

/-! # Model of pages (`src/pdb/mod.rs` 316-837, `src/util.rs` 145-193)

Sizes that the code keeps in `u16`, `u32` or `usize` variables are numbers here; every arithmetic step
that can leave the range is a checked operation with the outcome `panic`. -/

namespace Rekordcrate

/-! ## Row groups -/

/-- `RowGroup`, `src/pdb/mod.rs` 740-769; the array of 16 offsets is a list. -/
structure RowGroup where
  rowOffsets : List UInt16
  rowPresenceFlags : UInt16
  unknown : UInt16
  deriving DecidableEq, Repr

namespace RowGroup

/-- `RowGroup::empty`, `src/pdb/mod.rs` 778-784. -/
def empty : RowGroup := ⟨List.replicate 16 0, 0, 0⟩

/-- Helper of `presentRowsOffsets` (`enumerate` and `filter_map` of `src/pdb/mod.rs` 789-793): offsets
with the numbers `i, i+1, …` whose flag is set. -/
def presentFrom (flags : UInt16) : Nat → List UInt16 → List UInt16
  | _, [] => []
  | i, o :: os =>
    if flags.toNat.testBit i then o :: presentFrom flags (i + 1) os else presentFrom flags (i + 1) os

/-- `present_rows_offsets`, `src/pdb/mod.rs` 786-794. -/
def presentRowsOffsets (g : RowGroup) : List UInt16 :=
  presentFrom g.rowPresenceFlags 0 g.rowOffsets.reverse

/-- `u16::leading_zeros`, used in `src/pdb/mod.rs` 806, of the lowest `n` bits: the number of zero bits
from bit `n - 1` downwards to the first set bit. -/
def leadingZeros (x : UInt16) : Nat → Nat
  | 0 => 0
  | n + 1 => if x.toNat.testBit n then 0 else leadingZeros x n + 1

/-- `write_row_offsets`, `src/pdb/mod.rs` 796-812. -/
def writeRowOffsets (g : RowGroup) : Wr Unit := do
  let skip := leadingZeros g.rowPresenceFlags 16
  Wr.seekBy (skip * 2 : Nat)
  Wr.emit ((g.rowOffsets.drop skip).flatMap encU16)

/-- Derived `BinWrite`, `src/pdb/mod.rs` 738-769: seek back 36 bytes, write, seek back to the start. -/
def write (g : RowGroup) : Wr Unit := do
  Wr.seekBy (-36)
  g.writeRowOffsets
  Wr.emit (encU16 g.rowPresenceFlags)
  Wr.emit (encU16 g.unknown)
  Wr.seekBy (-36)

/-- Derived `BinRead`, `src/pdb/mod.rs` 738-769. -/
def read : Rd RowGroup := do
  Rd.seekBy (-36)
  let rowOffsets ← Rd.many Rd.u16 16
  let rowPresenceFlags ← Rd.u16
  let unknown ← Rd.u16
  Rd.seekBy (-36)
  pure { rowOffsets, rowPresenceFlags, unknown }

/-- `insert_offset`, `src/pdb/mod.rs` 816-818: the index `15 - subindex` is computed with overflow
checks and checked against the array. -/
def insertOffset (g : RowGroup) (subindex : Nat) (offset : UInt16) : Res RowGroup := do
  let i ← subU 15 subindex
  if i < g.rowOffsets.length then .ok { g with rowOffsets := g.rowOffsets.set i offset } else .panic

/-- `mark_offset_present`, `src/pdb/mod.rs` 821-823: shifting by 16 or more panics. -/
def markOffsetPresent (g : RowGroup) (subindex : Nat) : Res RowGroup :=
  if subindex < 16 then
    .ok { g with rowPresenceFlags := g.rowPresenceFlags ||| UInt16.ofNat (2 ^ subindex) }
  else .panic

/-- `PartialEq for RowGroup`, `src/pdb/mod.rs` 832-837. -/
def eq (a b : RowGroup) : Bool :=
  a.unknown == b.unknown && a.presentRowsOffsets == b.presentRowsOffsets

end RowGroup

/-! ## Page headers -/

/-- `PageHeader`, `src/pdb/mod.rs` 502-538. -/
structure PageHeader where
  pageIndex : PageIndex
  pageType : PageType
  nextPage : PageIndex
  unknown1 : UInt32
  unknown2 : UInt32
  packedRowCounts : PackedRowCounts
  pageFlags : PageFlags
  freeSize : UInt16
  usedSize : UInt16
  deriving DecidableEq, Repr

namespace PageHeader

/-- Derived `BinWrite`, `src/pdb/mod.rs` 498-538. -/
def enc (h : PageHeader) : Bytes :=
  encU32 0 ++ (h.pageIndex.enc ++ (h.pageType.enc ++ (h.nextPage.enc ++ (encU32 h.unknown1 ++
    (encU32 h.unknown2 ++ (h.packedRowCounts.enc ++ (h.pageFlags.enc ++ (encU16 h.freeSize ++
      encU16 h.usedSize))))))))

/-- Derived `BinRead`, `src/pdb/mod.rs` 498-538. -/
def read (db : DatabaseType) : Rd PageHeader := do
  Rd.magic (encU32 0)
  let pageIndex ← PageIndex.read
  let pageType ← PageType.read db
  let nextPage ← PageIndex.read
  let unknown1 ← Rd.u32
  let unknown2 ← Rd.u32
  let packedRowCounts ← PackedRowCounts.read
  let pageFlags ← PageFlags.read
  let freeSize ← Rd.u16
  let usedSize ← Rd.u16
  pure { pageIndex, pageType, nextPage, unknown1, unknown2, packedRowCounts, pageFlags, freeSize,
         usedSize }

end PageHeader

/-- `DataPageHeader`, `src/pdb/mod.rs` 623-641. -/
structure DataPageHeader where
  unknown5 : UInt16
  unknownNotNumRowsLarge : UInt16
  unknown6 : UInt16
  unknown7 : UInt16
  deriving DecidableEq, Repr

namespace DataPageHeader

/-- Derived `BinWrite`, `src/pdb/mod.rs` 621-641. -/
def enc (h : DataPageHeader) : Bytes :=
  encU16 h.unknown5 ++ (encU16 h.unknownNotNumRowsLarge ++ (encU16 h.unknown6 ++ encU16 h.unknown7))

/-- Derived `BinRead`, `src/pdb/mod.rs` 621-641. -/
def read : Rd DataPageHeader := do
  let unknown5 ← Rd.u16
  let unknownNotNumRowsLarge ← Rd.u16
  let unknown6 ← Rd.u16
  let unknown7 ← Rd.u16
  pure { unknown5, unknownNotNumRowsLarge, unknown6, unknown7 }

end DataPageHeader

/-- `IndexPageHeader`, `src/pdb/mod.rs` 319-347. -/
structure IndexPageHeader where
  unknownA : UInt16
  unknownB : UInt16
  nextOffset : UInt16
  pageIndex : PageIndex
  nextPage : PageIndex
  numEntries : UInt16
  firstEmpty : UInt16
  deriving DecidableEq, Repr

namespace IndexPageHeader

/-- Derived `BinWrite`, `src/pdb/mod.rs` 317-347. -/
def enc (h : IndexPageHeader) : Bytes :=
  encU16 h.unknownA ++ (encU16 h.unknownB ++ (encU16 0x03ec ++ (encU16 h.nextOffset ++
    (h.pageIndex.enc ++ (h.nextPage.enc ++ (encU64 0x03ffffff ++ (encU16 h.numEntries ++
      encU16 h.firstEmpty)))))))

/-- Derived `BinRead`, `src/pdb/mod.rs` 317-347. -/
def read : Rd IndexPageHeader := do
  let unknownA ← Rd.u16
  let unknownB ← Rd.u16
  Rd.magic (encU16 0x03ec)
  let nextOffset ← Rd.u16
  let pageIndex ← PageIndex.read
  let nextPage ← PageIndex.read
  Rd.magic (encU64 0x03ffffff)
  let numEntries ← Rd.u16
  let firstEmpty ← Rd.u16
  pure { unknownA, unknownB, nextOffset, pageIndex, nextPage, numEntries, firstEmpty }

end IndexPageHeader

/-! ## Index pages -/

/-- `IndexPageContent`, `src/pdb/mod.rs` 359-375. -/
structure IndexPageContent where
  header : IndexPageHeader
  entries : List IndexEntry
  deriving DecidableEq, Repr

namespace IndexPageContent

/-- `total_entries`, `src/pdb/mod.rs` 378-384: `u32` subtractions with overflow checks. -/
def totalEntries (pageSize : Nat) : Res Nat := do
  let a ← subU pageSize 32
  let b ← subU a 28
  let c ← subU b 20
  .ok (c / 4)

/-- Derived `BinWrite`, `src/pdb/mod.rs` 355-375, with `EmptyIndexEntries` (401-418) and `pad_after`,
which writes zeros.  The `calc` expression is evaluated first here; the position of a panic among the
writes does not matter for the outcome (`Begun` has the writes before a panic). -/
def write (c : IndexPageContent) (pageSize : Nat) : Wr Unit := do
  let total ← Wr.lift (totalEntries pageSize)
  let n ← Wr.lift (subU total c.header.numEntries.toNat)
  Wr.emit c.header.enc
  Wr.emit (c.entries.flatMap IndexEntry.enc)
  Wr.emit ((List.replicate n IndexEntry.empty).flatMap IndexEntry.enc)
  Wr.emit (List.replicate 20 0)

/-- Derived `BinRead`, `src/pdb/mod.rs` 355-375; `EmptyIndexEntries` (390-399) reads nothing. -/
def read : Rd IndexPageContent := do
  let header ← IndexPageHeader.read
  let entries ← Rd.many IndexEntry.read header.numEntries.toNat
  pure { header, entries }

end IndexPageContent

/-! ## Data pages -/

/-- `BTreeMap<u16, V>`: entries with strictly increasing keys.  The type of `rows`, `src/pdb/mod.rs` 672. -/
abbrev RowMap := List (UInt16 × Row)

namespace RowMap

/-- `BTreeMap::insert`, used in `src/pdb/mod.rs` 605 and by `collect` in `src/util.rs` 167: the new map,
with the entry replaced if the key is there already. -/
def insert (k : UInt16) (v : Row) : RowMap → RowMap
  | [] => [(k, v)]
  | (k', v') :: m =>
    if k < k' then (k, v) :: (k', v') :: m
    else if k = k' then (k, v) :: m
    else (k', v') :: insert k v m

/-- The value under a key (return value of `BTreeMap::insert`, `src/pdb/mod.rs` 605). -/
def get? (m : RowMap) (k : UInt16) : Option Row := m.lookup k

/-- `FromIterator for BTreeMap` (`collect`, `src/util.rs` 167): inserts the pairs in order.  The standard
library sorts and removes duplicates, keeping the last; the result is the same. -/
def ofList (l : List (UInt16 × Row)) : RowMap := l.foldl (fun m x => insert x.1 x.2 m) []

end RowMap

/-- `DataPageContent`, `src/pdb/mod.rs` 653-683. -/
structure DataPageContent where
  header : DataPageHeader
  rowGroups : List RowGroup
  rows : RowMap
  deriving DecidableEq, Repr

namespace DataPageContent

/-- `page_heap_size`, `src/pdb/mod.rs` 686-688: `u32` subtractions with overflow checks. -/
def pageHeapSize (pageSize : Nat) : Res Nat := do
  let a ← subU pageSize 32
  subU a 8

/-- `parse_at_offsets`, `src/util.rs` 146-169, for rows: the pairs of offset and row. -/
def parseAtOffsets (t : PageType) (base : Nat) : List UInt16 → Rd (List (UInt16 × Row))
  | [] => pure []
  | o :: os => do
    Rd.seekBy (o.toNat : Nat)
    let v ← Row.read t
    Rd.seekTo base
    let rest ← parseAtOffsets t base os
    pure ((o, v) :: rest)

/-- `write_at_offsets`, `src/util.rs` 172-193, for one row. -/
def writeRowAt (base : Nat) (x : UInt16 × Row) : Wr Unit := do
  Wr.seekBy (x.1.toNat : Nat)
  x.2.write
  Wr.seekTo base

/-- `write_at_offsets`, `src/util.rs` 172-193, for rows; a map is traversed in key order. -/
def writeAtOffsets (rows : RowMap) : Wr Unit := do
  let base ← Wr.pos
  Wr.forEach (writeRowAt base) rows

/-- Row groups are written from the end of the page, `src/pdb/mod.rs` 660-662. -/
def writeGroups (heap : Nat) (gs : List RowGroup) : Wr Unit :=
  Wr.restore (do Wr.seekBy (heap : Nat); Wr.forEach RowGroup.write gs)

/-- Derived `BinWrite`, `src/pdb/mod.rs` 649-683. -/
def write (c : DataPageContent) (pageSize : Nat) : Wr Unit := do
  Wr.emit c.header.enc
  let heap ← Wr.lift (pageHeapSize pageSize)
  writeGroups heap c.rowGroups
  writeAtOffsets c.rows
  Wr.seekBy (heap : Nat)

/-- Row groups are read from the end of the page, `src/pdb/mod.rs` 660-662. -/
def readGroups (heap n : Nat) : Rd (List RowGroup) :=
  Rd.restore (do Rd.seekBy (heap : Nat); Rd.many RowGroup.read n)

/-- The rows at all present offsets, `src/pdb/mod.rs` 667-668. -/
def readRows (t : PageType) (gs : List RowGroup) : Rd RowMap := do
  let base ← Rd.pos
  let l ← parseAtOffsets t base (gs.flatMap RowGroup.presentRowsOffsets)
  pure (RowMap.ofList l)

/-- Derived `BinRead`, `src/pdb/mod.rs` 649-683. -/
def read (pageSize : Nat) (h : PageHeader) : Rd DataPageContent := do
  let header ← DataPageHeader.read
  let heap ← Rd.lift (pageHeapSize pageSize)
  let rowGroups ← readGroups heap h.packedRowCounts.numRowGroups
  let rows ← readRows h.pageType rowGroups
  Rd.require (rows.length == h.packedRowCounts.numRowsValid.val)
  Rd.seekBy (heap : Nat)
  pure { header, rowGroups, rows }

end DataPageContent

/-! ## Pages -/

/-- `PageContent`, `src/pdb/mod.rs` 428-439. -/
inductive PageContent where
  | data (c : DataPageContent)
  | index (c : IndexPageContent)
  deriving DecidableEq, Repr

namespace PageContent

/-- Derived `BinWrite`, `src/pdb/mod.rs` 424-439. -/
def write (pageSize : Nat) : PageContent → Wr Unit
  | data c => c.write pageSize
  | index c => c.write pageSize

/-- Derived `BinRead`, `src/pdb/mod.rs` 424-439: the variants are guarded by the page flags. -/
def read (pageSize : Nat) (h : PageHeader) : Rd PageContent :=
  Rd.orElse
    (do Rd.require (!h.pageFlags.isIndexPage); let c ← DataPageContent.read pageSize h; pure (.data c))
    (do Rd.require h.pageFlags.isIndexPage; let c ← IndexPageContent.read; pure (.index c))

/-- `into_data`, `as_data`, `as_data_mut`, `src/pdb/mod.rs` 443-467. -/
def asData : PageContent → Option DataPageContent
  | data c => some c
  | index _ => none

/-- `into_index`, `as_index`, `as_index_mut`, `src/pdb/mod.rs` 471-494. -/
def asIndex : PageContent → Option IndexPageContent
  | data _ => none
  | index c => some c

end PageContent

/-- `Page`, `src/pdb/mod.rs` 555-564. -/
structure Page where
  header : PageHeader
  content : PageContent
  deriving DecidableEq, Repr

/-- What the closure returned by `allocate_row` captures, `src/pdb/mod.rs` 586-604: the offset, and which
slot of which row group is to be marked. -/
structure RowSlot where
  offset : UInt16
  group : Nat
  subindex : Nat
  deriving DecidableEq, Repr

namespace Page

/-- Derived `BinWrite`, `src/pdb/mod.rs` 550-564. -/
def write (pg : Page) (pageSize : Nat) : Wr Unit := do
  Wr.emit pg.header.enc
  pg.content.write pageSize

/-- Derived `BinRead`, `src/pdb/mod.rs` 550-564. -/
def read (pageSize : Nat) (db : DatabaseType) : Rd Page := do
  let header ← PageHeader.read db
  let content ← PageContent.read pageSize header
  pure { header, content }

/-- `u16::next_multiple_of(4)`, used in `src/pdb/mod.rs` 578. -/
def alignUp4 (n : Nat) : Res Nat :=
  if n % 4 = 0 then .ok n else addU16 n (4 - n % 4)

/-- `Page::allocate_row` up to the creation of the closure, `src/pdb/mod.rs` 573-602: the page
afterwards and what the closure captures, if there is one.  The closure borrows the page, so nothing else can happen to the page
between this and `insertRow`. -/
def allocateRow (pg : Page) (bytes : UInt16) : Res (Page × Option RowSlot) :=
  match pg.content with
  | .index _ => .ok (pg, none)
  | .data dpc => do
    let bytes ← alignUp4 bytes.toNat
    let r ← addU16 bytes 4
    let required ← addU16 r 2
    if pg.header.freeSize.toNat < required then
      .ok (pg, none)
    else do
      let offset := pg.header.usedSize
      let used ← addU16 pg.header.usedSize.toNat bytes
      let free ← subU pg.header.freeSize.toNat bytes
      let counts ← pg.header.packedRowCounts.incrementNumRows
      match counts.lastRowIndex with
      | none => .panic
      | some (g, s) => do
        let groups := if g < dpc.rowGroups.length then dpc.rowGroups else dpc.rowGroups ++ [RowGroup.empty]
        let free ← if g < dpc.rowGroups.length then .ok free else subU free 4
        match groups[g]? with
        | none => .panic
        | some grp => do
          let grp ← grp.insertOffset s offset
          let free ← subU free 2
          .ok
            ({ header := { pg.header with
                 usedSize := UInt16.ofNat used
                 freeSize := UInt16.ofNat free
                 packedRowCounts := counts }
               content := .data { dpc with rowGroups := groups.set g grp } },
             some ⟨offset, g, s⟩)

/-- The closure returned by `allocate_row`, `src/pdb/mod.rs` 604-614.  The index cases cannot occur in
the code, where the closure holds references. -/
def insertRow (pg : Page) (slot : RowSlot) (row : Row) : Res Page :=
  match pg.content with
  | .index _ => .panic
  | .data dpc =>
    match RowMap.get? dpc.rows slot.offset with
    | some _ => .panic
    | none =>
      match dpc.rowGroups[slot.group]? with
      | none => .panic
      | some grp => do
        let grp ← grp.markOffsetPresent slot.subindex
        let counts ← pg.header.packedRowCounts.incrementNumRowsValid
        .ok { header := { pg.header with packedRowCounts := counts }
              content := .data { dpc with
                rowGroups := dpc.rowGroups.set slot.group grp
                rows := RowMap.insert slot.offset row dpc.rows } }

end Page

end Rekordcrate
