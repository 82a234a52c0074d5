import Verif.Model.Io

/-! # Model of page types, page indices, index entries, tables and the file header
(`src/pdb/mod.rs` 58-298, `src/pdb/ext.rs` 167-177) -/

namespace Rekordcrate

/-- `DatabaseType`, `src/pdb/mod.rs` 60-67. -/
inductive DatabaseType where
  | plain | ext
  deriving DecidableEq, Repr

/-- `PlainPageType`, `src/pdb/mod.rs` 86-137. -/
inductive PlainPageType where
  | tracks | genres | artists | albums | labels | keys | colors | playlistTree | playlistEntries
  | historyPlaylists | historyEntries | artwork | columns | menu | history
  deriving DecidableEq, Repr

namespace PlainPageType

/-- Magic values, `src/pdb/mod.rs` 90-136. -/
def code : PlainPageType → UInt32
  | tracks => 0 | genres => 1 | artists => 2 | albums => 3 | labels => 4 | keys => 5 | colors => 6
  | playlistTree => 7 | playlistEntries => 8 | historyPlaylists => 11 | historyEntries => 12
  | artwork => 13 | columns => 16 | menu => 17 | history => 19

/-- Variants in declaration order, `src/pdb/mod.rs` 86-137. -/
def all : List PlainPageType :=
  [tracks, genres, artists, albums, labels, keys, colors, playlistTree, playlistEntries,
    historyPlaylists, historyEntries, artwork, columns, menu, history]

/-- Derived `BinWrite`, `src/pdb/mod.rs` 86-137. -/
def enc (t : PlainPageType) : Bytes := encU32 t.code

/-- Derived `BinRead`, `src/pdb/mod.rs` 86-137. -/
def read : Rd PlainPageType := Rd.magicEnum (all.map fun t => (t.enc, t))

end PlainPageType

/-- `ExtPageType`, `src/pdb/ext.rs` 167-177. -/
inductive ExtPageType where
  | tag | trackTag
  deriving DecidableEq, Repr

namespace ExtPageType

/-- Magic values, `src/pdb/ext.rs` 167-177. -/
def code : ExtPageType → UInt32
  | tag => 3 | trackTag => 4

/-- Variants in declaration order, `src/pdb/ext.rs` 167-177. -/
def all : List ExtPageType := [tag, trackTag]

/-- Derived `BinWrite`, `src/pdb/ext.rs` 167-177. -/
def enc (t : ExtPageType) : Bytes := encU32 t.code

/-- Derived `BinRead`, `src/pdb/ext.rs` 167-177. -/
def read : Rd ExtPageType := Rd.magicEnum (all.map fun t => (t.enc, t))

end ExtPageType

/-- `PageType`, `src/pdb/mod.rs` 70-83. -/
inductive PageType where
  | plain (t : PlainPageType)
  | ext (t : ExtPageType)
  | unknown (code : UInt32)
  deriving DecidableEq, Repr

namespace PageType

/-- Derived `BinWrite`, `src/pdb/mod.rs` 70-83. -/
def enc : PageType → Bytes
  | plain t => t.enc
  | ext t => t.enc
  | unknown c => encU32 c

/-- Derived `BinRead`, `src/pdb/mod.rs` 70-83: `Plain` and `Ext` are guarded by `pre_assert` on the
database kind, `Unknown` accepts every code. -/
def read (db : DatabaseType) : Rd PageType :=
  Rd.orElse (do Rd.require (db == .plain); let t ← PlainPageType.read; pure (.plain t))
    (Rd.orElse (do Rd.require (db == .ext); let t ← ExtPageType.read; pure (.ext t))
      (do let c ← Rd.u32; pure (.unknown c)))

end PageType

/-- `PageIndex`, `src/pdb/mod.rs` 155. -/
structure PageIndex where
  val : UInt32
  deriving DecidableEq, Repr

namespace PageIndex

/-- `TryFrom<u32> for PageIndex`, `src/pdb/mod.rs` 157-167. -/
def tryFrom (v : UInt32) : Res PageIndex :=
  if v < 0x03FFFFFF then .ok ⟨v⟩ else .err (.invalidPageIndex v.toNat)

/-- `PageIndex::offset`, `src/pdb/mod.rs` 172-174: a checked `u64` multiplication. -/
def offset (i : PageIndex) (pageSize : UInt32) : Res Nat :=
  if i.val.toNat * pageSize.toNat < 2 ^ 64 then .ok (i.val.toNat * pageSize.toNat) else .panic

/-- Derived `BinWrite`, `src/pdb/mod.rs` 152-155. -/
def enc (i : PageIndex) : Bytes := encU32 i.val

/-- Derived `BinRead`, `src/pdb/mod.rs` 152-155: no range check. -/
def read : Rd PageIndex := do
  let v ← Rd.u32
  pure ⟨v⟩

end PageIndex

/-- `Table`, `src/pdb/mod.rs` 183-198. -/
structure Table where
  pageType : PageType
  emptyCandidate : UInt32
  firstPage : PageIndex
  lastPage : PageIndex
  deriving DecidableEq, Repr

namespace Table

/-- Derived `BinWrite`, `src/pdb/mod.rs` 179-198. -/
def enc (t : Table) : Bytes :=
  t.pageType.enc ++ (encU32 t.emptyCandidate ++ (t.firstPage.enc ++ t.lastPage.enc))

/-- Derived `BinRead`, `src/pdb/mod.rs` 179-198. -/
def read (db : DatabaseType) : Rd Table := do
  let pageType ← PageType.read db
  let emptyCandidate ← Rd.u32
  let firstPage ← PageIndex.read
  let lastPage ← PageIndex.read
  pure { pageType, emptyCandidate, firstPage, lastPage }

end Table

/-- `Header`, `src/pdb/mod.rs` 205-226. -/
structure Header where
  pageSize : UInt32
  numTables : UInt32
  nextUnusedPage : PageIndex
  unknown : UInt32
  sequence : UInt32
  tables : List Table
  deriving DecidableEq, Repr

namespace Header

/-- Derived `BinWrite`, `src/pdb/mod.rs` 201-226: `num_tables` is written as stored, not
recomputed from `tables`. -/
def enc (h : Header) : Bytes :=
  encU32 0 ++ (encU32 h.pageSize ++ (encU32 h.numTables ++ (h.nextUnusedPage.enc ++
    (encU32 h.unknown ++ (encU32 h.sequence ++ (encU32 0 ++ h.tables.flatMap Table.enc))))))

/-- Derived `BinRead`, `src/pdb/mod.rs` 201-226. -/
def read (db : DatabaseType) : Rd Header := do
  Rd.magic (encU32 0)
  let pageSize ← Rd.u32
  let numTables ← Rd.u32
  let nextUnusedPage ← PageIndex.read
  let unknown ← Rd.u32
  let sequence ← Rd.u32
  Rd.magic (encU32 0)
  let tables ← Rd.many (Table.read db) numTables.toNat
  pure { pageSize, numTables, nextUnusedPage, unknown, sequence, tables }

/-- Position of the first table with the page type, counting from `i` (helper of `findTable`,
`src/pdb/mod.rs` 232-236: `iter().enumerate().find(..)`). -/
def findFrom (pt : PageType) : Nat → List Table → Option (Nat × Table)
  | _, [] => none
  | i, t :: ts => if t.pageType = pt then some (i, t) else findFrom pt (i + 1) ts

/-- `Header::find_table` and `find_table_mut`, `src/pdb/mod.rs` 229-248. -/
def findTable (h : Header) (pt : PageType) : Option (Nat × Table) := findFrom pt 0 h.tables

end Header

/-- `IndexEntry`, `src/pdb/mod.rs` 254. -/
structure IndexEntry where
  raw : UInt32
  deriving DecidableEq, Repr

namespace IndexEntry

/-- `TryFrom<(PageIndex, u8)> for IndexEntry`, `src/pdb/mod.rs` 261-271.  `<< 3` on `u32` drops the
high bits. -/
def tryFrom (page : PageIndex) (flags : UInt8) : Res IndexEntry :=
  if flags &&& 7 ≠ flags then .err (.invalidIndexFlags flags.toNat)
  else .ok ⟨(page.val <<< 3) ||| (flags &&& 7).toUInt32⟩

/-- `page_index`, `src/pdb/mod.rs` 276-278. -/
def pageIndex (e : IndexEntry) : Res PageIndex := PageIndex.tryFrom (e.raw >>> 3)

/-- `index_flags`, `src/pdb/mod.rs` 283-285. -/
def indexFlags (e : IndexEntry) : UInt8 := (e.raw &&& 7).toUInt8

/-- `is_empty`, `src/pdb/mod.rs` 289-291. -/
def isEmpty (e : IndexEntry) : Bool := e.raw == 0x1FFFFFF8

/-- `empty`, `src/pdb/mod.rs` 295-297. -/
def empty : IndexEntry := ⟨0x1FFFFFF8⟩

/-- Derived `BinWrite`, `src/pdb/mod.rs` 251-254. -/
def enc (e : IndexEntry) : Bytes := encU32 e.raw

/-- Derived `BinRead`, `src/pdb/mod.rs` 251-254. -/
def read : Rd IndexEntry := do
  let v ← Rd.u32
  pure ⟨v⟩

/-- Outcome of `Debug for IndexEntry`, `src/pdb/mod.rs` 300-315, text left out: `unwrap` on the page
index. -/
def debugFmt (e : IndexEntry) : Res Unit :=
  if e.isEmpty then .ok ()
  else match e.pageIndex with
    | .ok _ => .ok ()
    | _ => .panic

end IndexEntry

end Rekordcrate
