import Verif.Model.Page

/-! # Model of the database (`src/pdb/io.rs`, `RowVariant` in `src/pdb/mod.rs`)

The underlying stream is an image of bytes that can be read at every position.  References to pages and
rows that the code hands out are positions in the vector of pages and keys of the row map; assigning through
a reference is a separate operation (`setPage`). -/

namespace Rekordcrate

/-- `LazyPage`, `src/pdb/io.rs` 43-47. -/
inductive LazyPage where
  | notLoaded
  | loaded (pg : Page)
  deriving DecidableEq, Repr

/-- `BinWrite for LazyPage`, `src/pdb/io.rs` 49-67. -/
def LazyPage.write (pageSize : UInt32) : LazyPage → Wr Unit
  | notLoaded => Wr.seekBy (pageSize.toNat : Nat)
  | loaded pg => pg.write pageSize.toNat

/-- `LazyDatabase`, `src/pdb/io.rs` 32-41. -/
structure LazyDatabase where
  header : Header
  pages : List LazyPage
  deriving DecidableEq, Repr

namespace LazyDatabase

/-- Derived `BinRead`, `src/pdb/io.rs` 28-41.  The vector has one entry per page; memory is not
modelled. -/
def read (db : DatabaseType) : Rd LazyDatabase := do
  let header ← Header.read db
  pure { header, pages := List.replicate (header.nextUnusedPage.val.toNat - 1) .notLoaded }

/-- Derived `BinWrite`, `src/pdb/io.rs` 28-41: `pad_size_to` writes zeros behind the header up to the page
size, and nothing if the header is longer. -/
def write (c : LazyDatabase) : Wr Unit := do
  Wr.emit c.header.enc
  Wr.emit (List.replicate (c.header.pageSize.toNat - c.header.enc.length) 0)
  Wr.forEach (LazyPage.write c.header.pageSize) c.pages

end LazyDatabase

/-- `read_page`, `src/pdb/io.rs` 69-80. -/
def readPage (io : Bytes) (i : PageIndex) (pageSize : UInt32) (db : DatabaseType) : Res Page := do
  let off ← i.offset pageSize
  let r ← Page.read pageSize.toNat db io off
  .ok r.1

/-- `Database`, `src/pdb/io.rs` 84-88. -/
structure Database where
  io : Bytes
  dbType : DatabaseType
  content : LazyDatabase
  deriving DecidableEq, Repr

/-- `PageIterator`, `src/pdb/io.rs` 256-265.  The slice `db_pages` is the part of the vector `pages` from
`start` on with `len` entries; what is loaded shows up in the vector. -/
structure PageIterator where
  io : Bytes
  pages : List LazyPage
  start : Nat
  len : Nat
  offset : Nat
  pageSize : UInt32
  dbType : DatabaseType
  nextPage : Option PageIndex
  lastPage : PageIndex
  deriving DecidableEq, Repr

namespace PageIterator

/-- `PageIterator::next`, `src/pdb/io.rs` 272-310: the outcome and the state of the iterator
afterwards, also after errors.  A page is returned as its position in the vector. -/
def next (it : PageIterator) : Res (Option Nat) × PageIterator :=
  match it.nextPage with
  | none => (.ok none, it)
  | some i =>
    if i.val.toNat < it.offset then (.err (.pageOrderViolation i.val.toNat), it)
    else
      let k := i.val.toNat - it.offset
      let taken := { it with len := 0 }
      if it.len < k then (.err (.pageNotPresent i.val.toNat), taken)
      else if it.len - k = 0 then (.err (.pageNotPresent i.val.toNat), taken)
      else
        let slot := it.start + k
        let it' : PageIterator :=
          { it with start := slot + 1, len := it.len - k - 1, offset := i.val.toNat + 1 }
        match it.pages[slot]? with
        | none => (.panic, it')
        | some (.loaded pg) =>
          (.ok (some slot), { it' with nextPage := if i = it.lastPage then none else some pg.header.nextPage })
        | some .notLoaded =>
          match readPage it.io i it.pageSize it.dbType with
          | .ok pg =>
            (.ok (some slot),
              { it' with
                pages := it.pages.set slot (.loaded pg)
                nextPage := if i = it.lastPage then none else some pg.header.nextPage })
          | .err e => (.err e, it')
          | .panic => (.panic, it')

end PageIterator

namespace Database

/-- `Database::open` and `open_non_persistent`, `src/pdb/io.rs` 93-101, 202-210: the header is read from
the current position `pos` of the stream. -/
def openAt (io : Bytes) (pos : Nat) (db : DatabaseType) : Res Database := do
  let r ← LazyDatabase.read db io pos
  .ok { io, dbType := db, content := r.1 }

/-- The database with another page at a place of the vector: assignment through the reference that
`load_page` returns, `src/pdb/io.rs` 104. -/
def setPage (d : Database) (slot : Nat) (pg : Page) : Database :=
  { d with content := { d.content with pages := d.content.pages.set slot (.loaded pg) } }

/-- Assignment through the reference that `get_header_mut` returns, `src/pdb/io.rs` 195-197. -/
def setHeader (d : Database) (h : Header) : Database :=
  { d with content := { d.content with header := h } }

/-- `load_page`, `src/pdb/io.rs` 104-123: the database with the page loaded, and the page. -/
def loadPage (d : Database) (i : PageIndex) : Res (Database × Page) := do
  let slot ← subU i.val.toNat 1
  match d.content.pages[slot]? with
  | none => .err (.pageNotPresent i.val.toNat)
  | some (.loaded pg) => .ok (d, pg)
  | some .notLoaded => do
    let pg ← readPage d.io i d.content.header.pageSize d.dbType
    .ok (d.setPage slot pg, pg)

/-- The iterator over the pages of a table, `src/pdb/io.rs` 137-145 and 156-164. -/
def pagesOf (d : Database) (t : Table) : PageIterator where
  io := d.io
  pages := d.content.pages
  start := 0
  len := d.content.pages.length
  offset := 1
  pageSize := d.content.header.pageSize
  dbType := d.dbType
  nextPage := some t.firstPage
  lastPage := t.lastPage

/-- `iter_pages_for_table`, `src/pdb/io.rs` 126-146. -/
def iterPagesForTable (d : Database) (i : Nat) : Res PageIterator :=
  match d.content.header.tables[i]? with
  | none => .err (.tableNotPresent i)
  | some t => .ok (d.pagesOf t)

/-- `iter_pages`, `src/pdb/io.rs` 149-165. -/
def iterPages (d : Database) (t : PageType) : Res PageIterator :=
  match d.content.header.findTable t with
  | none => .err .tableTypeNotPresent
  | some (_, t) => .ok (d.pagesOf t)

/-- The database when the borrow of an iterator ends: the iterator works on the vector itself.  The borrow at
`src/pdb/io.rs` 125-146. -/
def after (d : Database) (it : PageIterator) : Database :=
  { d with content := { d.content with pages := it.pages } }

/-- `flush`, `src/pdb/io.rs` 213-218: the writes. -/
def flushWrites (d : Database) : Res (List Patch) := do
  let r ← d.content.write 0
  .ok r.2.2

/-- `flush` and `close`, `src/pdb/io.rs` 213-224: the database afterwards.  If the writer fails, the
writes before the failure have happened; they are not part of the outcome here. -/
def flush (d : Database) : Res Database := do
  let ps ← d.flushWrites
  .ok { d with io := applyPatches d.io ps }

end Database

/-! ## Rows -/

/-- `RowVariant`, `src/pdb/mod.rs` 140-148. -/
class RowVariant (α : Type) where
  pageType : PageType
  fromRow : Row → Option α

/-- `RowVariant for Album`, `src/pdb/mod.rs` 1027-1042. -/
instance : RowVariant Album where
  pageType := .plain .albums
  fromRow
    | .plain (.album r) => some r
    | _ => none

/-- `RowVariant for Artist`, `src/pdb/mod.rs` 1079-1094. -/
instance : RowVariant Artist where
  pageType := .plain .artists
  fromRow
    | .plain (.artist r) => some r
    | _ => none

/-- `RowVariant for Artwork`, `src/pdb/mod.rs` 1122-1137. -/
instance : RowVariant Artwork where
  pageType := .plain .artwork
  fromRow
    | .plain (.artwork r) => some r
    | _ => none

/-- `RowVariant for Color`, `src/pdb/mod.rs` 1168-1183. -/
instance : RowVariant Color where
  pageType := .plain .colors
  fromRow
    | .plain (.color r) => some r
    | _ => none

/-- `RowVariant for Genre`, `src/pdb/mod.rs` 1211-1226. -/
instance : RowVariant Genre where
  pageType := .plain .genres
  fromRow
    | .plain (.genre r) => some r
    | _ => none

/-- `RowVariant for HistoryPlaylist`, `src/pdb/mod.rs` 1251-1266. -/
instance : RowVariant HistoryPlaylist where
  pageType := .plain .historyPlaylists
  fromRow
    | .plain (.historyPlaylist r) => some r
    | _ => none

/-- `RowVariant for HistoryEntry`, `src/pdb/mod.rs` 1293-1308. -/
instance : RowVariant HistoryEntry where
  pageType := .plain .historyEntries
  fromRow
    | .plain (.historyEntry r) => some r
    | _ => none

/-- `RowVariant for History`, `src/pdb/mod.rs` 1369-1384. -/
instance : RowVariant History where
  pageType := .plain .history
  fromRow
    | .plain (.history r) => some r
    | _ => none

/-- `RowVariant for Key`, `src/pdb/mod.rs` 1399-1414. -/
instance : RowVariant Key where
  pageType := .plain .keys
  fromRow
    | .plain (.key r) => some r
    | _ => none

/-- `RowVariant for Label`, `src/pdb/mod.rs` 1440-1455. -/
instance : RowVariant Label where
  pageType := .plain .labels
  fromRow
    | .plain (.label r) => some r
    | _ => none

/-- `RowVariant for PlaylistTreeNode`, `src/pdb/mod.rs` 1488-1503. -/
instance : RowVariant PlaylistTreeNode where
  pageType := .plain .playlistTree
  fromRow
    | .plain (.playlistTreeNode r) => some r
    | _ => none

/-- `RowVariant for PlaylistEntry`, `src/pdb/mod.rs` 1542-1557. -/
instance : RowVariant PlaylistEntry where
  pageType := .plain .playlistEntries
  fromRow
    | .plain (.playlistEntry r) => some r
    | _ => none

/-- `RowVariant for ColumnEntry`, `src/pdb/mod.rs` 1595-1610. -/
instance : RowVariant ColumnEntry where
  pageType := .plain .columns
  fromRow
    | .plain (.columnEntry r) => some r
    | _ => none

/-- `RowVariant for Track`, `src/pdb/mod.rs` 1806-1821. -/
instance : RowVariant Track where
  pageType := .plain .tracks
  fromRow
    | .plain (.track r) => some r
    | _ => none

/-- `RowVariant for Menu`, `src/pdb/mod.rs` 1935-1950. -/
instance : RowVariant Menu where
  pageType := .plain .menu
  fromRow
    | .plain (.menu r) => some r
    | _ => none

/-- The iterator returned by `iter_rows`, `src/pdb/io.rs` 168-185: the page iterator, and what is left of
the current page (position of the page, remaining entries of the row map in key order). -/
structure RowIterator where
  pages : PageIterator
  slot : Nat
  rest : RowMap
  deriving DecidableEq, Repr

/-- The rows that `as_data_mut` and `values_mut` give for a page, `src/pdb/io.rs` 174-181: none for index
pages, which `filter_map` skips. -/
def LazyPage.rows : LazyPage → RowMap
  | loaded pg => match pg.content.asData with
    | some c => c.rows
    | none => []
  | notLoaded => []

theorem PageIterator.next_len {it it' : PageIterator} {slot : Nat} (h : it.next = (.ok (some slot), it')) :
    it'.len < it.len := by
  unfold next at h
  split at h
  · cases h
  · split at h
    · cases h
    · simp only at h
      split at h
      · cases h
      · split at h
        · cases h
        · split at h
          · cases h
          · injection h with _ h
            subst h
            simp only
            omega
          · split at h
            · injection h with _ h
              subst h
              simp only
              omega
            · cases h
            · cases h

namespace RowIterator

/-- `next` of the iterator that `iter_rows` returns, `src/pdb/io.rs` 172-184, through `filter_map`,
`flat_map` and `map` of `fallible_iterator`: take the next row of the current page; without one, take the
next page and try again.  A row is returned with its page and key. -/
def next (α : Type) [RowVariant α] (it : RowIterator) : Res (Option (Nat × UInt16 × α)) × RowIterator :=
  match it.rest with
  | (k, r) :: rest =>
    match RowVariant.fromRow (α := α) r with
    | some a => (.ok (some (it.slot, k, a)), { it with rest })
    | none => (.panic, { it with rest })
  | [] =>
    match h : it.pages.next with
    | (.ok none, pages) => (.ok none, { it with pages })
    | (.err e, pages) => (.err e, { it with pages })
    | (.panic, pages) => (.panic, { it with pages })
    | (.ok (some slot), pages) =>
      next α { pages, slot, rest := (pages.pages.getD slot .notLoaded).rows }
termination_by it.pages.len
decreasing_by exact PageIterator.next_len h

end RowIterator

/-- `iter_rows`, `src/pdb/io.rs` 168-185. -/
def Database.iterRows (d : Database) (α : Type) [RowVariant α] : Res RowIterator := do
  let pages ← d.iterPages (RowVariant.pageType α)
  .ok { pages, slot := 0, rest := [] }

end Rekordcrate
