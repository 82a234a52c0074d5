import Verif.Model.Database

/-! # Model of editing rows in place (`src/pdb/io.rs` 168-185, `from_row_mut` in `src/pdb/mod.rs`)

`iter_rows` hands out references `&mut RowT`.  Assigning through such a reference replaces the row at its key
in the row map of its page; nothing else happens, and nothing is checked. -/

namespace Rekordcrate

/-- `RowVariant::from_row_mut`, `src/pdb/mod.rs` 146-147: the row after an assignment through the reference,
and nothing if there is no reference. -/
class RowAssign (α : Type) where
  assign : Row → α → Option Row

/-- `from_row_mut` of `Album`, `src/pdb/mod.rs` 1036-1041. -/
instance : RowAssign Album where
  assign
    | .plain (.album _), r => some (.plain (.album r))
    | _, _ => none

/-- `from_row_mut` of `Artist`, `src/pdb/mod.rs` 1088-1093. -/
instance : RowAssign Artist where
  assign
    | .plain (.artist _), r => some (.plain (.artist r))
    | _, _ => none

/-- `from_row_mut` of `Artwork`, `src/pdb/mod.rs` 1131-1136. -/
instance : RowAssign Artwork where
  assign
    | .plain (.artwork _), r => some (.plain (.artwork r))
    | _, _ => none

/-- `from_row_mut` of `Color`, `src/pdb/mod.rs` 1177-1182. -/
instance : RowAssign Color where
  assign
    | .plain (.color _), r => some (.plain (.color r))
    | _, _ => none

/-- `from_row_mut` of `Genre`, `src/pdb/mod.rs` 1220-1225. -/
instance : RowAssign Genre where
  assign
    | .plain (.genre _), r => some (.plain (.genre r))
    | _, _ => none

/-- `from_row_mut` of `HistoryPlaylist`, `src/pdb/mod.rs` 1260-1265. -/
instance : RowAssign HistoryPlaylist where
  assign
    | .plain (.historyPlaylist _), r => some (.plain (.historyPlaylist r))
    | _, _ => none

/-- `from_row_mut` of `HistoryEntry`, `src/pdb/mod.rs` 1302-1307. -/
instance : RowAssign HistoryEntry where
  assign
    | .plain (.historyEntry _), r => some (.plain (.historyEntry r))
    | _, _ => none

/-- `from_row_mut` of `History`, `src/pdb/mod.rs` 1378-1383. -/
instance : RowAssign History where
  assign
    | .plain (.history _), r => some (.plain (.history r))
    | _, _ => none

/-- `from_row_mut` of `Key`, `src/pdb/mod.rs` 1408-1413. -/
instance : RowAssign Key where
  assign
    | .plain (.key _), r => some (.plain (.key r))
    | _, _ => none

/-- `from_row_mut` of `Label`, `src/pdb/mod.rs` 1449-1454. -/
instance : RowAssign Label where
  assign
    | .plain (.label _), r => some (.plain (.label r))
    | _, _ => none

/-- `from_row_mut` of `PlaylistTreeNode`, `src/pdb/mod.rs` 1497-1502. -/
instance : RowAssign PlaylistTreeNode where
  assign
    | .plain (.playlistTreeNode _), r => some (.plain (.playlistTreeNode r))
    | _, _ => none

/-- `from_row_mut` of `PlaylistEntry`, `src/pdb/mod.rs` 1551-1556. -/
instance : RowAssign PlaylistEntry where
  assign
    | .plain (.playlistEntry _), r => some (.plain (.playlistEntry r))
    | _, _ => none

/-- `from_row_mut` of `ColumnEntry`, `src/pdb/mod.rs` 1604-1609. -/
instance : RowAssign ColumnEntry where
  assign
    | .plain (.columnEntry _), r => some (.plain (.columnEntry r))
    | _, _ => none

/-- `from_row_mut` of `Track`, `src/pdb/mod.rs` 1815-1820. -/
instance : RowAssign Track where
  assign
    | .plain (.track _), r => some (.plain (.track r))
    | _, _ => none

/-- `from_row_mut` of `Menu`, `src/pdb/mod.rs` 1944-1949. -/
instance : RowAssign Menu where
  assign
    | .plain (.menu _), r => some (.plain (.menu r))
    | _, _ => none

/-- Assignment to the row at key `k` of a page in memory, through the reference that `values_mut` and
`as_variant_mut` give, `src/pdb/io.rs` 174-184 and `src/pdb/mod.rs` 2086-2090. -/
def LazyPage.assignRow {α : Type} [RowAssign α] (k : UInt16) (a : α) : LazyPage → LazyPage
  | notLoaded => notLoaded
  | loaded pg => match pg.content with
    | .index _ => loaded pg
    | .data c => loaded { pg with content := .data { c with
        rows := c.rows.map fun x => if x.1 = k then (x.1, (RowAssign.assign x.2 a).getD x.2) else x } }

/-- Assignment through the reference that `next` of the row iterator returned: the page in the vector
changes, `src/pdb/io.rs` 168-185. -/
def RowIterator.assign {α : Type} [RowAssign α] (it : RowIterator) (slot : Nat) (k : UInt16) (a : α) :
    RowIterator :=
  { it with pages := { it.pages with
      pages := it.pages.pages.set slot ((it.pages.pages.getD slot .notLoaded).assignRow k a) } }

end Rekordcrate
