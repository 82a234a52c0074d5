import Verif.Model.Header

/-! # Specification vocabulary for page types and headers -/

namespace Rekordcrate

/-- Documented page type codes of `export.pdb` files
(see the format documentation linked from `src/pdb/mod.rs`). -/
def plainPageCodes : List (Nat × PlainPageType) :=
  [(0, .tracks), (1, .genres), (2, .artists), (3, .albums), (4, .labels), (5, .keys), (6, .colors),
   (7, .playlistTree), (8, .playlistEntries), (11, .historyPlaylists), (12, .historyEntries),
   (13, .artwork), (16, .columns), (17, .menu), (19, .history)]

/-- Documented page type codes of `exportExt.pdb` files. -/
def extPageCodes : List (Nat × ExtPageType) := [(3, .tag), (4, .trackTag)]

/-- The page type that a code stands for in a database of the given kind. -/
def pageTypeOfCode (db : DatabaseType) (c : UInt32) : PageType :=
  match db with
  | .plain => match plainPageCodes.lookup c.toNat with
    | some t => .plain t
    | none => .unknown c
  | .ext => match extPageCodes.lookup c.toNat with
    | some t => .ext t
    | none => .unknown c

/-- The page type is one that a database of this kind can contain: it is what some code stands for.
(An `Unknown` carrying a known code, or a page type of the other kind of database, is not.) -/
def PageType.ValidFor (db : DatabaseType) (t : PageType) : Prop := ∃ c, t = pageTypeOfCode db c

/-- All tables of the header have page types that fit the kind of database, and the table count is
right. -/
def Header.Consistent (db : DatabaseType) (h : Header) : Prop :=
  h.tables.length = h.numTables.toNat ∧ ∀ t ∈ h.tables, t.pageType.ValidFor db

end Rekordcrate
