import Verif.Spec.OffsetArray
import Verif.Model.Rows

/-! # Specification vocabulary for rows -/

namespace Rekordcrate

/-- The documented width of the offsets: rows whose subtype has the bit with value 4 use two bytes. -/
def docWidth (subtype : UInt16) : OffsetSize :=
  if subtype.toNat / 4 % 2 = 1 then .u16 else .u8

/-- The number of bytes a string takes on disk. -/
def DString.size : DString → Nat
  | .short c => 1 + c.length
  | .long (.ascii c) => 4 + c.length
  | .long (.ucs2le us) => 4 + 2 * us.length
  | .long (.isrc c) => 6 + c.length

/-- A file type or visibility that is not a second name of a listed one. -/
def FileType.Canonical (t : FileType) : Prop :=
  ∀ v, t = .other v → v ∉ ([0, 1, 4, 5, 0xb, 0xc] : List UInt16)

/-- A visibility that is not a second name of a listed one. -/
def MenuVisibility.Canonical (t : MenuVisibility) : Prop :=
  ∀ v, t = .unknown v → v ∉ ([0, 1] : List UInt8)

/-- An ISRC at `p` is stored with the length field that belongs to it. -/
def DString.ExactAt (img : Bytes) (p : Nat) : DString → Prop
  | .long (.isrc c) => U16At img (p + 1) (c.length + 6)
  | _ => True

/-- The strings of an offset array with their positions, for a row that starts at `p`. -/
def OffsetContainer.stringsAt {T : Type} [OffsetItems T] (c : OffsetContainer T) (p : Nat) :
    List (Nat × DString) :=
  match c.offsets with
  | some a => (a.seeks.map (p + ·)).zip (OffsetItems.asItems c.inner)
  | none => []

/-- The strings of a row. -/
def Album.strings (r : Album) : List DString := OffsetItems.asItems r.offsets.inner

/-- The strings of a row at `p` that was read, with their positions. -/
def Album.stringsAt (r : Album) (p : Nat) : List (Nat × DString) := r.offsets.stringsAt p

/-- `r'` is `r` with calculated offsets replaced by the offsets of the documented layout. -/
def Album.Resolved (r r' : Album) : Prop :=
  ∃ c, OffsetContainer.Resolved 20 (docWidth r.subtype) r.offsets c ∧ r' = { r with offsets := c }

/-- The strings of a row. -/
def Artist.strings (r : Artist) : List DString := OffsetItems.asItems r.offsets.inner

/-- The strings of a row at `p` that was read, with their positions. -/
def Artist.stringsAt (r : Artist) (p : Nat) : List (Nat × DString) := r.offsets.stringsAt p

/-- `r'` is `r` with calculated offsets replaced by the offsets of the documented layout. -/
def Artist.Resolved (r r' : Artist) : Prop :=
  ∃ c, OffsetContainer.Resolved 8 (docWidth r.subtype) r.offsets c ∧ r' = { r with offsets := c }

/-- The strings of a row. -/
def Artwork.strings (r : Artwork) : List DString := [r.path]

/-- The strings of a row at `p` that was read, with their positions. -/
def Artwork.stringsAt (r : Artwork) (p : Nat) : List (Nat × DString) :=
  [(p + 4, r.path)]

/-- The strings of a row. -/
def Color.strings (r : Color) : List DString := [r.name]

/-- The strings of a row at `p` that was read, with their positions. -/
def Color.stringsAt (r : Color) (p : Nat) : List (Nat × DString) :=
  [(p + 8, r.name)]

/-- The strings of a row. -/
def Genre.strings (r : Genre) : List DString := [r.name]

/-- The strings of a row at `p` that was read, with their positions. -/
def Genre.stringsAt (r : Genre) (p : Nat) : List (Nat × DString) :=
  [(p + 4, r.name)]

/-- The strings of a row. -/
def HistoryPlaylist.strings (r : HistoryPlaylist) : List DString := [r.name]

/-- The strings of a row at `p` that was read, with their positions. -/
def HistoryPlaylist.stringsAt (r : HistoryPlaylist) (p : Nat) : List (Nat × DString) :=
  [(p + 4, r.name)]

/-- The strings of a row. -/
def HistoryEntry.strings (_r : HistoryEntry) : List DString := []

/-- The strings of a row at `p` that was read, with their positions. -/
def HistoryEntry.stringsAt (_r : HistoryEntry) (_p : Nat) : List (Nat × DString) :=
  []

/-- The strings of a row. -/
def History.strings (r : History) : List DString := [r.date, r.version, r.label]

/-- The strings of a row at `p` that was read, with their positions. -/
def History.stringsAt (r : History) (p : Nat) : List (Nat × DString) :=
  [(p + 12, r.date), (p + 14 + r.date.size, r.version), (p + 14 + r.date.size + r.version.size, r.label)]

/-- The strings of a row. -/
def Key.strings (r : Key) : List DString := [r.name]

/-- The strings of a row at `p` that was read, with their positions. -/
def Key.stringsAt (r : Key) (p : Nat) : List (Nat × DString) :=
  [(p + 8, r.name)]

/-- The strings of a row. -/
def Label.strings (r : Label) : List DString := [r.name]

/-- The strings of a row at `p` that was read, with their positions. -/
def Label.stringsAt (r : Label) (p : Nat) : List (Nat × DString) :=
  [(p + 4, r.name)]

/-- The strings of a row. -/
def PlaylistTreeNode.strings (r : PlaylistTreeNode) : List DString := [r.name]

/-- The strings of a row at `p` that was read, with their positions. -/
def PlaylistTreeNode.stringsAt (r : PlaylistTreeNode) (p : Nat) : List (Nat × DString) :=
  [(p + 20, r.name)]

/-- The strings of a row. -/
def PlaylistEntry.strings (_r : PlaylistEntry) : List DString := []

/-- The strings of a row at `p` that was read, with their positions. -/
def PlaylistEntry.stringsAt (_r : PlaylistEntry) (_p : Nat) : List (Nat × DString) :=
  []

/-- The strings of a row. -/
def ColumnEntry.strings (r : ColumnEntry) : List DString := [r.columnName]

/-- The strings of a row at `p` that was read, with their positions. -/
def ColumnEntry.stringsAt (r : ColumnEntry) (p : Nat) : List (Nat × DString) :=
  [(p + 4, r.columnName)]

/-- The strings of a row. -/
def Menu.strings (_r : Menu) : List DString := []

/-- The strings of a row at `p` that was read, with their positions. -/
def Menu.stringsAt (_r : Menu) (_p : Nat) : List (Nat × DString) :=
  []

/-- The strings of a row. -/
def Track.strings (r : Track) : List DString := OffsetItems.asItems r.offsets.inner

/-- The strings of a row at `p` that was read, with their positions. -/
def Track.stringsAt (r : Track) (p : Nat) : List (Nat × DString) := r.offsets.stringsAt p

/-- `r'` is `r` with calculated offsets replaced by the offsets of the documented layout. -/
def Track.Resolved (r r' : Track) : Prop :=
  ∃ c, OffsetContainer.Resolved 92 (docWidth r.subtype) r.offsets c ∧ r' = { r with offsets := c }

/-- The strings of a row. -/
def TagOrCategory.strings (r : TagOrCategory) : List DString := OffsetItems.asItems r.offsets.inner

/-- The strings of a row at `p` that was read, with their positions. -/
def TagOrCategory.stringsAt (r : TagOrCategory) (p : Nat) : List (Nat × DString) := r.offsets.stringsAt p

/-- `r'` is `r` with calculated offsets replaced by the offsets of the documented layout. -/
def TagOrCategory.Resolved (r r' : TagOrCategory) : Prop :=
  ∃ c, OffsetContainer.Resolved 28 (docWidth r.subtype) r.offsets c ∧ r' = { r with offsets := c }

/-- The strings of a row. -/
def TrackTag.strings (_r : TrackTag) : List DString := []

/-- The strings of a row at `p` that was read, with their positions. -/
def TrackTag.stringsAt (_r : TrackTag) (_p : Nat) : List (Nat × DString) :=
  []

/-- The strings of a row. -/
def Row.strings : Row → List DString
  | .plain (.album r) => r.strings
  | .plain (.artist r) => r.strings
  | .plain (.artwork r) => r.strings
  | .plain (.color r) => r.strings
  | .plain (.genre r) => r.strings
  | .plain (.historyPlaylist r) => r.strings
  | .plain (.historyEntry r) => r.strings
  | .plain (.history r) => r.strings
  | .plain (.key r) => r.strings
  | .plain (.label r) => r.strings
  | .plain (.playlistTreeNode r) => r.strings
  | .plain (.playlistEntry r) => r.strings
  | .plain (.columnEntry r) => r.strings
  | .plain (.menu r) => r.strings
  | .plain (.track r) => r.strings
  | .ext (.tag r) => r.strings
  | .ext (.trackTag r) => r.strings
  | .unknown => []

/-- The strings of a row at `p` that was read, with their positions. -/
def Row.stringsAt (p : Nat) : Row → List (Nat × DString)
  | .plain (.album r) => r.stringsAt p
  | .plain (.artist r) => r.stringsAt p
  | .plain (.artwork r) => r.stringsAt p
  | .plain (.color r) => r.stringsAt p
  | .plain (.genre r) => r.stringsAt p
  | .plain (.historyPlaylist r) => r.stringsAt p
  | .plain (.historyEntry r) => r.stringsAt p
  | .plain (.history r) => r.stringsAt p
  | .plain (.key r) => r.stringsAt p
  | .plain (.label r) => r.stringsAt p
  | .plain (.playlistTreeNode r) => r.stringsAt p
  | .plain (.playlistEntry r) => r.stringsAt p
  | .plain (.columnEntry r) => r.stringsAt p
  | .plain (.menu r) => r.stringsAt p
  | .plain (.track r) => r.stringsAt p
  | .ext (.tag r) => r.stringsAt p
  | .ext (.trackTag r) => r.stringsAt p
  | .unknown => []

/-- `r'` is `r` with calculated offsets replaced by the offsets of the documented layout; rows without
offset arrays are equal. -/
def Row.Resolved : Row → Row → Prop
  | .plain (.album r), r' => ∃ x, r.Resolved x ∧ r' = .plain (.album x)
  | .plain (.artist r), r' => ∃ x, r.Resolved x ∧ r' = .plain (.artist x)
  | .plain (.track r), r' => ∃ x, r.Resolved x ∧ r' = .plain (.track x)
  | .ext (.tag r), r' => ∃ x, r.Resolved x ∧ r' = .ext (.tag x)
  | r, r' => r' = r

/-- The page type of the pages a row belongs to; rows of unknown kind carry no data and fit any page of
unknown type. -/
def Row.Fits : Row → PageType → Prop
  | .plain r, t => t = .plain r.pageType
  | .ext (.tag _), t => t = .ext .tag
  | .ext (.trackTag _), t => t = .ext .trackTag
  | .unknown, t => ∃ c, t = .unknown c

/-- Offset arrays have the number of offsets their Rust type guarantees. -/
def Row.WellTyped : Row → Prop
  | .plain (.album r) => r.offsets.WellTyped
  | .plain (.artist r) => r.offsets.WellTyped
  | .plain (.track r) => r.offsets.WellTyped
  | .ext (.tag r) => r.offsets.WellTyped
  | _ => True

/-- The row is to be laid out by the writer: it has no offset array or one to be calculated. -/
def Row.Calculated : Row → Prop
  | .plain (.album r) => r.offsets.offsets = none
  | .plain (.artist r) => r.offsets.offsets = none
  | .plain (.track r) => r.offsets.offsets = none
  | .ext (.tag r) => r.offsets.offsets = none
  | _ => True

/-- File types and visibilities are canonical. -/
def Row.Canonical : Row → Prop
  | .plain (.track r) => r.fileType.Canonical
  | .plain (.menu r) => r.visibility.Canonical
  | _ => True

/-- Rows that fit their on-disk representation: every string is storable, enum values are canonical. -/
def Row.Storable (r : Row) : Prop :=
  (∀ v ∈ r.strings, v.Storable) ∧ r.Canonical ∧ r.WellTyped

/-- The colour numbers of the format documentation. -/
def ColorIndex.docCode (c : ColorIndex) : UInt8 :=
  match c with
  | .none => 0 | .pink => 1 | .red => 2 | .orange => 3 | .yellow => 4 | .green => 5 | .aqua => 6
  | .blue => 7 | .purple => 8

/-- The file type numbers of the format documentation. -/
def FileType.docCode : FileType → Nat
  | .unknown => 0 | .mp3 => 1 | .m4a => 4 | .flac => 5 | .wav => 11 | .aiff => 12
  | .other v => v.toNat

/-- The visibility numbers of the format documentation. -/
def MenuVisibility.docCode : MenuVisibility → UInt8
  | .visible => 0 | .hidden => 1
  | .unknown v => v

/-- The string is stored at `p`. -/
def StringAt (img : Bytes) (p : Nat) (v : DString) : Prop := ∃ bs, v.enc = .ok bs ∧ HasAt img p bs

/-- The string is stored where the `i`-th offset of the offset array at `q` says, counted from the
start `p` of the row. -/
def StringVia (img : Bytes) (p q : Nat) (w : OffsetSize) (i : Nat) (v : DString) : Prop :=
  ∃ o, OffsetAt img (q + (i + 1) * w.bytes) w o ∧ StringAt img (p + o) v

/-- The offsets fit their width: those of the documented layout if they are calculated, otherwise the
given ones have that width. -/
def OffsetContainer.OffsetsFit {T : Type} [OffsetItems T] (offset : Nat) (size : OffsetSize)
    (c : OffsetContainer T) : Prop :=
  match c.offsets, size with
  | none, _ => ∀ os e, Placed (offset + (OffsetItems.count T + 1) * size.bytes)
      (OffsetItems.asItems c.inner) os e → ∀ o ∈ os, o < size.limit
  | some (.u8 _), .u8 => True
  | some (.u16 _), .u16 => True
  | _, _ => False

/-- The offsets of the row fit the width its subtype asks for. -/
def Row.OffsetsFit : Row → Prop
  | .plain (.album r) => r.offsets.OffsetsFit 0x14 (docWidth r.subtype)
  | .plain (.artist r) => r.offsets.OffsetsFit 0x8 (docWidth r.subtype)
  | .plain (.track r) => r.offsets.OffsetsFit 0x5c (docWidth r.subtype)
  | .ext (.tag r) => r.offsets.OffsetsFit 0x1c (docWidth r.subtype)
  | _ => True

end Rekordcrate
