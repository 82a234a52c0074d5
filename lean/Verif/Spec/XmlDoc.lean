import Verif.Model.XmlDoc
import Verif.Spec.Xml

/-! # Specification vocabulary for XML documents -/

namespace Rekordcrate
namespace Xml

/-! ## Values and their texts -/

/-- The text is an `i64`: digits, possibly behind a sign, with a value in the range. -/
def I64Text (s : String) (n : Int) : Prop :=
  -9223372036854775808 ≤ n ∧ n ≤ 9223372036854775807 ∧
    ((∃ m : Nat, n = m ∧ (Decimal s.toList m ∨ ∃ cs, s.toList = '+' :: cs ∧ Decimal cs m)) ∨
      ∃ (m : Nat) (cs : List Char), n = -(m : Int) ∧ s.toList = '-' :: cs ∧ Decimal cs m)

/-- An `i32`. -/
def IsI32 (n : Int) : Prop := -2147483648 ≤ n ∧ n ≤ 2147483647

/-- An `i64`. -/
def IsI64 (n : Int) : Prop := -9223372036854775808 ≤ n ∧ n ≤ 9223372036854775807

namespace FloatText

/-- The text is a number. -/
def Text (R : FloatText) (s : String) (x : R.F) : Prop := R.parse s = some x

/-- The number is read back as it is written; of the `f64` all except NaN. -/
def Stable (R : FloatText) (x : R.F) : Prop := R.parse (R.toText x) = some x

/-- The empty text is no number. -/
def Lawful (R : FloatText) : Prop := R.parse "" = none

end FloatText

/-! ## What a document says -/

/-- The element has an attribute with this name, whose value stands for `x`. -/
def Says {α : Type} (text : String → α → Prop) (e : Elem) (key : String) (x : α) : Prop :=
  ∃ v, (key, v) ∈ e.attrs ∧ text v x

/-- The same for something optional. -/
def SaysOpt {α : Type} (emptyIsNone : Bool) (text : String → α → Prop) (e : Elem) (key : String) : Option α → Prop
  | some x => ∃ v, (key, v) ∈ e.attrs ∧ text v x ∧ (emptyIsNone = true → v ≠ "")
  | none => (∀ v, (key, v) ∉ e.attrs) ∨ (emptyIsNone = true ∧ (key, "") ∈ e.attrs)

/-- The children with this name, which stand together, are these. -/
def GroupOf (name : String) (children group : List Elem) : Prop :=
  ∃ a b, children = a ++ group ++ b ∧ (∀ e ∈ group, e.name = name) ∧ ∀ e ∈ a ++ b, e.name ≠ name

/-- The element describes a product. -/
def ProductIn (e : Elem) (t : Product) : Prop :=
  DistinctAttrs e.attrs ∧
  Says Eq e "Name" t.name ∧
  Says Eq e "Version" t.version ∧
  Says Eq e "Company" t.company

/-- The element describes a tempo. -/
def TempoIn {R : FloatText} (e : Elem) (t : Tempo R) : Prop :=
  DistinctAttrs e.attrs ∧
  Says R.Text e "Inizio" t.inizio ∧
  Says R.Text e "Bpm" t.bpm ∧
  Says Eq e "Metro" t.metro ∧
  Says I32Text e "Battito" t.battito

/-- The element describes a position mark. -/
def MarkIn {R : FloatText} (emptyIsNone : Bool) (e : Elem) (t : PositionMark R) : Prop :=
  DistinctAttrs e.attrs ∧
  Says Eq e "Name" t.name ∧
  Says I32Text e "Type" t.markType ∧
  Says R.Text e "Start" t.start ∧
  SaysOpt emptyIsNone R.Text e "End" t.end_ ∧
  Says I32Text e "Num" t.num

/-- The attributes of the element describe a track. -/
def TrackAttrsIn {R : FloatText} (emptyIsNone : Bool) (e : Elem) (t : Track R) : Prop :=
  Says I32Text e "TrackID" t.trackId ∧
  SaysOpt emptyIsNone Eq e "Name" t.name ∧
  SaysOpt emptyIsNone Eq e "Artist" t.artist ∧
  SaysOpt emptyIsNone Eq e "Composer" t.composer ∧
  SaysOpt emptyIsNone Eq e "Album" t.album ∧
  SaysOpt emptyIsNone Eq e "Grouping" t.grouping ∧
  SaysOpt emptyIsNone Eq e "Genre" t.genre ∧
  SaysOpt emptyIsNone Eq e "Kind" t.kind ∧
  SaysOpt emptyIsNone I64Text e "Size" t.size ∧
  SaysOpt emptyIsNone R.Text e "TotalTime" t.totalTime ∧
  SaysOpt emptyIsNone I32Text e "DiscNumber" t.discNumber ∧
  SaysOpt emptyIsNone I32Text e "TrackNumber" t.trackNumber ∧
  SaysOpt emptyIsNone I32Text e "Year" t.year ∧
  SaysOpt emptyIsNone R.Text e "AverageBpm" t.averageBpm ∧
  SaysOpt emptyIsNone Eq e "DateModified" t.dateModified ∧
  SaysOpt emptyIsNone Eq e "DateAdded" t.dateAdded ∧
  SaysOpt emptyIsNone I32Text e "BitRate" t.bitRate ∧
  SaysOpt emptyIsNone R.Text e "SampleRate" t.sampleRate ∧
  SaysOpt emptyIsNone Eq e "Comments" t.comments ∧
  SaysOpt emptyIsNone I32Text e "PlayCount" t.playCount ∧
  SaysOpt emptyIsNone Eq e "LastPlayed" t.lastPlayed ∧
  SaysOpt emptyIsNone I32Text e "Rating" t.rating ∧
  Says Eq e "Location" t.location ∧
  SaysOpt emptyIsNone Eq e "Remixer" t.remixer ∧
  SaysOpt emptyIsNone Eq e "Tonality" t.tonality ∧
  SaysOpt emptyIsNone Eq e "Label" t.label ∧
  SaysOpt emptyIsNone Eq e "Mix" t.mix ∧
  SaysOpt emptyIsNone Eq e "Colour" t.colour

/-- The element describes a track. -/
def TrackIn {R : FloatText} (emptyIsNone : Bool) (e : Elem) (t : Track R) : Prop :=
  DistinctAttrs e.attrs ∧ TrackAttrsIn emptyIsNone e t ∧
  (∃ group, GroupOf "TEMPO" e.children group ∧ Pointwise TempoIn group t.tempos) ∧
  ∃ group, GroupOf "POSITION_MARK" e.children group ∧ Pointwise (MarkIn emptyIsNone) group t.positionMarks

/-- The element describes a collection. -/
def CollectionIn {R : FloatText} (emptyIsNone : Bool) (e : Elem) (c : Collection R) : Prop :=
  DistinctAttrs e.attrs ∧ Says I32Text e "Entries" c.entries ∧ c.tracks ≠ [] ∧
  ∃ group, GroupOf "TRACK" e.children group ∧ Pointwise (TrackIn emptyIsNone) group c.tracks

/-- The element has exactly one child with this name. -/
def OnlyChild (name : String) (e c : Elem) : Prop :=
  ∃ a b, e.children = a ++ c :: b ∧ c.name = name ∧ ∀ x ∈ a ++ b, x.name ≠ name

/-- The element describes a document; for the tree of playlists see `read_root_iff`. -/
def DocumentIn {R : FloatText} (emptyIsNone : Bool) (e : Elem) (d : Document R) : Prop :=
  DistinctAttrs e.attrs ∧ Says Eq e "Version" d.version ∧
  (∃ c, OnlyChild "PRODUCT" e c ∧ ProductIn c d.product) ∧
  (∃ c, OnlyChild "COLLECTION" e c ∧ CollectionIn emptyIsNone c d.collection) ∧
  ∃ c r, OnlyChild "PLAYLISTS" e c ∧ DistinctAttrs c.attrs ∧ OnlyChild "NODE" c r ∧
    readRoot r = .ok (d.rootName, d.rootNodes)

/-- The attributes of a track that the reader knows. -/
def trackKeys : List String := [
  "TrackID", "Name", "Artist", "Composer", "Album", "Grouping", "Genre",
  "Kind", "Size", "TotalTime", "DiscNumber", "TrackNumber", "Year", "AverageBpm",
  "DateModified", "DateAdded", "BitRate", "SampleRate", "Comments", "PlayCount", "LastPlayed",
  "Rating", "Location", "Remixer", "Tonality", "Label", "Mix", "Colour"]

/-- The nodes of the playlists, below the root node, have good attributes. -/
def GoodPlaylists (e : Elem) : Prop :=
  ∀ p ∈ e.children, p.name = "PLAYLISTS" → ∀ r ∈ p.children, ∀ c ∈ r.children, GoodNodes c

/-! ## Which values survive -/

/-- What comes back of an optional text that is written even if there is none. -/
def backText (emptyIsNone : Bool) (o : Option String) : Option String :=
  if emptyIsNone then (if o = some "" then none else o) else some (o.getD "")

/-- What comes back of an optional text that is not written if there is none. -/
def backSkipped (emptyIsNone : Bool) (o : Option String) : Option String :=
  if emptyIsNone ∧ o = some "" then none else o

/-- An optional number that is written even if there is none. -/
def KeptNumber {α : Type} (emptyIsNone : Bool) (o : Option α) : Prop := emptyIsNone = true ∨ o ≠ none

/-- The numbers are in the range of their types, and the floating point numbers are not NaN. -/
def Tempo.Fits {R : FloatText} (t : Tempo R) : Prop :=
  R.Stable t.inizio ∧
  R.Stable t.bpm ∧
  IsI32 t.battito

/-- The numbers are in the range of their types, and the floating point numbers are not NaN. -/
def PositionMark.Fits {R : FloatText} (t : PositionMark R) : Prop :=
  IsI32 t.markType ∧
  R.Stable t.start ∧
  (∀ x, t.end_ = some x → R.Stable x) ∧
  IsI32 t.num

/-- The numbers are in the range of their types, and the floating point numbers are not NaN. -/
def Track.Fits {R : FloatText} (t : Track R) : Prop :=
  IsI32 t.trackId ∧
  (∀ x, t.size = some x → IsI64 x) ∧
  (∀ x, t.totalTime = some x → R.Stable x) ∧
  (∀ x, t.discNumber = some x → IsI32 x) ∧
  (∀ x, t.trackNumber = some x → IsI32 x) ∧
  (∀ x, t.year = some x → IsI32 x) ∧
  (∀ x, t.averageBpm = some x → R.Stable x) ∧
  (∀ x, t.bitRate = some x → IsI32 x) ∧
  (∀ x, t.sampleRate = some x → R.Stable x) ∧
  (∀ x, t.playCount = some x → IsI32 x) ∧
  (∀ x, t.rating = some x → IsI32 x) ∧
  (∀ x ∈ t.tempos, x.Fits) ∧ ∀ x ∈ t.positionMarks, x.Fits

/-- The numbers are in the range of their types, and the floating point numbers are not NaN; the lists fit in
memory. -/
def Document.Fits {R : FloatText} (d : Document R) : Prop :=
  IsI32 d.collection.entries ∧ (∀ t ∈ d.collection.tracks, t.Fits) ∧ SizedAll d.rootNodes

/-- The numbers of the track that are written in any case can be read. -/
def Track.Readable {R : FloatText} (emptyIsNone : Bool) (t : Track R) : Prop :=
  KeptNumber emptyIsNone t.size ∧
  KeptNumber emptyIsNone t.totalTime ∧
  KeptNumber emptyIsNone t.discNumber ∧
  KeptNumber emptyIsNone t.trackNumber ∧
  KeptNumber emptyIsNone t.year ∧
  KeptNumber emptyIsNone t.averageBpm ∧
  KeptNumber emptyIsNone t.bitRate ∧
  KeptNumber emptyIsNone t.sampleRate ∧
  KeptNumber emptyIsNone t.playCount ∧
  KeptNumber emptyIsNone t.rating

/-- What comes back of a track. -/
def Track.back {R : FloatText} (emptyIsNone : Bool) (t : Track R) : Track R :=
  { t with
    name := backText emptyIsNone t.name,
    artist := backText emptyIsNone t.artist,
    composer := backText emptyIsNone t.composer,
    album := backText emptyIsNone t.album,
    grouping := backText emptyIsNone t.grouping,
    genre := backText emptyIsNone t.genre,
    kind := backText emptyIsNone t.kind,
    dateModified := backSkipped emptyIsNone t.dateModified,
    dateAdded := backSkipped emptyIsNone t.dateAdded,
    comments := backText emptyIsNone t.comments,
    lastPlayed := backSkipped emptyIsNone t.lastPlayed,
    remixer := backText emptyIsNone t.remixer,
    tonality := backText emptyIsNone t.tonality,
    label := backText emptyIsNone t.label,
    mix := backText emptyIsNone t.mix,
    colour := backSkipped emptyIsNone t.colour }

/-- The document can be read after it was written: it has tracks with readable numbers, and no empty folder or
playlist. -/
def Document.Readable {R : FloatText} (emptyIsNone : Bool) (d : Document R) : Prop :=
  d.collection.tracks ≠ [] ∧ (∀ t ∈ d.collection.tracks, t.Readable emptyIsNone) ∧ d.rootNodes ≠ [] ∧ FullAll d.rootNodes

/-- What comes back of a document. -/
def Document.back {R : FloatText} (emptyIsNone : Bool) (d : Document R) : Document R :=
  { d with collection := { d.collection with tracks := d.collection.tracks.map (Track.back emptyIsNone) } }

/-- A track that has all texts, none of them empty where they are optional, and all numbers. -/
def Track.Filled {R : FloatText} (t : Track R) : Prop :=
  (∃ x, t.name = some x ∧ x ≠ "") ∧
  (∃ x, t.artist = some x ∧ x ≠ "") ∧
  (∃ x, t.composer = some x ∧ x ≠ "") ∧
  (∃ x, t.album = some x ∧ x ≠ "") ∧
  (∃ x, t.grouping = some x ∧ x ≠ "") ∧
  (∃ x, t.genre = some x ∧ x ≠ "") ∧
  (∃ x, t.kind = some x ∧ x ≠ "") ∧
  t.size ≠ none ∧
  t.totalTime ≠ none ∧
  t.discNumber ≠ none ∧
  t.trackNumber ≠ none ∧
  t.year ≠ none ∧
  t.averageBpm ≠ none ∧
  t.dateModified ≠ some "" ∧
  t.dateAdded ≠ some "" ∧
  t.bitRate ≠ none ∧
  t.sampleRate ≠ none ∧
  (∃ x, t.comments = some x ∧ x ≠ "") ∧
  t.playCount ≠ none ∧
  t.lastPlayed ≠ some "" ∧
  t.rating ≠ none ∧
  (∃ x, t.remixer = some x ∧ x ≠ "") ∧
  (∃ x, t.tonality = some x ∧ x ≠ "") ∧
  (∃ x, t.label = some x ∧ x ≠ "") ∧
  (∃ x, t.mix = some x ∧ x ≠ "") ∧
  t.colour ≠ some ""

end Xml
end Rekordcrate
