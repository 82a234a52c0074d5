import Verif.Model.Xml

/-! # Model of the documents of `src/xml.rs`: product, collection and tracks

The simplifications and assumptions of `Verif.Model.Xml` hold here too.  In addition:

* the text of an `f64` and its parser are parameters (`FloatText`);
* `None` in a field without `skip_serializing_if` is written as an empty attribute;
* whether an empty attribute is read as `None` or as an empty text for an optional field is a parameter
  (`emptyIsNone`), all theorems hold for both;
* which error is reported if several things are wrong is not modelled: duplicate attributes come first, then the
  fields in the order of their declaration. -/

namespace Rekordcrate
namespace Xml

/-- `str::parse::<i64>`.  Used at `src/xml.rs` 114. -/
def parseI64 (s : String) : Option Int :=
  let v : Option Int := match s.toList with
    | '+' :: cs => (naturalValue cs).map Int.ofNat
    | '-' :: cs => (naturalValue cs).map fun n => - Int.ofNat n
    | cs => (naturalValue cs).map Int.ofNat
  match v with
  | some n => if - 2 ^ 63 ≤ n ∧ n < 2 ^ 63 then some n else none
  | none => none

/-- `f64` with `Display` and `str::parse`.  Used at, for instance, `src/xml.rs` 119. -/
structure FloatText where
  F : Type
  toText : F → String
  parse : String → Option F

/-! ## Values -/

/-- `Product`, `src/xml.rs` 45-61. -/
structure Product where
  name : String
  version : String
  company : String
  deriving DecidableEq

/-- `Tempo`, `src/xml.rs` 245-268. -/
structure Tempo (R : FloatText) where
  inizio : R.F
  bpm : R.F
  metro : String
  battito : Int

/-- `PositionMark`, `src/xml.rs` 270-298. -/
structure PositionMark (R : FloatText) where
  name : String
  markType : Int
  start : R.F
  end_ : Option R.F
  num : Int

/-- `Track`, `src/xml.rs` 75-217. -/
structure Track (R : FloatText) where
  trackId : Int
  name : Option String
  artist : Option String
  composer : Option String
  album : Option String
  grouping : Option String
  genre : Option String
  kind : Option String
  size : Option Int
  totalTime : Option R.F
  discNumber : Option Int
  trackNumber : Option Int
  year : Option Int
  averageBpm : Option R.F
  dateModified : Option String
  dateAdded : Option String
  bitRate : Option Int
  sampleRate : Option R.F
  comments : Option String
  playCount : Option Int
  lastPlayed : Option String
  rating : Option Int
  location : String
  remixer : Option String
  tonality : Option String
  label : Option String
  mix : Option String
  colour : Option String
  tempos : List (Tempo R)
  positionMarks : List (PositionMark R)

/-- `Collection`, `src/xml.rs` 63-73. -/
structure Collection (R : FloatText) where
  entries : Int
  tracks : List (Track R)

/-- `Document`, `src/xml.rs` 22-43, with the only field of `Playlists`, `src/xml.rs` 300-306, a folder with its
name and nodes. -/
structure Document (R : FloatText) where
  version : String
  product : Product
  collection : Collection R
  rootName : String
  rootNodes : List Node

/-! ## Writing -/

/-- A field that starts with `@`.  For instance `src/xml.rs` 81. -/
def attr (key value : String) : List (String × String) := [(key, value)]

/-- An optional field that starts with `@`.  For instance `src/xml.rs` 85. -/
def optAttr {α : Type} (toText : α → String) (key : String) : Option α → List (String × String)
  | some x => [(key, toText x)]
  | none => [(key, "")]

/-- An optional field that starts with `@`, with `skip_serializing_if = "Option::is_none"`.  For instance
`src/xml.rs` 140-142. -/
def skipAttr {α : Type} (toText : α → String) (key : String) : Option α → List (String × String)
  | some x => [(key, toText x)]
  | none => []

/-- Derived `Serialize` of `Product`, `src/xml.rs` 45-61, for the field `PRODUCT`. -/
def Product.write (t : Product) : Elem :=
  .mk "PRODUCT" (attr "Name" (id t.name) ++
    attr "Version" (id t.version) ++
    attr "Company" (id t.company)) []

/-- The attributes of a tempo, `src/xml.rs` 245-268. -/
def Tempo.attrs {R : FloatText} (t : Tempo R) : List (String × String) :=
  attr "Inizio" (R.toText t.inizio) ++
  attr "Bpm" (R.toText t.bpm) ++
  attr "Metro" (id t.metro) ++
  attr "Battito" (showInt t.battito)

/-- Derived `Serialize` of `Tempo`, `src/xml.rs` 245-268, as an item of the field `TEMPO`. -/
def Tempo.write {R : FloatText} (t : Tempo R) : Elem := .mk "TEMPO" t.attrs []

/-- The attributes of a position mark, `src/xml.rs` 270-298. -/
def PositionMark.attrs {R : FloatText} (t : PositionMark R) : List (String × String) :=
  attr "Name" (id t.name) ++
  attr "Type" (showInt t.markType) ++
  attr "Start" (R.toText t.start) ++
  skipAttr R.toText "End" t.end_ ++
  attr "Num" (showInt t.num)

/-- Derived `Serialize` of `PositionMark`, `src/xml.rs` 270-298, as an item of the field `POSITION_MARK`. -/
def PositionMark.write {R : FloatText} (t : PositionMark R) : Elem := .mk "POSITION_MARK" t.attrs []

/-- The attributes of a track, `src/xml.rs` 79-204. -/
def Track.attrs {R : FloatText} (t : Track R) : List (String × String) :=
  attr "TrackID" (showInt t.trackId) ++
  optAttr id "Name" t.name ++
  optAttr id "Artist" t.artist ++
  optAttr id "Composer" t.composer ++
  optAttr id "Album" t.album ++
  optAttr id "Grouping" t.grouping ++
  optAttr id "Genre" t.genre ++
  optAttr id "Kind" t.kind ++
  optAttr showInt "Size" t.size ++
  optAttr R.toText "TotalTime" t.totalTime ++
  optAttr showInt "DiscNumber" t.discNumber ++
  optAttr showInt "TrackNumber" t.trackNumber ++
  optAttr showInt "Year" t.year ++
  optAttr R.toText "AverageBpm" t.averageBpm ++
  skipAttr id "DateModified" t.dateModified ++
  skipAttr id "DateAdded" t.dateAdded ++
  optAttr showInt "BitRate" t.bitRate ++
  optAttr R.toText "SampleRate" t.sampleRate ++
  optAttr id "Comments" t.comments ++
  optAttr showInt "PlayCount" t.playCount ++
  skipAttr id "LastPlayed" t.lastPlayed ++
  optAttr showInt "Rating" t.rating ++
  attr "Location" (id t.location) ++
  optAttr id "Remixer" t.remixer ++
  optAttr id "Tonality" t.tonality ++
  optAttr id "Label" t.label ++
  optAttr id "Mix" t.mix ++
  skipAttr id "Colour" t.colour

/-- Derived `Serialize` of `Track`, `src/xml.rs` 75-217, as an item of the field `TRACK`; an empty list has no
items, so `skip_serializing_if = "Vec::is_empty"` makes no difference. -/
def Track.write {R : FloatText} (t : Track R) : Elem :=
  .mk "TRACK" t.attrs (t.tempos.map Tempo.write ++ t.positionMarks.map PositionMark.write)

/-- Derived `Serialize` of `Collection`, `src/xml.rs` 63-73, for the field `COLLECTION`. -/
def Collection.write {R : FloatText} (c : Collection R) : Elem :=
  .mk "COLLECTION" (attr "Entries" (showInt c.entries)) (c.tracks.map Track.write)

/-- Derived `Serialize` of `Document`, `src/xml.rs` 22-43, and of `Playlists`, `src/xml.rs` 300-306. -/
def Document.write {R : FloatText} (d : Document R) : Elem :=
  .mk "DJ_PLAYLISTS" (attr "Version" d.version)
    [d.product.write, d.collection.write, .mk "PLAYLISTS" [] [writeRoot d.rootName d.rootNodes]]

/-! ## Reading -/

/-- The value of an attribute.  For instance `src/xml.rs` 81. -/
def attrValue (key : String) : List (String × String) → Option String
  | [] => none
  | (k, x) :: rest => if k = key then some x else attrValue key rest

/-- A field of a derived reader that starts with `@`.  For instance `src/xml.rs` 81. -/
def required {α : Type} (parse : String → Option α) (key : String) (attrs : List (String × String)) :
    Except XmlErr α :=
  match attrValue key attrs with
  | none => .error .missingField
  | some x =>
    match parse x with
    | some a => .ok a
    | none => .error .badNumber

/-- An optional field of a derived reader that starts with `@`: `None` if the attribute is missing.  For
instance `src/xml.rs` 85. -/
def optional {α : Type} (emptyIsNone : Bool) (parse : String → Option α) (key : String)
    (attrs : List (String × String)) : Except XmlErr (Option α) :=
  match attrValue key attrs with
  | none => .ok none
  | some x =>
    if emptyIsNone && x.isEmpty then .ok none
    else match parse x with
      | some a => .ok (some a)
      | none => .error .badNumber

/-- The name of an element.  For instance `src/xml.rs` 24 and 33. -/
def Elem.tag : Elem → String
  | .mk n _ _ => n

/-- A field of a derived reader with a structure: exactly one child.  `src/xml.rs` 33-42. -/
def single {α : Type} (tag : String) (rd : Elem → Except XmlErr α) (children : List Elem) : Except XmlErr α :=
  match children.filter fun e => e.tag = tag with
  | [] => .error .missingField
  | [e] => rd e
  | _ => .error .duplicateField

/-- A list field of a derived reader, over the children.  For instance `src/xml.rs` 71-72. -/
def listFrom {α : Type} (tag : String) (rd : Elem → Except XmlErr α) (f : Field α) :
    List Elem → Except XmlErr (Field α)
  | [] => .ok f
  | e :: es =>
    if e.tag = tag then
      match f with
      | .behind _ => .error .duplicateField
      | .unmet => do
        let x ← rd e
        listFrom tag rd (.inRun [x]) es
      | .inRun items => do
        let x ← rd e
        listFrom tag rd (.inRun (items ++ [x])) es
    else listFrom tag rd f.other es

/-- A list field without default.  For instance `src/xml.rs` 71-72. -/
def list {α : Type} (tag : String) (rd : Elem → Except XmlErr α) (children : List Elem) : Except XmlErr (List α) := do
  let f ← listFrom tag rd .unmet children
  f.finish

/-- A list field with `#[serde(default)]`.  For instance `src/xml.rs` 207-210. -/
def listOrEmpty {α : Type} (tag : String) (rd : Elem → Except XmlErr α) (children : List Elem) :
    Except XmlErr (List α) := do
  match ← listFrom tag rd .unmet children with
  | .unmet => .ok []
  | .inRun items => .ok items
  | .behind items => .ok items

/-- Derived `Deserialize` of `Product`, `src/xml.rs` 45-61. -/
def Product.read : Elem → Except XmlErr Product
  | .mk _ attrs _ => do
    checkAttrs [] attrs
    let name ← required some "Name" attrs
    let version ← required some "Version" attrs
    let company ← required some "Company" attrs
    .ok { name, version, company }

/-- Derived `Deserialize` of `Tempo`, `src/xml.rs` 245-268. -/
def Tempo.read (R : FloatText) : Elem → Except XmlErr (Tempo R)
  | .mk _ attrs _ => do
    checkAttrs [] attrs
    let inizio ← required R.parse "Inizio" attrs
    let bpm ← required R.parse "Bpm" attrs
    let metro ← required some "Metro" attrs
    let battito ← required parseI32 "Battito" attrs
    .ok { inizio, bpm, metro, battito }

/-- Derived `Deserialize` of `PositionMark`, `src/xml.rs` 270-298. -/
def PositionMark.read (R : FloatText) (emptyIsNone : Bool) : Elem → Except XmlErr (PositionMark R)
  | .mk _ attrs _ => do
    checkAttrs [] attrs
    let name ← required some "Name" attrs
    let markType ← required parseI32 "Type" attrs
    let start ← required R.parse "Start" attrs
    let end_ ← optional emptyIsNone R.parse "End" attrs
    let num ← required parseI32 "Num" attrs
    .ok { name, markType, start, end_, num }

/-- Derived `Deserialize` of `Track`, `src/xml.rs` 75-217. -/
def Track.read (R : FloatText) (emptyIsNone : Bool) : Elem → Except XmlErr (Track R)
  | .mk _ attrs children => do
    checkAttrs [] attrs
    let trackId ← required parseI32 "TrackID" attrs
    let name ← optional emptyIsNone some "Name" attrs
    let artist ← optional emptyIsNone some "Artist" attrs
    let composer ← optional emptyIsNone some "Composer" attrs
    let album ← optional emptyIsNone some "Album" attrs
    let grouping ← optional emptyIsNone some "Grouping" attrs
    let genre ← optional emptyIsNone some "Genre" attrs
    let kind ← optional emptyIsNone some "Kind" attrs
    let size ← optional emptyIsNone parseI64 "Size" attrs
    let totalTime ← optional emptyIsNone R.parse "TotalTime" attrs
    let discNumber ← optional emptyIsNone parseI32 "DiscNumber" attrs
    let trackNumber ← optional emptyIsNone parseI32 "TrackNumber" attrs
    let year ← optional emptyIsNone parseI32 "Year" attrs
    let averageBpm ← optional emptyIsNone R.parse "AverageBpm" attrs
    let dateModified ← optional emptyIsNone some "DateModified" attrs
    let dateAdded ← optional emptyIsNone some "DateAdded" attrs
    let bitRate ← optional emptyIsNone parseI32 "BitRate" attrs
    let sampleRate ← optional emptyIsNone R.parse "SampleRate" attrs
    let comments ← optional emptyIsNone some "Comments" attrs
    let playCount ← optional emptyIsNone parseI32 "PlayCount" attrs
    let lastPlayed ← optional emptyIsNone some "LastPlayed" attrs
    let rating ← optional emptyIsNone parseI32 "Rating" attrs
    let location ← required some "Location" attrs
    let remixer ← optional emptyIsNone some "Remixer" attrs
    let tonality ← optional emptyIsNone some "Tonality" attrs
    let label ← optional emptyIsNone some "Label" attrs
    let mix ← optional emptyIsNone some "Mix" attrs
    let colour ← optional emptyIsNone some "Colour" attrs
    let tempos ← listOrEmpty "TEMPO" (Tempo.read R) children
    let positionMarks ← listOrEmpty "POSITION_MARK" (PositionMark.read R emptyIsNone) children
    .ok { trackId, name, artist, composer, album, grouping, genre,
          kind, size, totalTime, discNumber, trackNumber, year, averageBpm,
          dateModified, dateAdded, bitRate, sampleRate, comments, playCount, lastPlayed, rating,
          location, remixer, tonality, label, mix, colour, tempos, positionMarks }

/-- Derived `Deserialize` of `Collection`, `src/xml.rs` 63-73. -/
def Collection.read (R : FloatText) (emptyIsNone : Bool) : Elem → Except XmlErr (Collection R)
  | .mk _ attrs children => do
    checkAttrs [] attrs
    let entries ← required parseI32 "Entries" attrs
    let tracks ← list "TRACK" (Track.read R emptyIsNone) children
    .ok { entries, tracks }

/-- Derived `Deserialize` of `Playlists`, `src/xml.rs` 300-306. -/
def readPlaylists : Elem → Except XmlErr (String × List Node)
  | .mk _ attrs children => do
    checkAttrs [] attrs
    single "NODE" readRoot children

/-- Derived `Deserialize` of `Document`, `src/xml.rs` 22-43: the name of the root element is not looked at. -/
def Document.read (R : FloatText) (emptyIsNone : Bool) : Elem → Except XmlErr (Document R)
  | .mk _ attrs children => do
    checkAttrs [] attrs
    let version ← required some "Version" attrs
    let product ← single "PRODUCT" Product.read children
    let collection ← single "COLLECTION" (Collection.read R emptyIsNone) children
    let (rootName, rootNodes) ← single "PLAYLISTS" readPlaylists children
    .ok { version, product, collection, rootName, rootNodes }

end Xml
end Rekordcrate
