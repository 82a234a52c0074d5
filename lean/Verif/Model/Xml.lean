import Verif.Model.Io

/-! # Model of the playlist part of `src/xml.rs`

Simplifications.  The XML text is not modelled: an element is its name, its attributes in document order with
their unescaped values, and its child elements in order.  Text between elements (white space) is left out.
Names have no namespace prefix.  What is assumed of `quick-xml` (version 0.40, without the feature
`overlapped-lists`) and `serde`:

* the map of an element gives its attributes in order with keys `@name`, then its child elements with their
  names as keys; a second attribute with the same name is an error when it is met;
* a list field takes a run of adjacent children with the same name; a second run is a duplicate field;
* derived readers ignore unknown keys; a missing list field without default is an error;
* numbers are read with `str::parse`, and written with `Display`;
* serialising a structure writes the fields starting with `@` as attributes and each item of a list field as a
  child element with the name of the field, in order; the tag of an internally tagged enum comes first. -/

namespace Rekordcrate
namespace Xml

/-- An XML element.  The elements are those of `src/xml.rs` 22-534. -/
inductive Elem where
  | mk (name : String) (attrs : List (String × String)) (children : List Elem)
  deriving Repr

/-- What can be wrong with a document.  For instance `src/xml.rs` 353-356 and 401. -/
inductive XmlErr where
  | unknownField | unknownVariant | missingField | duplicateField | duplicateAttr | badNumber
  deriving DecidableEq, Repr

/-! ## Numbers -/

/-- The decimal digit of a value below 10.  Used for the numbers of `src/xml.rs`, for instance 459. -/
def digitChar (n : Nat) : Char := Char.ofNat (48 + n % 10)

/-- Decimal digits, as `Display` writes them.  Used for the numbers of `src/xml.rs`, for instance 459. -/
def digits (n : Nat) : List Char :=
  if n < 10 then [digitChar n] else digits (n / 10) ++ [digitChar n]
termination_by n

/-- The value of a digit.  Used for the numbers of `src/xml.rs`, for instance 349. -/
def digitValue (c : Char) : Option Nat :=
  if 48 ≤ c.toNat ∧ c.toNat ≤ 57 then some (c.toNat - 48) else none

/-- `str::parse` of the digits, without a bound.  Used for the numbers of `src/xml.rs`, for instance 349. -/
def digitsValue (acc : Nat) : List Char → Option Nat
  | [] => some acc
  | c :: cs =>
    match digitValue c with
    | some d => digitsValue (10 * acc + d) cs
    | none => none

/-- Digits, at least one.  Used for the numbers of `src/xml.rs`, for instance 349. -/
def naturalValue : List Char → Option Nat
  | [] => none
  | cs => digitsValue 0 cs

/-- `str::parse::<usize>` on a 64-bit machine.  Used at `src/xml.rs` 349 and 351. -/
def parseUsize (s : String) : Option Nat :=
  let v := match s.toList with
    | '+' :: cs => naturalValue cs
    | cs => naturalValue cs
  match v with
  | some n => if n < 2 ^ 64 then some n else none
  | none => none

/-- `str::parse::<i32>`.  Used at `src/xml.rs` 533 and, for instance, 81. -/
def parseI32 (s : String) : Option Int :=
  let v : Option Int := match s.toList with
    | '+' :: cs => (naturalValue cs).map Int.ofNat
    | '-' :: cs => (naturalValue cs).map fun n => - Int.ofNat n
    | cs => (naturalValue cs).map Int.ofNat
  match v with
  | some n => if - 2 ^ 31 ≤ n ∧ n < 2 ^ 31 then some n else none
  | none => none

/-- `Display` of `usize`.  Used at `src/xml.rs` 459 and 507. -/
def showNat (n : Nat) : String := String.ofList (digits n)

/-- `Display` of `i32`.  Used at `src/xml.rs` 533 and, for instance, 81. -/
def showInt (n : Int) : String :=
  if n < 0 then String.ofList ('-' :: digits n.natAbs) else String.ofList (digits n.natAbs)

/-! ## Values -/

/-- `PlaylistGenericNode`, `PlaylistFolderNode`, `PlaylistPlaylistNode`, `src/xml.rs` 308-319, 433-445,
475-493.  A track, `src/xml.rs` 527-534, is its key, an `i32` given as an integer. -/
inductive Node where
  | folder (name : String) (nodes : List Node)
  | playlist (name keyType : String) (tracks : List Int)
  deriving Repr

/-! ## Writing -/

/-- Derived `Serialize` of `PlaylistTrack`, `src/xml.rs` 527-534, as an item of the field `TRACK`. -/
def writeTrack (key : Int) : Elem := .mk "TRACK" [("Key", showInt key)] []

mutual
/-- Derived `Serialize` of `PlaylistGenericNode`, `src/xml.rs` 308-319, with those of the variants,
`src/xml.rs` 447-473, 495-525, as an item of the field `NODE`. -/
def writeNode : Node → Elem
  | .folder name nodes => .mk "NODE" [("Type", "0"), ("Name", name), ("Count", showNat nodes.length)] (writeNodes nodes)
  | .playlist name keyType tracks =>
    .mk "NODE" [("Type", "1"), ("Name", name), ("Entries", showNat tracks.length), ("KeyType", keyType)]
      (tracks.map writeTrack)
/-- The field `NODE`, `src/xml.rs` 460-462. -/
def writeNodes : List Node → List Elem
  | [] => []
  | x :: xs => writeNode x :: writeNodes xs
end

/-- `Serialize` of `PlaylistFolderNode`, `src/xml.rs` 447-473, for the field `NODE` of `Playlists`,
`src/xml.rs` 300-306: there is no tag. -/
def writeRoot (name : String) (nodes : List Node) : Elem :=
  .mk "NODE" [("Name", name), ("Count", showNat nodes.length)] (writeNodes nodes)

/-! ## Reading -/

/-- The variables of `visit_map`, `src/xml.rs` 339-343. -/
structure Vars where
  nodeType : Option String := none
  name : Option String := none
  count : Option Nat := none
  keyType : Option String := none
  entries : Option Nat := none

/-- The first `match` in the loop of `visit_map`, `src/xml.rs` 346-358, for an attribute. -/
def Vars.set (v : Vars) (key value : String) : Except XmlErr Vars :=
  if key = "Name" then .ok { v with name := some value }
  else if key = "Type" then .ok { v with nodeType := some value }
  else if key = "Count" then
    match parseUsize value with
    | some n => .ok { v with count := some n }
    | none => .error .badNumber
  else if key = "KeyType" then .ok { v with keyType := some value }
  else if key = "Entries" then
    match parseUsize value with
    | some n => .ok { v with entries := some n }
    | none => .error .badNumber
  else .error .unknownField

/-- What `visit_map` has found when it goes on to the children.  `src/xml.rs` 339-343. -/
inductive Found where
  | folder (name : String)
  | playlist (name keyType : String)
  deriving DecidableEq, Repr

/-- The second `match` in the loop of `visit_map`, `src/xml.rs` 360-404: `none` means to go on. -/
def Vars.found (v : Vars) : Except XmlErr (Option Found) :=
  match v.nodeType with
  | some t =>
    if t = "0" then
      match v.name, v.count with
      | some n, some _ => .ok (some (.folder n))
      | _, _ => .ok none
    else if t = "1" then
      match v.name, v.entries, v.keyType with
      | some n, some _, some k => .ok (some (.playlist n k))
      | _, _, _ => .ok none
    else .error .unknownVariant
  | none => .ok none

/-- The iterator over attributes reports a name it has seen before (`quick-xml`).  The iterator behind
`src/xml.rs` 345. -/
def checkAttrs (seen : List String) : List (String × String) → Except XmlErr Unit
  | [] => .ok ()
  | (k, _) :: rest => if k ∈ seen then .error .duplicateAttr else checkAttrs (k :: seen) rest

/-- The loop of `visit_map`, `src/xml.rs` 345-405, over the attributes; when enough is known the derived reader
of `Nodes` or `Tracks` takes the map, and ignores the attributes that are left.  If a child element comes first,
its key is unknown, `src/xml.rs` 352-357; if the map ends, a field is missing, `src/xml.rs` 407-425. -/
def scan (v : Vars) (seen : List String) (noChildren : Bool) : List (String × String) → Except XmlErr Found
  | [] => if noChildren then .error .missingField else .error .unknownField
  | (k, x) :: rest =>
    if k ∈ seen then .error .duplicateAttr
    else match v.set k x with
      | .error e => .error e
      | .ok v' => match v'.found with
        | .error e => .error e
        | .ok none => scan v' (k :: seen) noChildren rest
        | .ok (some f) => match checkAttrs (k :: seen) rest with
          | .error e => .error e
          | .ok () => .ok f

/-- Derived `Deserialize` of `PlaylistTrack`, `src/xml.rs` 527-534: other attributes are ignored. -/
def readTrackFrom (seen : List String) (key : Option Int) : List (String × String) → Except XmlErr Int
  | [] => match key with
    | some k => .ok k
    | none => .error .missingField
  | (k, x) :: rest =>
    if k ∈ seen then .error .duplicateAttr
    else if k = "Key" then
      match parseI32 x with
      | some n => readTrackFrom (k :: seen) (some n) rest
      | none => .error .badNumber
    else readTrackFrom (k :: seen) key rest

/-- Derived `Deserialize` of `PlaylistTrack`, `src/xml.rs` 527-534. -/
def readTrack : Elem → Except XmlErr Int
  | .mk _ attrs _ => readTrackFrom [] none attrs

/-- A list field of a derived reader while the children are read: not met yet, in its run of children, or
behind it.  The fields at `src/xml.rs` 71, 207, 213, 367, 386, 443 and 490. -/
inductive Field (α : Type) where
  | unmet
  | inRun (items : List α)
  | behind (items : List α)

/-- The end of the map: `missing_field`.  The fields at `src/xml.rs` 71, 207, 213, 367, 386, 443 and 490. -/
def Field.finish {α : Type} : Field α → Except XmlErr (List α)
  | .unmet => .error .missingField
  | .inRun items => .ok items
  | .behind items => .ok items

/-- A child with another name: it is ignored, and ends the run.  The fields at `src/xml.rs` 71, 207, 213, 367,
386, 443 and 490. -/
def Field.other {α : Type} : Field α → Field α
  | .inRun items => .behind items
  | f => f

/-- Derived `Deserialize` of `Tracks`, `src/xml.rs` 382-391, over the children. -/
def readTracks (f : Field Int) : List Elem → Except XmlErr (List Int)
  | [] => f.finish
  | .mk name attrs cs :: es =>
    if name = "TRACK" then
      match f with
      | .behind _ => .error .duplicateField
      | .unmet => match readTrack (.mk name attrs cs) with
        | .ok x => readTracks (.inRun [x]) es
        | .error e => .error e
      | .inRun items => match readTrack (.mk name attrs cs) with
        | .ok x => readTracks (.inRun (items ++ [x])) es
        | .error e => .error e
    else readTracks f.other es

mutual
/-- `Deserialize` of `PlaylistGenericNode`, `src/xml.rs` 321-431. -/
def readNode : Elem → Except XmlErr Node
  | .mk _ attrs children =>
    match scan {} [] children.isEmpty attrs with
    | .error e => .error e
    | .ok (.folder name) => match readNodes .unmet children with
      | .ok nodes => .ok (.folder name nodes)
      | .error e => .error e
    | .ok (.playlist name keyType) => match readTracks .unmet children with
      | .ok tracks => .ok (.playlist name keyType tracks)
      | .error e => .error e
/-- Derived `Deserialize` of `Nodes`, `src/xml.rs` 363-372, over the children. -/
def readNodes (f : Field Node) : List Elem → Except XmlErr (List Node)
  | [] => f.finish
  | .mk name attrs cs :: es =>
    if name = "NODE" then
      match f with
      | .behind _ => .error .duplicateField
      | .unmet => match readNode (.mk name attrs cs) with
        | .ok x => readNodes (.inRun [x]) es
        | .error e => .error e
      | .inRun items => match readNode (.mk name attrs cs) with
        | .ok x => readNodes (.inRun (items ++ [x])) es
        | .error e => .error e
    else readNodes f.other es
end

/-- Derived `Deserialize` of `PlaylistFolderNode`, `src/xml.rs` 434-445, over the attributes: others are
ignored. -/
def readRootName (seen : List String) (name : Option String) : List (String × String) → Except XmlErr (Option String)
  | [] => .ok name
  | (k, x) :: rest =>
    if k ∈ seen then .error .duplicateAttr
    else readRootName (k :: seen) (if k = "Name" then some x else name) rest

/-- Derived `Deserialize` of `PlaylistFolderNode`, `src/xml.rs` 434-445, for the field `NODE` of `Playlists`. -/
def readRoot : Elem → Except XmlErr (String × List Node)
  | .mk _ attrs children =>
    match readRootName [] none attrs with
    | .error e => .error e
    | .ok name => match readNodes .unmet children, name with
      | .error e, _ => .error e
      | .ok _, none => .error .missingField
      | .ok nodes, some n => .ok (n, nodes)

end Xml
end Rekordcrate
