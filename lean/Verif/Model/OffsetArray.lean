import Verif.Model.DString

/-! # Model of `src/pdb/offset_array.rs`

The container is modelled for items of type `DeviceSQLString`, the only item type of the rows in
`src/pdb`.  Arrays of `N` elements are lists; `N` is given by `OffsetItems.count`. -/

namespace Rekordcrate

/-- `OffsetSize`, `src/pdb/offset_array.rs` 64-71. -/
inductive OffsetSize where
  | u8 | u16
  deriving DecidableEq, Repr

/-- `OffsetSize::bytes`, `src/pdb/offset_array.rs` 74-79. -/
def OffsetSize.bytes : OffsetSize → Nat
  | u8 => 1
  | u16 => 2

/-- `OffsetArray<N>`, `src/pdb/offset_array.rs` 289-300. -/
inductive OffsetArray where
  | u8 (offsets : List UInt8)
  | u16 (offsets : List UInt16)
  deriving DecidableEq, Repr

namespace OffsetArray

/-- `assert_offset_size_matches`, `src/pdb/offset_array.rs` 310-315. -/
def sizeMatches : OffsetArray → OffsetSize → Bool
  | u8 _, .u8 => true
  | u16 _, .u16 => true
  | _, _ => false

/-- `as_seeks`, `src/pdb/offset_array.rs` 317-322: the distances of the forward seeks. -/
def seeks : OffsetArray → List Nat
  | u8 os => os.map UInt8.toNat
  | u16 os => os.map UInt16.toNat

/-- `OffsetArray::new`, `src/pdb/offset_array.rs` 324-329: `try_into` fails for numbers that do not
fit. -/
def new (os : List Nat) : OffsetSize → Res OffsetArray
  | .u8 => if os.all (· < 256) then .ok (u8 (os.map UInt8.ofNat)) else .err .assertFail
  | .u16 => if os.all (· < 65536) then .ok (u16 (os.map UInt16.ofNat)) else .err .assertFail

/-- Derived `BinWrite`, `src/pdb/offset_array.rs` 289-300. -/
def enc : OffsetArray → Bytes
  | u8 os => [0x03] ++ os.flatMap encU8
  | u16 os => encU16 0x0003 ++ os.flatMap encU16

/-- Derived `BinRead`, `src/pdb/offset_array.rs` 289-300, for arrays of `n` offsets. -/
def read (n : Nat) (size : OffsetSize) : Rd OffsetArray :=
  Rd.orElse
    (do Rd.require (size == .u8); Rd.magic [0x03]; let os ← Rd.many Rd.u8 n; pure (u8 os))
    (do Rd.require (size == .u16); Rd.magic (encU16 0x0003); let os ← Rd.many Rd.u16 n; pure (u16 os))

end OffsetArray

/-- `OffsetArrayItems<N>`, `src/pdb/offset_array.rs` 261-271: a structure of `N` strings. -/
class OffsetItems (T : Type) where
  /-- The constant `N`. -/
  count : Nat
  /-- `as_items`. -/
  asItems : T → List DString
  /-- `from_items`; only called with lists of length `count`. -/
  fromItems : List DString → T

/-- `OffsetArrayContainer<T, N>`, `src/pdb/offset_array.rs` 83-92; `none` stands for
`MaybeCalculated::Calculated`. -/
structure OffsetContainer (T : Type) where
  offsets : Option OffsetArray
  inner : T
  deriving DecidableEq, Repr

namespace OffsetContainer

variable {T : Type} [OffsetItems T]

/-- `calculate_base`, `src/pdb/offset_array.rs` 121-128. -/
def calculateBase (start offset : Nat) : Res Nat :=
  if offset ≤ start then .ok (start - offset) else .err .assertFail

/-- `aligned_offset`, `src/pdb/offset_array.rs` 130-132 (`next_multiple_of`; file positions stay far
below `u64::MAX`, so its overflow is left out). -/
def alignedOffset (offset align : Nat) : Nat :=
  let a := max align 1
  if offset % a = 0 then offset else offset + (a - offset % a)

/-- The reading loop, `src/pdb/offset_array.rs` 158-164, with `try_map_polyfill`
(`src/util.rs` 219-229), which goes on after an error and reports the first one.  `cur` is the
position of the reader: `base` after a success; after an error the position the failed read started
at (binrw restores it). -/
def readItems (d : Bytes) (base : Nat) : Nat → List Nat → Res (List DString)
  | _, [] => .ok []
  | cur, o :: os =>
    match DString.read d (cur + o) with
    | .ok (v, _) =>
      match readItems d base base os with
      | .ok vs => .ok (v :: vs)
      | .err e => .err e
      | .panic => .panic
    | .err e =>
      match readItems d base (cur + o) os with
      | .panic => .panic
      | _ => .err e
    | .panic => .panic

/-- The reading loop as a reader: it ends at the base, `src/pdb/offset_array.rs` 158-164. -/
def readAll (base : Nat) (seeks : List Nat) : Rd (List DString) := fun d p =>
  match readItems d base p seeks with
  | .ok vs => .ok (vs, base)
  | .err e => .err e
  | .panic => .panic

/-- `BinRead`, `src/pdb/offset_array.rs` 143-170.  The reader ends at the base. -/
def read (offset : Nat) (size : OffsetSize) : Rd (OffsetContainer T) := do
  let start ← Rd.pos
  let offsets ← OffsetArray.read (OffsetItems.count T) size
  Rd.require (offsets.sizeMatches size)
  let base ← Rd.lift (calculateBase start offset)
  Rd.seekTo base
  let parsed ← readAll base offsets.seeks
  pure { offsets := some offsets, inner := OffsetItems.fromItems parsed }

/-- The writing loop for calculated offsets, `src/pdb/offset_array.rs` 194-209: pad with zeros, write
the item, return its offset from the base.  `DeviceSQLString` writes never return errors, so the
difference between `try_map_polyfill` and stopping early does not show. -/
def writeItems (base : Nat) : List DString → Wr (List Nat)
  | [] => pure []
  | v :: vs => do
    let cur ← Wr.pos
    let aligned := alignedOffset (cur - base) v.alignment
    Wr.emit (List.replicate (aligned - (cur - base)) 0)
    Wr.emitRes v.enc
    let os ← writeItems base vs
    pure (aligned :: os)

/-- The writing loop for provided offsets, `src/pdb/offset_array.rs` 228-236: `writer` is at `base`
before every step. -/
def writeProvided (base : Nat) : List (DString × Nat) → Wr Unit
  | [] => pure ()
  | (v, o) :: rest => do
    Wr.seekBy o
    Wr.emitRes v.enc
    Wr.seekTo base
    writeProvided base rest

/-- `BinWrite`, `src/pdb/offset_array.rs` 181-239. -/
def write (c : OffsetContainer T) (offset : Nat) (size : OffsetSize) : Wr Unit := do
  let start ← Wr.pos
  let base ← Wr.lift (calculateBase start offset)
  let items := OffsetItems.asItems c.inner
  match c.offsets with
  | none =>
    Wr.seekBy (((OffsetItems.count T + 1) * size.bytes : Nat) : Int)
    let raw ← writeItems base items
    let offsets ← Wr.lift (OffsetArray.new raw size)
    Wr.seekTo start
    Wr.emit offsets.enc
  | some offsets =>
    Wr.lift (if offsets.sizeMatches size then .ok () else .err .assertFail)
    Wr.emit offsets.enc
    Wr.seekTo base
    writeProvided base (items.zip offsets.seeks)

/-- The loop of `heap_bytes_required`, `src/pdb/offset_array.rs` 249-255: `as u16` wraps, `+=` is
checked. -/
def heapLoop (calculated : Bool) : Nat → List DString → Res Nat
  | total, [] => .ok total
  | total, v :: vs => do
    let total := if calculated then alignedOffset total v.alignment % 65536 else total
    let n ← v.heapBytes
    let total ← addU16 total n
    heapLoop calculated total vs

/-- `heap_bytes_required`, `src/pdb/offset_array.rs` 242-258. -/
def heapBytes (c : OffsetContainer T) (size : OffsetSize) : Res Nat :=
  heapLoop c.offsets.isNone (((OffsetItems.count T + 1) * size.bytes) % 65536)
    (OffsetItems.asItems c.inner)

end OffsetContainer

end Rekordcrate
