import Verif.Model.Io

/-! # Model of `src/pdb/bitfields.rs` -/

namespace Rekordcrate

/-- `PackedRowCounts`, `src/pdb/bitfields.rs` 22-29.  The generated type stores three bytes; here the
two fields are stored and packed by `enc` / unpacked by `read` (`into_bytes` / `from_bytes`). -/
structure PackedRowCounts where
  numRows : Fin 8192
  numRowsValid : Fin 2048
  deriving DecidableEq, Repr

namespace PackedRowCounts

/-- `PackedRowCounts::new` / `default`, `src/pdb/bitfields.rs` 31-35: all bits zero. -/
def new : PackedRowCounts := ⟨0, 0⟩

/-- Generated setter `set_num_rows` / `with_num_rows` of the `B13` field
(`src/pdb/bitfields.rs` 27): panics when the value does not fit. -/
def setNumRows (c : PackedRowCounts) (n : Nat) : Res PackedRowCounts :=
  if h : n < 8192 then .ok { c with numRows := ⟨n, h⟩ } else .panic

/-- Generated setter `set_num_rows_valid` / `with_num_rows_valid` of the `B11` field
(`src/pdb/bitfields.rs` 28): panics when the value does not fit. -/
def setNumRowsValid (c : PackedRowCounts) (n : Nat) : Res PackedRowCounts :=
  if h : n < 2048 then .ok { c with numRowsValid := ⟨n, h⟩ } else .panic

/-- `from_all_valid`, `src/pdb/bitfields.rs` 40-44; `as u16` wraps. -/
def fromAllValid (n : Nat) : Res PackedRowCounts := do
  let c ← new.setNumRows (n % 65536)
  c.setNumRowsValid (n % 65536)

/-- `num_row_groups`, `src/pdb/bitfields.rs` 47-49 (`div_ceil(16)`). -/
def numRowGroups (c : PackedRowCounts) : Nat :=
  if c.numRows.val % 16 = 0 then c.numRows.val / 16 else c.numRows.val / 16 + 1

/-- `last_row_index`, `src/pdb/bitfields.rs` 53-60. -/
def lastRowIndex (c : PackedRowCounts) : Option (Nat × Nat) := do
  let rgi ← if c.numRowGroups ≥ 1 then some (c.numRowGroups - 1) else none
  let rsi ← if c.numRows.val ≥ 1 then some ((c.numRows.val - 1) % 16) else none
  some (rgi, rsi)

/-- `increment_num_rows`, `src/pdb/bitfields.rs` 63-65. -/
def incrementNumRows (c : PackedRowCounts) : Res PackedRowCounts := c.setNumRows (c.numRows.val + 1)

/-- `increment_num_rows_valid`, `src/pdb/bitfields.rs` 68-70. -/
def incrementNumRowsValid (c : PackedRowCounts) : Res PackedRowCounts :=
  c.setNumRowsValid (c.numRowsValid.val + 1)

/-- `into_bytes` (`bw(map)`), `src/pdb/bitfields.rs` 24-25: three bytes, `num_rows` in the low bits. -/
def enc (c : PackedRowCounts) : Bytes :=
  leEnc 3 (packLSB [(13, c.numRows.val), (11, c.numRowsValid.val)])

/-- `from_bytes`, `src/pdb/bitfields.rs` 24. -/
def ofRaw (x : Nat) : PackedRowCounts :=
  match unpackLSB [13, 11] x with
  | [a, b] => ⟨Fin.ofNat 8192 a, Fin.ofNat 2048 b⟩
  | _ => new

/-- Derived `BinRead`, `src/pdb/bitfields.rs` 22-25. -/
def read : Rd PackedRowCounts := do
  let bs ← Rd.bytes 3
  pure (ofRaw (leDec bs))

end PackedRowCounts

/-- `PageFlags`, `src/pdb/bitfields.rs` 77-98. -/
structure PageFlags where
  unknown0 : Bool
  unknown1 : Bool
  unknown2 : Bool
  unknown3 : Bool
  containsDeleted : Bool
  unknown5 : Bool
  isIndexPage : Bool
  unknown7 : Bool
  deriving DecidableEq, Repr

namespace PageFlags

/-- `Default for PageFlags`, `src/pdb/bitfields.rs` 100-112. -/
def default : PageFlags :=
  { unknown0 := false, unknown1 := false, unknown2 := true, unknown3 := false
    containsDeleted := false, unknown5 := true, isIndexPage := false, unknown7 := false }

/-- `new_data_page`, `src/pdb/bitfields.rs` 116-118. -/
def newDataPage : PageFlags := { default with isIndexPage := false }

/-- `new_index_page`, `src/pdb/bitfields.rs` 121-123. -/
def newIndexPage : PageFlags := { default with isIndexPage := true }

/-- `into_bytes`, `src/pdb/bitfields.rs` 77-80: fields from bit 0 upwards in declaration order. -/
def enc (f : PageFlags) : Bytes :=
  leEnc 1 (packLSB [(1, f.unknown0.toNat), (1, f.unknown1.toNat), (1, f.unknown2.toNat),
    (1, f.unknown3.toNat), (1, f.containsDeleted.toNat), (1, f.unknown5.toNat),
    (1, f.isIndexPage.toNat), (1, f.unknown7.toNat)])

/-- `from_bytes`, `src/pdb/bitfields.rs` 77-80. -/
def ofRaw (x : Nat) : PageFlags :=
  match unpackLSB [1, 1, 1, 1, 1, 1, 1, 1] x with
  | [a, b, c, d, e, f, g, h] => ⟨a == 1, b == 1, c == 1, d == 1, e == 1, f == 1, g == 1, h == 1⟩
  | _ => default

/-- Derived `BinRead`, `src/pdb/bitfields.rs` 77-80. -/
def read : Rd PageFlags := do
  let bs ← Rd.bytes 1
  pure (ofRaw (leDec bs))

end PageFlags

end Rekordcrate
