/-!
# Outcomes, readers and writers

Common vocabulary of the model.  It does not model one particular function of `/repo`; it models the
way the Rust code talks to the outside: `Result`, panics, `Read + Seek` and `Write + Seek`, and the
integer encodings used by `binrw`.

* `Res α` is the outcome of a Rust call: a value, an error value, or a panic.
* `Rd α` is a parser over a fully readable byte image (a `File` or `Cursor`), at a position.
* `Wr α` is a serialiser: it moves a position and leaves a list of writes (`Patch`) in program order.
-/

namespace Rekordcrate

/-- A byte sequence: a file image, a buffer, an encoded value.  For instance the stream of `src/pdb/io.rs` 93-95
or the buffer of `src/anlz.rs` 299. -/
abbrev Bytes := List UInt8

/-- Kinds of errors.  The Rust code distinguishes more kinds and carries messages and positions
(`binrw::Error`, `RekordcrateError`, `PdbError`, `StringError`); only the distinctions that some
property talks about are kept.  The types are at `src/util.rs` 21-61, `src/pdb/mod.rs` 49-56 and
`src/pdb/string.rs` 25-36. -/
inductive Err where
  /-- `binrw::Error::Io(UnexpectedEof)`. -/
  | eof
  /-- Other I/O errors, e.g. seeking to a negative position. -/
  | io
  /-- `binrw::Error::BadMagic`. -/
  | badMagic
  /-- `binrw::Error::AssertFail`. -/
  | assertFail
  /-- `binrw::Error::EnumErrors` / `NoVariantMatch`. -/
  | noVariant
  /-- `StringError::TooLong`. -/
  | tooLong
  /-- `StringError::InvalidISRC`. -/
  | invalidIsrc
  /-- `StringError::Encoding` and other encoding problems. -/
  | encoding
  /-- `PdbError::InvalidPageIndex`. -/
  | invalidPageIndex (i : Nat)
  /-- `PdbError::InvalidIndexFlags`. -/
  | invalidIndexFlags (f : Nat)
  /-- `RekordcrateError::PageNotPresent`. -/
  | pageNotPresent (i : Nat)
  /-- `RekordcrateError::PageOrderViolation`. -/
  | pageOrderViolation (i : Nat)
  /-- `RekordcrateError::TableNotPresent`. -/
  | tableNotPresent (i : Nat)
  /-- `RekordcrateError::TableTypeNotPresent`. -/
  | tableTypeNotPresent
  /-- Any other error. -/
  | other
  deriving DecidableEq, Repr

/-- Outcome of a Rust call.  `panic` covers `panic!`, failed `unwrap`/`expect`, out-of-range indexing
and arithmetic overflow in a build with overflow checks.  For instance `RekordcrateResult`, `src/util.rs` 64,
and the `unwrap` at `src/pdb/mod.rs` 591. -/
inductive Res (α : Type) where
  | ok (a : α)
  | err (e : Err)
  | panic
  deriving DecidableEq, Repr

namespace Res

/-- Sequencing: `?` on errors, unwinding on panics.  For instance `src/pdb/io.rs` 77-80. -/
def bind {α β : Type} (x : Res α) (f : α → Res β) : Res β :=
  match x with
  | ok a => f a
  | err e => err e
  | panic => panic

instance : Monad Res where
  pure := Res.ok
  bind := Res.bind

/-- The call returned a value.  What `src/device.rs` 57-63 asks. -/
def isOk {α : Type} : Res α → Bool
  | ok _ => true
  | _ => false

/-- The call did not panic.  As opposed to, for instance, `src/pdb/mod.rs` 591 and 598. -/
def NoPanic {α : Type} (r : Res α) : Prop := r ≠ panic

/-- `Option` to `Result` with the given error (`ok_or`).  For instance `src/pdb/io.rs` 105-109. -/
def ofOption {α : Type} (e : Err) : Option α → Res α
  | some a => ok a
  | none => err e

end Res

/-! ## Integers -/

/-- `n` bytes of `x`, least significant first.  The byte order of `src/pdb/mod.rs` 203. -/
def leEnc : Nat → Nat → Bytes
  | 0, _ => []
  | n + 1, x => UInt8.ofNat (x % 256) :: leEnc n (x / 256)

/-- Value of bytes, least significant first.  The byte order of `src/pdb/mod.rs` 203. -/
def leDec : Bytes → Nat
  | [] => 0
  | b :: bs => b.toNat + 256 * leDec bs

/-- `n` bytes of `x`, most significant first.  The byte order of `src/anlz.rs` 116. -/
def beEnc (n x : Nat) : Bytes := (leEnc n x).reverse

/-- Value of bytes, most significant first.  The byte order of `src/anlz.rs` 116. -/
def beDec (bs : Bytes) : Nat := leDec bs.reverse

/-- `u8::write`.  For instance `src/anlz.rs` 357. -/
def encU8 (x : UInt8) : Bytes := [x]
/-- `u16::write`, little endian.  For instance `src/pdb/mod.rs` 535 and 537. -/
def encU16 (x : UInt16) : Bytes := leEnc 2 x.toNat
/-- `u32::write`, little endian.  For instance `src/pdb/mod.rs` 211. -/
def encU32 (x : UInt32) : Bytes := leEnc 4 x.toNat
/-- `u64::write`, little endian.  For instance `src/pdb/mod.rs` 336. -/
def encU64 (x : UInt64) : Bytes := leEnc 8 x.toNat
/-- `u16::write`, big endian.  For instance `src/anlz.rs` 142. -/
def encU16be (x : UInt16) : Bytes := beEnc 2 x.toNat
/-- `u32::write`, big endian.  For instance `src/anlz.rs` 146. -/
def encU32be (x : UInt32) : Bytes := beEnc 4 x.toNat

/-- `u16` addition with overflow checks.  For instance `src/pdb/mod.rs` 581 and 587. -/
def addU16 (a b : Nat) : Res Nat := if a + b < 65536 then .ok (a + b) else .panic

/-- Subtraction of unsigned integers with overflow checks.  For instance `src/pdb/io.rs` 108 and `src/anlz.rs`
127-133. -/
def subU (a b : Nat) : Res Nat := if b ≤ a then .ok (a - b) else .panic

/-! ## Readers -/

/-- A parser: byte image and position to outcome, with the new position on success.
On error the position is not reported: every caller in `/repo` either gives up or seeks to a saved
position first (binrw restores the position itself). -/
def Rd (α : Type) : Type := Bytes → Nat → Res (α × Nat)

namespace Rd

instance : Monad Rd where
  pure a := fun _ p => .ok (a, p)
  bind m f := fun d p =>
    match m d p with
    | .ok (a, p') => f a d p'
    | .err e => .err e
    | .panic => .panic

/-- Return an error.  For instance `src/pdb/mod.rs` 267. -/
def fail {α : Type} (e : Err) : Rd α := fun _ _ => .err e

/-- Panic.  For instance the `unwrap` at `src/pdb/string.rs` 239. -/
def panic {α : Type} : Rd α := fun _ _ => .panic

/-- Lift an outcome that does not touch the stream.  For instance `src/pdb/offset_array.rs` 156. -/
def lift {α : Type} (r : Res α) : Rd α := fun _ p =>
  match r with
  | .ok a => .ok (a, p)
  | .err e => .err e
  | .panic => .panic

/-- `binrw` `assert(...)`/`pre_assert(...)`.  For instance `src/anlz.rs` 817 and 704. -/
def require (b : Bool) (e : Err := .assertFail) : Rd Unit := if b then pure () else fail e

/-- `stream_position()`.  For instance `src/util.rs` 158. -/
def pos : Rd Nat := fun _ p => .ok (p, p)

/-- `seek(SeekFrom::Start(n))`.  For instance `src/util.rs` 164. -/
def seekTo (n : Nat) : Rd Unit := fun _ _ => .ok ((), n)

/-- `seek(SeekFrom::Current(k))`: seeking before the start is an error, behind the end is fine.  For instance
`src/pdb/mod.rs` 681 and 750. -/
def seekBy (k : Int) : Rd Unit := fun _ p =>
  if 0 ≤ (p : Int) + k then .ok ((), ((p : Int) + k).toNat) else .err .io

/-- `read_exact` into a buffer of `n` bytes.  For instance `src/anlz.rs` 300. -/
def bytes (n : Nat) : Rd Bytes := fun d p =>
  let bs := (d.drop p).take n
  if bs.length = n then .ok (bs, p + n) else .err .eof

/-- binrw enum: alternatives in order; an error restores the position and tries the next one,
a panic propagates.  For instance `src/pdb/string.rs` 215-246. -/
def orElse {α : Type} (a b : Rd α) : Rd α := fun d p =>
  match a d p with
  | .ok r => .ok r
  | .panic => .panic
  | .err _ => b d p

/-- `br(count = n)` for an element parser.  For instance `src/anlz.rs` 780. -/
def many {α : Type} (r : Rd α) : Nat → Rd (List α)
  | 0 => pure []
  | n + 1 => do
    let a ← r
    let as ← many r n
    pure (a :: as)

/-- `br(restore_position)`: the position before the field is restored afterwards.  For instance `src/anlz.rs`
1035. -/
def restore {α : Type} (r : Rd α) : Rd α := fun d p =>
  match r d p with
  | .ok (a, _) => .ok (a, p)
  | .err e => .err e
  | .panic => .panic

/-- `u8::read`.  For instance `src/anlz.rs` 357. -/
def u8 : Rd UInt8 := do
  let bs ← bytes 1
  pure (UInt8.ofNat (leDec bs))
/-- `u16::read`, little endian.  For instance `src/pdb/mod.rs` 535 and 537. -/
def u16 : Rd UInt16 := do
  let bs ← bytes 2
  pure (UInt16.ofNat (leDec bs))
/-- `u32::read`, little endian.  For instance `src/pdb/mod.rs` 211. -/
def u32 : Rd UInt32 := do
  let bs ← bytes 4
  pure (UInt32.ofNat (leDec bs))
/-- `u64::read`, little endian.  For instance `src/pdb/mod.rs` 336. -/
def u64 : Rd UInt64 := do
  let bs ← bytes 8
  pure (UInt64.ofNat (leDec bs))
/-- `u16::read`, big endian.  For instance `src/anlz.rs` 142. -/
def u16be : Rd UInt16 := do
  let bs ← bytes 2
  pure (UInt16.ofNat (beDec bs))
/-- `u32::read`, big endian.  For instance `src/anlz.rs` 146. -/
def u32be : Rd UInt32 := do
  let bs ← bytes 4
  pure (UInt32.ofNat (beDec bs))

/-- `magic = ...` on a field or type: the encoded constant must be next in the stream.  For instance
`src/pdb/mod.rs` 336. -/
def magic (m : Bytes) : Rd Unit := do
  let bs ← bytes m.length
  if bs = m then pure () else fail .badMagic

/-- An enum whose variants carry only a `magic`: the variants are tried in declaration order.  For instance
`src/anlz.rs` 41-111 and `src/util.rs` 89-117. -/
def magicEnum {α : Type} : List (Bytes × α) → Rd α
  | [] => fail .noVariant
  | (m, a) :: rest => orElse (do magic m; pure a) (magicEnum rest)

end Rd

/-! ## Bit fields -/

/-- `modular_bitfield` packing: `(width, value)` fields, first field in the least significant bits.  For
instance `src/pdb/bitfields.rs` 22-29. -/
def packLSB : List (Nat × Nat) → Nat
  | [] => 0
  | (w, v) :: rest => v % 2 ^ w + 2 ^ w * packLSB rest

/-- `modular_bitfield` unpacking for the given field widths.  For instance `src/pdb/bitfields.rs` 22-29. -/
def unpackLSB : List Nat → Nat → List Nat
  | [], _ => []
  | w :: ws, x => x % 2 ^ w :: unpackLSB ws (x / 2 ^ w)

/-! ## Writers -/

/-- One `write_all` call: `bytes` written at file offset `off`.  For instance `src/anlz.rs` 332. -/
structure Patch where
  off : Nat
  bytes : Bytes
  deriving DecidableEq, Repr

/-- Effect of one write on a file image: overwrite in place, extend at the end, zero fill a gap.
Writing nothing changes nothing.  The stream is that of `src/pdb/io.rs` 213-218. -/
def Patch.apply (img : Bytes) (q : Patch) : Bytes :=
  if q.bytes = [] then img
  else img.take q.off ++ List.replicate (q.off - img.length) 0 ++ q.bytes
    ++ img.drop (q.off + q.bytes.length)

/-- Effect of a sequence of writes.  The stream is that of `src/pdb/io.rs` 213-218. -/
def applyPatches (img : Bytes) (ps : List Patch) : Bytes := ps.foldl Patch.apply img

/-- A serialiser: from the position to a value, the new position and the writes made.  For instance the writers
at `src/util.rs` 172-193 and `src/pdb/io.rs` 49-67. -/
def Wr (α : Type) : Type := Nat → Res (α × Nat × List Patch)

namespace Wr

instance : Monad Wr where
  pure a := fun p => .ok (a, p, [])
  bind m f := fun p =>
    match m p with
    | .ok (a, p', ps) =>
      match f a p' with
      | .ok (b, p'', ps') => .ok (b, p'', ps ++ ps')
      | .err e => .err e
      | .panic => .panic
    | .err e => .err e
    | .panic => .panic

/-- Return an error.  For instance `src/pdb/offset_array.rs` 220. -/
def fail {α : Type} (e : Err) : Wr α := fun _ => .err e

/-- Panic.  For instance the `unwrap` at `src/pdb/string.rs` 239. -/
def panic {α : Type} : Wr α := fun _ => .panic

/-- Lift an outcome that does not touch the stream.  For instance `src/pdb/offset_array.rs` 188. -/
def lift {α : Type} (r : Res α) : Wr α := fun p =>
  match r with
  | .ok a => .ok (a, p, [])
  | .err e => .err e
  | .panic => .panic

/-- `stream_position()`.  For instance `src/util.rs` 185. -/
def pos : Wr Nat := fun p => .ok (p, p, [])

/-- `seek(SeekFrom::Start(n))`.  For instance `src/util.rs` 190. -/
def seekTo (n : Nat) : Wr Unit := fun _ => .ok ((), n, [])

/-- `seek(SeekFrom::Current(k))`.  For instance `src/pdb/io.rs` 61. -/
def seekBy (k : Int) : Wr Unit := fun p =>
  if 0 ≤ (p : Int) + k then .ok ((), ((p : Int) + k).toNat, []) else .err .io

/-- `write_all(bs)`.  For instance `src/anlz.rs` 332. -/
def emit (bs : Bytes) : Wr Unit := fun p => .ok ((), p + bs.length, [⟨p, bs⟩])

/-- Emit the result of a fallible encoder.  For instance `src/pdb/offset_array.rs` 231. -/
def emitRes (r : Res Bytes) : Wr Unit := do
  let bs ← lift r
  emit bs

/-- `bw(restore_position)`: the position before the field is restored afterwards.  For instance `src/pdb/mod.rs`
660. -/
def restore {α : Type} (w : Wr α) : Wr α := fun p =>
  match w p with
  | .ok (a, _, ps) => .ok (a, p, ps)
  | .err e => .err e
  | .panic => .panic

/-- Write every item in order.  For instance `src/util.rs` 186-193. -/
def forEach {α : Type} (f : α → Wr Unit) : List α → Wr Unit
  | [] => pure ()
  | a :: as => do
    f a
    forEach f as

end Wr

end Rekordcrate
