import Verif.Model.Text

/-! # Model of `src/pdb/string.rs` -/

namespace Rekordcrate

/-- `MAX_SHORTSTR_SIZE`, `src/pdb/string.rs` 20: `(u8::MAX >> 1) - 1`. -/
def maxShortStr : Nat := 126

/-- `LongBody`, `src/pdb/string.rs` 248-264. -/
inductive LongBody where
  | isrc (content : Bytes)
  | ascii (content : Bytes)
  | ucs2le (content : List UInt16)
  deriving DecidableEq, Repr

/-- `DeviceSQLString` and `DeviceSQLStringImpl`, `src/pdb/string.rs` 58-61 and 215-246. -/
inductive DString where
  | short (content : Bytes)
  | long (content : LongBody)
  deriving DecidableEq, Repr

namespace LongBody

/-- `byte_count`, `src/pdb/string.rs` 267-276: error when the count does not fit in a `u16`. -/
def byteCount (b : LongBody) : Res Nat :=
  let n := match b with
    | isrc s => s.length + 2
    | ascii s => s.length
    | ucs2le us => us.length * 2
  if n < 65536 then .ok n else .err .tooLong

/-- `flags`, `src/pdb/string.rs` 277-282. -/
def flags : LongBody → UInt8
  | ucs2le _ => 0x90
  | isrc _ => 0x90
  | ascii _ => 0x40

/-- Derived `BinWrite` of `LongBody`, `src/pdb/string.rs` 248-264. -/
def enc : LongBody → Bytes
  | isrc s => [0x3] ++ encNullString s
  | ascii s => s
  | ucs2le us => us.flatMap encU16

/-- Derived `BinRead` of `LongBody`, `src/pdb/string.rs` 248-264: the variants in order. -/
def read (flags : UInt8) (len : Nat) : Rd LongBody :=
  Rd.orElse
    (do Rd.require (flags == 0x90); Rd.magic [0x3]; let s ← readNullString; pure (.isrc s))
    (Rd.orElse
      (do Rd.require (flags == 0x40); let s ← Rd.bytes len; pure (.ascii s))
      (do
        Rd.require (flags == 0x90)
        Rd.require (len % 2 == 0)
        let us ← Rd.many Rd.u16 (len / 2)
        pure (.ucs2le us)))

end LongBody

namespace DString

/-- `DeviceSQLString::empty` / `Default`, `src/pdb/string.rs` 133-137. -/
def empty : DString := .short []

/-- `DeviceSQLString::new` (and `FromStr`), `src/pdb/string.rs` 65-87. -/
def new (s : String) : Res DString :=
  let len := (utf8 s).length
  let onlyAscii := isAscii s
  if onlyAscii ∧ len ≤ maxShortStr then .ok (.short (utf8 s))
  else if len ≤ 32767 then
    if onlyAscii then .ok (.long (.ascii (utf8 s)))
    else .ok (.long (.ucs2le (encodeUtf16 s)))
  else .err .tooLong

/-- `DeviceSQLString::new_isrc`, `src/pdb/string.rs` 95-107. -/
def newIsrc (s : String) : Res DString :=
  if (utf8 s).length = 0 then .ok empty
  else if (utf8 s).length ≠ 12 ∨ ¬ isAscii s then .err .invalidIsrc
  else .ok (.long (.isrc (utf8 s)))

/-- `DeviceSQLString::into_string`, `src/pdb/string.rs` 112-127. -/
def intoString : DString → Res String
  | .short bs => Res.ofOption .encoding (fromUtf8 bs)
  | .long (.ascii bs) => Res.ofOption .encoding (fromUtf8 bs)
  | .long (.isrc bs) => Res.ofOption .encoding (fromUtf8 bs)
  | .long (.ucs2le us) => Res.ofOption .encoding (fromUtf16 us)

/-- `Display` (and, up to a prefix, `Debug`), `src/pdb/string.rs` 139-171.  `lossy` stands for the
way `binrw` shows bytes that are not valid UTF-8; it is arbitrary. -/
def display (lossy : Bytes → String) : DString → Res String
  | .short bs => match fromUtf8 bs with
    | some s => .ok s
    | none => .panic
  | .long (.ascii bs) => match fromUtf8 bs with
    | some s => .ok s
    | none => .panic
  | .long (.isrc bs) => match fromUtf8 bs with
    | some s => .ok s
    | none => .ok (lossy bs)
  | .long (.ucs2le us) => .ok (fromUtf16Lossy us)

/-- `heap_bytes_required`, `src/pdb/string.rs` 184-199: `u16` arithmetic with overflow checks,
`len() as u16` wraps, `unwrap` on the byte count. -/
def heapBytes : DString → Res Nat
  | .short bs => addU16 1 (bs.length % 65536)
  | .long b => match b.byteCount with
    | .ok n => addU16 4 n
    | _ => .panic

/-- `required_alignment`, `src/pdb/string.rs` 201-210. -/
def alignment : DString → Nat
  | .long (.ucs2le _) => 4
  | _ => 1

/-- Derived `BinWrite`, `src/pdb/string.rs` 215-246, as the bytes written: the header byte
`(((len + 1) << 1) | 1) as u8`, or flags, `byte_count().unwrap() + 4`, padding and body. -/
def enc : DString → Res Bytes
  | .short bs => .ok ([UInt8.ofNat (((bs.length + 1) * 2 + 1) % 256)] ++ bs)
  | .long b => match b.byteCount with
    | .ok n => do
      let l ← addU16 n 4
      .ok ([b.flags] ++ (encU16 (UInt16.ofNat l) ++ ([0] ++ b.enc)))
    | _ => .panic

/-- Derived `BinRead` of the `ShortASCII` variant, `src/pdb/string.rs` 217-229; the subtraction
panics for header `0x01`. -/
def readShort : Rd DString := do
  let header ← Rd.u8
  Rd.require (header.toNat % 2 == 1)
  let n ← Rd.lift (subU (header.toNat / 2) 1)
  let content ← Rd.bytes n
  pure (.short content)

/-- Derived `BinRead` of the `Long` variant, `src/pdb/string.rs` 231-245; `length - 4` panics for
lengths below 4. -/
def readLong : Rd DString := do
  let flags ← Rd.u8
  Rd.require (flags.toNat % 2 == 0)
  let length ← Rd.u16
  let n ← Rd.lift (subU length.toNat 4)
  Rd.magic [0]
  let content ← LongBody.read flags n
  pure (.long content)

/-- Derived `BinRead` of `DeviceSQLString`, `src/pdb/string.rs` 58-61 and 215-246. -/
def read : Rd DString := Rd.orElse readShort readLong

end DString

end Rekordcrate
