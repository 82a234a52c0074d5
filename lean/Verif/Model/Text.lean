import Verif.Model.Io

/-! # Rust text: `str`, UTF-8 and UTF-16 of the standard library

A Rust `str`/`String` is modelled by Lean's `String` (both are sequences of Unicode scalar values
stored as UTF-8).  The UTF-8 coding is Lean's own; UTF-16 is defined here. -/

namespace Rekordcrate

/-- `str::as_bytes`.  Used at `src/pdb/string.rs` 70 and 75. -/
def utf8 (s : String) : Bytes := s.toByteArray.data.toList

/-- `str::from_utf8` / `String::from_utf8`.  Used at `src/pdb/string.rs` 118 and 154. -/
def fromUtf8 (bs : Bytes) : Option String := String.fromUTF8? ⟨bs.toArray⟩

/-- `str::is_ascii`: every byte is below 128.  Used at `src/pdb/string.rs` 67 and 101. -/
def isAscii (s : String) : Bool := (utf8 s).all fun b => b.toNat < 128

/-- `char::encode_utf16`: one unit below U+10000, otherwise a surrogate pair.  Used at `src/pdb/string.rs` 81
and `src/anlz.rs` 261 and 328. -/
def utf16Char (c : Char) : List UInt16 :=
  if c.toNat < 0x10000 then [UInt16.ofNat c.toNat]
  else [UInt16.ofNat (0xD800 + (c.toNat - 0x10000) / 0x400),
        UInt16.ofNat (0xDC00 + (c.toNat - 0x10000) % 0x400)]

/-- `str::encode_utf16().collect()`.  Used at `src/pdb/string.rs` 81 and `src/anlz.rs` 261 and 328. -/
def encodeUtf16 (s : String) : List UInt16 := s.toList.flatMap utf16Char

/-- `char::decode_utf16` collected into characters, or nothing when a surrogate is unpaired.  Used at
`src/pdb/string.rs` 125 and `src/anlz.rs` 305. -/
def decodeUtf16Chars : List UInt16 → Option (List Char)
  | [] => some []
  | u :: rest =>
    if u.toNat < 0xD800 ∨ 0xE000 ≤ u.toNat then
      (decodeUtf16Chars rest).map (Char.ofNat u.toNat :: ·)
    else if 0xDC00 ≤ u.toNat then none
    else match rest with
      | [] => none
      | v :: rest' =>
        if 0xDC00 ≤ v.toNat ∧ v.toNat < 0xE000 then
          (decodeUtf16Chars rest').map
            (Char.ofNat (0x10000 + (u.toNat - 0xD800) * 0x400 + (v.toNat - 0xDC00)) :: ·)
        else none

/-- `String::from_utf16`.  Used at `src/pdb/string.rs` 125 and `src/anlz.rs` 305. -/
def fromUtf16 (us : List UInt16) : Option String := (decodeUtf16Chars us).map String.ofList

/-- `char::decode_utf16` with every unpaired surrogate replaced by U+FFFD.  Used at `src/pdb/string.rs` 169. -/
def decodeUtf16CharsLossy : List UInt16 → List Char
  | [] => []
  | u :: rest =>
    if u.toNat < 0xD800 ∨ 0xE000 ≤ u.toNat then
      Char.ofNat u.toNat :: decodeUtf16CharsLossy rest
    else if 0xDC00 ≤ u.toNat then Char.ofNat 0xFFFD :: decodeUtf16CharsLossy rest
    else match rest with
      | [] => [Char.ofNat 0xFFFD]
      | v :: rest' =>
        if 0xDC00 ≤ v.toNat ∧ v.toNat < 0xE000 then
          Char.ofNat (0x10000 + (u.toNat - 0xD800) * 0x400 + (v.toNat - 0xDC00))
            :: decodeUtf16CharsLossy rest'
        else Char.ofNat 0xFFFD :: decodeUtf16CharsLossy (v :: rest')

/-- `String::from_utf16_lossy`.  Used at `src/pdb/string.rs` 169. -/
def fromUtf16Lossy (us : List UInt16) : String := String.ofList (decodeUtf16CharsLossy us)

/-- `binrw::NullString` reader: bytes up to the next NUL byte, which is consumed.  Used at `src/pdb/string.rs`
258 and `src/setting.rs` 50-56. -/
def readNullString : Rd Bytes := fun d p =>
  let rest := d.drop p
  let content := rest.takeWhile (· != 0)
  if content.length < rest.length then .ok (content, p + content.length + 1) else .err .eof

/-- `binrw::NullString` writer: the bytes and a NUL byte.  Used at `src/pdb/string.rs` 258 and `src/setting.rs`
50-56. -/
def encNullString (bs : Bytes) : Bytes := bs ++ [0]

end Rekordcrate
