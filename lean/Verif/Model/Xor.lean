import Verif.Model.Io

/-!
# `src/xor.rs`: the XOR stream wrapper

The wrapped stream is modelled as a byte buffer with a position (`std::io::Cursor<Vec<u8>>`/`File`).
How many bytes an inner `read`/`write` transfers is a parameter `k`, because the `Read`/`Write`
contracts allow short transfers.
-/

namespace Rekordcrate

/-- `std::io::SeekFrom`.  The argument at `src/xor.rs` 70. -/
inductive SeekFrom where
  | start (n : Nat)
  | current (k : Int)
  | «end» (k : Int)
  deriving DecidableEq, Repr

/-- Position an inner stream of length `len` at position `pos` moves to; an error before 0.  Used at
`src/xor.rs` 72. -/
def SeekFrom.target (len pos : Nat) : SeekFrom → Res Nat
  | .start n => .ok n
  | .current k => if 0 ≤ (pos : Int) + k then .ok ((pos : Int) + k).toNat else .err .io
  | .end k => if 0 ≤ (len : Int) + k then .ok ((len : Int) + k).toNat else .err .io

/-- `XorStream<T>` (src/xor.rs:16-21).  `data`/`pos` are the wrapped stream.  `key` is the vector
behind the `Cycle` iterator and `idx` the number of key bytes taken so far (the iterator state is
`idx % key.length`). -/
structure XorStream where
  data : Bytes
  pos : Nat
  key : Bytes
  idx : Nat
  deriving DecidableEq, Repr

namespace XorStream

/-- `XorStream::with_key` (src/xor.rs:26-35). -/
def withKey (data : Bytes) (pos : Nat) (key : Bytes) : XorStream :=
  { data, pos, key := if key.isEmpty then [0] else key, idx := 0 }

/-- `self.key.next().unwrap_or(0)` at iterator state `idx` (src/xor.rs:43, 56). -/
def keyByte (key : Bytes) (idx : Nat) : UInt8 := key.getD (idx % key.length) 0

/-- The loops over a buffer that xor each byte with the next key byte
(src/xor.rs:41-44 and 52-58). -/
def xorBuf (key : Bytes) (idx : Nat) : Bytes → Bytes
  | [] => []
  | b :: bs => (b ^^^ keyByte key idx) :: xorBuf key (idx + 1) bs

/-- `Read::read` (src/xor.rs:38-48) into `buf`, when the inner stream offers to transfer up to `k`
bytes.  The inner stream fills the first `t` bytes; *all* of `buf` is xored and the key advances by
`buf.len()`. Returns the buffer and the reported count `t`. -/
def read (s : XorStream) (buf : Bytes) (k : Nat) : XorStream × Bytes × Nat :=
  let got := (s.data.drop s.pos).take (min k buf.length)
  let t := got.length
  let filled := got ++ buf.drop t
  ({ s with pos := s.pos + t, idx := s.idx + buf.length }, xorBuf s.key s.idx filled, t)

/-- `Write::write` (src/xor.rs:51-61) of `buf`, when the inner stream takes `k` bytes: the whole
buffer is encrypted (advancing the key by `buf.len()`), the inner stream stores the first `k`. -/
def write (s : XorStream) (buf : Bytes) (k : Nat) : XorStream × Nat :=
  let encrypted := xorBuf s.key s.idx buf
  let taken := encrypted.take k
  ({ s with data := Patch.apply s.data ⟨s.pos, taken⟩, pos := s.pos + taken.length,
            idx := s.idx + buf.length }, taken.length)

/-- `Seek::seek` (src/xor.rs:69-87).  `for _ in 0..offset { self.key.next(); }` is `idx + offset`. -/
def seek (s : XorStream) (to : SeekFrom) : Res (XorStream × Nat) :=
  let oldPosition := s.pos
  match to.target s.data.length s.pos with
  | .err e => .err e
  | .panic => .panic
  | .ok newPosition =>
    let keySize := s.key.length
    let offset :=
      if newPosition > oldPosition then (newPosition - oldPosition) % keySize
      else keySize - ((oldPosition - newPosition) % keySize)
    .ok ({ s with pos := newPosition, idx := s.idx + offset }, newPosition)

/-- `Read::read_exact` of `n` bytes as provided by `std`: repeat `read` on the unfilled rest of the
buffer.  `ks` are the transfer sizes the inner stream chooses.  Used for the readers behind `src/anlz.rs` 1108. -/
def readExact (s : XorStream) (n : Nat) : List Nat → XorStream × Bytes
  | [] => (s, [])
  | k :: ks =>
    let (s', buf, t) := s.read (List.replicate n 0) k
    if t = n then (s', buf)
    else
      let (s'', rest) := readExact s' (n - t) ks
      (s'', buf.take t ++ rest)

/-- `Write::write_all` as provided by `std`: repeat `write` on the rest of the buffer.  Used for the writers
behind `src/anlz.rs` 1125. -/
def writeAll (s : XorStream) (buf : Bytes) : List Nat → XorStream
  | [] => s
  | k :: ks =>
    let (s', t) := s.write buf k
    if t = buf.length then s' else writeAll s' (buf.drop t) ks

/-- One call on a stream whose inner transfers are complete.  The calls are those of `src/xor.rs` 38-88. -/
inductive Op where
  | read (n : Nat)
  | write (bs : Bytes)
  | seek (to : SeekFrom)
  deriving DecidableEq, Repr

/-- What a call gives back.  The calls are those of `src/xor.rs` 38-88. -/
inductive Out where
  | data (bs : Bytes)
  | count (n : Nat)
  | pos (n : Nat)
  | err (e : Err)
  deriving DecidableEq, Repr

/-- Perform one call with complete inner transfers.  The calls are those of `src/xor.rs` 38-88. -/
def step (s : XorStream) : Op → XorStream × Out
  | .read n =>
    let (s', buf, t) := s.read (List.replicate n 0) n
    (s', .data (buf.take t))
  | .write bs =>
    let (s', t) := s.write bs bs.length
    (s', .count t)
  | .seek to =>
    match s.seek to with
    | .ok (s', n) => (s', .pos n)
    | .err e => (s, .err e)
    | .panic => (s, .err .other)

/-- Perform a sequence of calls, collecting what they return.  The calls are those of `src/xor.rs` 38-88. -/
def run (s : XorStream) : List Op → XorStream × List Out
  | [] => (s, [])
  | op :: ops =>
    let (s', o) := s.step op
    let (s'', os) := run s' ops
    (s'', o :: os)

end XorStream
end Rekordcrate
