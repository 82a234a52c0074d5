import Verif.Spec.Layout
import Verif.Model.OffsetArray

/-! # Specification vocabulary for offset arrays -/

namespace Rekordcrate

/-- The alignment the format asks for: UTF-16 strings start at multiples of four, other strings
anywhere. -/
def DString.docAlign : DString → Nat
  | .long (.ucs2le _) => 4
  | _ => 1

/-- `Placed pos items offsets e`: the items are laid out one after the other from `pos` on, each at
the first suitably aligned place behind its predecessor; `e` is the end of the last one. -/
inductive Placed : Nat → List DString → List Nat → Nat → Prop where
  | nil (pos : Nat) : Placed pos [] [] pos
  | cons {pos o e : Nat} {v : DString} {vs : List DString} {os : List Nat} {bs : Bytes}
      (hle : pos ≤ o) (hlt : o < pos + v.docAlign) (hdvd : v.docAlign ∣ o) (henc : v.enc = .ok bs)
      (hrest : Placed (o + bs.length) vs os e) : Placed pos (v :: vs) (o :: os) e

/-- The offset `o` is stored at `p` with the given width. -/
def OffsetAt (d : Bytes) (p : Nat) : OffsetSize → Nat → Prop
  | .u8, o => ∃ b : UInt8, ByteAt d p b ∧ b.toNat = o
  | .u16, o => U16At d p o

/-- The largest offset plus one. -/
def OffsetSize.limit : OffsetSize → Nat
  | .u8 => 256
  | .u16 => 65536

/-- `as_items` and `from_items` are inverse to each other. -/
class LawfulItems (T : Type) [OffsetItems T] : Prop where
  length_asItems : ∀ t : T, (OffsetItems.asItems t).length = OffsetItems.count T
  fromItems_asItems : ∀ t : T, OffsetItems.fromItems (OffsetItems.asItems t) = t
  asItems_fromItems : ∀ l : List DString, l.length = OffsetItems.count T →
    OffsetItems.asItems (OffsetItems.fromItems l : T) = l

/-- The number of offsets in the array. -/
def OffsetArray.length : OffsetArray → Nat
  | .u8 os => os.length
  | .u16 os => os.length

/-- The array has the `N` offsets its Rust type `OffsetArray<N>` guarantees. -/
def OffsetContainer.WellTyped {T : Type} [OffsetItems T] (c : OffsetContainer T) : Prop :=
  ∀ a, c.offsets = some a → a.length = OffsetItems.count T

/-- The array that stores the given offsets. -/
def OffsetArray.ofNats (os : List Nat) : OffsetSize → OffsetArray
  | .u8 => .u8 (os.map UInt8.ofNat)
  | .u16 => .u16 (os.map UInt16.ofNat)

/-- `Resolved offset size c c'`: `c'` is `c` with calculated offsets replaced by the offsets of the
documented layout, for an offset array that starts `offset` bytes behind the start of the row.
Provided offsets stay what they are. -/
def OffsetContainer.Resolved {T : Type} [OffsetItems T] (offset : Nat) (size : OffsetSize)
    (c c' : OffsetContainer T) : Prop :=
  c'.inner = c.inner ∧
  match c.offsets with
  | some a => c'.offsets = some a
  | none => ∃ os e, Placed (offset + (OffsetItems.count T + 1) * size.bytes)
      (OffsetItems.asItems c.inner) os e ∧ (∀ o ∈ os, o < size.limit) ∧
      c'.offsets = some (OffsetArray.ofNats os size)

end Rekordcrate
