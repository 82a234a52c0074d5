import Verif.Spec.Rows
import Verif.Spec.Page

/-! # Specification vocabulary for inputs that make the row parser panic -/

namespace Rekordcrate

/-- The bytes at `p` look like a string of impossible length: a short string with the length byte 1, or a
long string that declares less than four bytes. -/
def BadString (d : Bytes) (p : Nat) : Prop :=
  d[p]? = some 1 ∨ ∃ b n, d[p]? = some b ∧ b.toNat % 2 = 0 ∧ U16At d (p + 1) n ∧ n < 4

/-- Where the strings of an offset array are looked for: at their offsets from the start `base` of the row,
but after a string that cannot be read the next offset counts from that string's position. -/
def stringPositions (d : Bytes) (base : Nat) : Nat → List Nat → List Nat
  | _, [] => []
  | cur, o :: os =>
    (cur + o) :: stringPositions d base (if (DString.read d (cur + o)).isOk then base else cur + o) os

/-- A row at `p` that starts with a subtype has, `head` bytes further on, an array of `count` offsets of the
width that the subtype asks for, and one of the strings is of impossible length. -/
def BadStringBehindOffsets (head count : Nat) (d : Bytes) (p : Nat) : Prop :=
  ∃ (subtype : UInt16) (os : OffsetArray), HasAt d p (encU16 subtype) ∧
    os.sizeMatches (docWidth subtype) = true ∧ os.length = count ∧ HasAt d (p + head) os.enc ∧
    ∃ q ∈ stringPositions d p p os.seeks, BadString d q

/-- There is a known colour at `p`. -/
def ColorAt (d : Bytes) (p : Nat) : Prop := ∃ b : UInt8, d[p]? = some b ∧ b.toNat ≤ 8

/-- The row of a `PlainPageType` at `p` has a string of impossible length, and nothing before the string
stops the parser. -/
def PlainPageType.BadRow (d : Bytes) (p : Nat) : PlainPageType → Prop
  | .albums => BadStringBehindOffsets 20 1 d p
  | .artists => BadStringBehindOffsets 8 1 d p
  | .tracks => ColorAt d (p + 88) ∧ BadStringBehindOffsets 92 21 d p
  | .colors => ColorAt d (p + 5) ∧ BadString d (p + 8)
  | .artwork | .genres | .historyPlaylists | .labels | .columns => BadString d (p + 4)
  | .keys => BadString d (p + 8)
  | .playlistTree => BadString d (p + 20)
  | .history =>
    HasAt d (p + 8) [0, 0, 0, 0] ∧
      (BadString d (p + 12) ∨ ∃ v q, DString.read d (p + 12) = .ok (v, q) ∧ HasAt d q [0x19, 0x1E] ∧
        (BadString d (q + 2) ∨ ∃ v' q', DString.read d (q + 2) = .ok (v', q') ∧ BadString d q'))
  | .playlistEntries | .historyEntries | .menu => False

/-- The row of a `PageType` at `p` has a string of impossible length, and nothing before the string stops the
parser. -/
def PageType.BadRow (d : Bytes) (p : Nat) : PageType → Prop
  | .plain t => t.BadRow d p
  | .ext .tag => BadStringBehindOffsets 28 2 d p
  | .ext .trackTag => False
  | .unknown _ => False

/-- The row groups `gs` are stored in front of position `e`, and these are all of the groups for `n` rows. -/
def GroupsAt (d : Bytes) (e n : Nat) (gs : List RowGroup) : Prop :=
  gs.length = (n + 15) / 16 ∧ 36 * gs.length ≤ e ∧ ∀ (k : Nat) g, gs[k]? = some g →
    g.rowOffsets.length = 16 ∧ HasAt d (e - 36 * k - 36) ((g.rowOffsets.flatMap encU16) ++
      (encU16 g.rowPresenceFlags ++ encU16 g.unknown))

end Rekordcrate
