import Verif.Model.Io

/-!
# Specification vocabulary: what it means for an image to hold bytes somewhere
-/

namespace Rekordcrate

/-- The image `img` holds the bytes `bs` at position `p`. -/
def HasAt (img : Bytes) (p : Nat) (bs : Bytes) : Prop :=
  ∀ i, i < bs.length → img[p + i]? = bs[i]?

/-- Two images agree on every position of the half-open range `[lo, hi)`. -/
def AgreeOn (img img' : Bytes) (lo hi : Nat) : Prop :=
  ∀ i, lo ≤ i → i < hi → img[i]? = img'[i]?

/-- Two half-open ranges `[a, a+m)` and `[b, b+n)` have no position in common. -/
def DisjointRanges (a m b n : Nat) : Prop := a + m ≤ b ∨ b + n ≤ a

/-! ## Vocabulary for parsers and writers -/

/-- Round trip: reading where the image holds `bs` gives `a` and moves exactly behind `bs`,
whatever else the image contains. -/
def Rd.RT {α : Type} (r : Rd α) (bs : Bytes) (a : α) : Prop :=
  ∀ d p, HasAt d p bs → r d p = .ok (a, p + bs.length)

/-- Inverse direction: a successful parse consumed exactly bytes `bs` that are related to the result
by `enc`. -/
def Rd.Inv {α : Type} (r : Rd α) (enc : α → Bytes → Prop) : Prop :=
  ∀ d p a p', r d p = .ok (a, p') → ∃ bs, HasAt d p bs ∧ p' = p + bs.length ∧ enc a bs

/-- The parser never panics, on no image and at no position. -/
def Rd.NP {α : Type} (r : Rd α) : Prop := ∀ d p, r d p ≠ .panic

/-- The patch covers position `i`. -/
def Patch.Covers (q : Patch) (i : Nat) : Prop := q.off ≤ i ∧ i < q.off + q.bytes.length

/-- The image holds all the given writes. -/
def Contains (img : Bytes) (ps : List Patch) : Prop := ∀ q ∈ ps, HasAt img q.off q.bytes

/-- Patches occupy pairwise disjoint ranges. -/
def PatchesDisjoint (ps : List Patch) : Prop :=
  ps.Pairwise fun q r => DisjointRanges q.off q.bytes.length r.off r.bytes.length

/-- All the patches lie in the half-open range `[lo, hi)`. -/
def PatchesWithin (ps : List Patch) (lo hi : Nat) : Prop :=
  ∀ q ∈ ps, lo ≤ q.off ∧ q.off + q.bytes.length ≤ hi

end Rekordcrate
