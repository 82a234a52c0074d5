import Verif.Model.Xml
import Verif.Spec.Page

/-! # Specification vocabulary for the XML part -/

namespace Rekordcrate
namespace Xml

/-! ## Numbers -/

/-- The characters are decimal digits with this value, at least one. -/
inductive Decimal : List Char → Nat → Prop where
  | digit {d : Nat} (h : d < 10) : Decimal [Char.ofNat (48 + d)] d
  | snoc {cs : List Char} {n d : Nat} (t : Decimal cs n) (h : d < 10) :
      Decimal (cs ++ [Char.ofNat (48 + d)]) (10 * n + d)

/-- The text is a `usize`: digits, possibly behind a plus sign, with a value below 2^64. -/
def UsizeText (s : String) (n : Nat) : Prop :=
  n < 2 ^ 64 ∧ (Decimal s.toList n ∨ ∃ cs, s.toList = '+' :: cs ∧ Decimal cs n)

/-- The text is an `i32`: digits, possibly behind a sign, with a value in the range. -/
def I32Text (s : String) (n : Int) : Prop :=
  -2147483648 ≤ n ∧ n ≤ 2147483647 ∧
    ((∃ m : Nat, n = m ∧ (Decimal s.toList m ∨ ∃ cs, s.toList = '+' :: cs ∧ Decimal cs m)) ∨
      ∃ (m : Nat) (cs : List Char), n = -(m : Int) ∧ s.toList = '-' :: cs ∧ Decimal cs m)

/-! ## Elements -/

/-- The name of an element. -/
def Elem.name : Elem → String
  | .mk n _ _ => n

/-- The attributes of an element. -/
def Elem.attrs : Elem → List (String × String)
  | .mk _ a _ => a

/-- The children of an element. -/
def Elem.children : Elem → List Elem
  | .mk _ _ c => c

/-- No two attributes have the same name, as XML demands. -/
def DistinctAttrs (l : List (String × String)) : Prop := (l.map Prod.fst).Nodup

/-- An attribute that the reader of nodes knows, with a number where there should be one. -/
def GoodAttr (a : String × String) : Prop :=
  a.1 = "Type" ∨ a.1 = "Name" ∨ a.1 = "KeyType" ∨ ((a.1 = "Count" ∨ a.1 = "Entries") ∧ ∃ n, UsizeText a.2 n)

/-- The children with this name stand together, and are these; there is at least one. -/
def RunOf (name : String) (children run : List Elem) : Prop :=
  ∃ a b, children = a ++ run ++ b ∧ run ≠ [] ∧ (∀ e ∈ run, e.name = name) ∧ ∀ e ∈ a ++ b, e.name ≠ name

/-- An element is inside another one, at any depth, or is the element itself. -/
inductive Elem.In : Elem → Elem → Prop where
  | self {e : Elem} : Elem.In e e
  | child {e c d : Elem} (h : c ∈ d.children) (t : Elem.In e c) : Elem.In e d

mutual
/-- The elements differ only in the order of attributes, at any depth. -/
inductive Reordered : Elem → Elem → Prop where
  | mk {name : String} {attrs attrs' : List (String × String)} {cs cs' : List Elem} (h : attrs.Perm attrs')
      (hc : ReorderedAll cs cs') : Reordered (.mk name attrs cs) (.mk name attrs' cs')
/-- The same for lists of elements. -/
inductive ReorderedAll : List Elem → List Elem → Prop where
  | nil : ReorderedAll [] []
  | cons {e e' : Elem} {es es' : List Elem} (h : Reordered e e') (t : ReorderedAll es es') :
      ReorderedAll (e :: es) (e' :: es')
end

/-- All attributes of the element, and of the nodes in it at any depth, are good. -/
def GoodNodes (e : Elem) : Prop := ∀ d : Elem, d.In e → d.name = "NODE" → ∀ a ∈ d.attrs, GoodAttr a

/-! ## Trees -/

mutual
/-- Every folder has nodes and every playlist has tracks. -/
def Node.Full : Node → Prop
  | .folder _ nodes => nodes ≠ [] ∧ FullAll nodes
  | .playlist _ _ tracks => tracks ≠ []
/-- The same for lists of nodes. -/
def FullAll : List Node → Prop
  | [] => True
  | x :: xs => x.Full ∧ FullAll xs
end

mutual
/-- The keys of tracks are `i32` values, and the lists fit in memory. -/
def Node.Sized : Node → Prop
  | .folder _ nodes => nodes.length < 2 ^ 64 ∧ SizedAll nodes
  | .playlist _ _ tracks => tracks.length < 2 ^ 64 ∧ ∀ k ∈ tracks, -2147483648 ≤ k ∧ k ≤ 2147483647
/-- The same for lists of nodes. -/
def SizedAll : List Node → Prop
  | [] => True
  | x :: xs => x.Sized ∧ SizedAll xs
end

end Xml
end Rekordcrate
