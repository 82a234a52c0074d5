import Verif.Lemmas.AnlzSection

/-! # Model of analysis files (`src/anlz.rs` 1156-1192)

The loop over the sections has no bound in the code.  Here it is a recursion on the distance to the final
position; that each step gets closer is `AnlzSection.read_progress`. -/

namespace Rekordcrate.Anlz

/-- `ANLZ`, `src/anlz.rs` 1163-1173. -/
structure AnlzFile where
  header : Header
  headerData : Bytes
  sections : List AnlzSection
  deriving DecidableEq, Repr

namespace AnlzFile

/-- The loop of `parse_sections`, `src/anlz.rs` 1184-1191. -/
def parseSections (fin : Nat) (d : Bytes) (p : Nat) : Res (List AnlzSection × Nat) :=
  if _hp : p < fin then
    match hs : AnlzSection.read d p with
    | .ok (s, q) =>
      match parseSections fin d q with
      | .ok (ss, r) => .ok (s :: ss, r)
      | .err e => .err e
      | .panic => .panic
    | .err e => .err e
    | .panic => .panic
  else .ok ([], p)
termination_by fin - p
decreasing_by have := AnlzSection.read_progress hs; omega

/-- `parse_sections`, `src/anlz.rs` 1176-1192: the sections up to the final position.  The `u64` addition is
not checked for overflow here: file positions are far below `2 ^ 64`. -/
def readSections (contentSize : Nat) : Rd (List AnlzSection) := fun d p =>
  parseSections (p + contentSize) d p

/-- Derived `BinRead`, `src/anlz.rs` 1160-1173. -/
def read : Rd AnlzFile := do
  let header ← Header.read
  Rd.require (header.kind == .file)
  let n ← Rd.lift header.remainingSize
  let headerData ← Rd.bytes n
  let m ← Rd.lift header.contentSize
  let sections ← readSections m
  pure { header, headerData, sections }

/-- Derived `BinWrite`, `src/anlz.rs` 1160-1173. -/
def enc (a : AnlzFile) : Res Bytes := do
  let sections ← encAll AnlzSection.enc a.sections
  .ok (a.header.enc ++ (a.headerData ++ sections))

end AnlzFile

end Rekordcrate.Anlz
