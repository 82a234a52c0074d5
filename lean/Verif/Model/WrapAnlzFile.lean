import Verif.Lemmas.WrapAnlz
import Verif.Model.AnlzFile

/-! # Whole analysis files in a build without overflow checks (`cargo build --release`) -/

namespace Rekordcrate.Anlz.AnlzFile

/-- The loop of `parse_sections`, `src/anlz.rs` 1184-1191.  That it gets closer to the final position with
every section is `AnlzSection.readWrap_progress`. -/
def parseSectionsWrap (fin : Nat) (d : Bytes) (p : Nat) : Res (List AnlzSection × Nat) :=
  if _hp : p < fin then
    match hs : AnlzSection.readWrap d p with
    | .ok (s, q) =>
      match parseSectionsWrap fin d q with
      | .ok (ss, r) => .ok (s :: ss, r)
      | .err e => .err e
      | .panic => .panic
    | .err e => .err e
    | .panic => .panic
  else .ok ([], p)
termination_by fin - p
decreasing_by have := AnlzSection.readWrap_progress hs; omega

/-- `parse_sections`, `src/anlz.rs` 1176-1192. -/
def readSectionsWrap (contentSize : Nat) : Rd (List AnlzSection) := fun d p =>
  parseSectionsWrap (p + contentSize) d p

/-- Derived `BinRead`, `src/anlz.rs` 1160-1173. -/
def readWrap : Rd AnlzFile := do
  let header ← Header.read
  Rd.require (header.kind == .file)
  let headerData ← Rd.bytes header.remainingSizeWrap
  let sections ← readSectionsWrap header.contentSizeWrap
  pure { header, headerData, sections }

/-- Derived `BinWrite`, `src/anlz.rs` 1160-1173. -/
def encWrap (a : AnlzFile) : Bytes := a.header.enc ++ (a.headerData ++ a.sections.flatMap AnlzSection.encWrap)

end Rekordcrate.Anlz.AnlzFile
