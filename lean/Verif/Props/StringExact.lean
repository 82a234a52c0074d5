import Verif.Props.DString
import Verif.Lemmas.Layout

/-! # C06: exactly which parsed strings are written back as they were -/

namespace Rekordcrate

/-- C06: a parsed string is written back as exactly the bytes it was parsed from if and only if it is not an ISRC
with a declared length that differs from the number of bytes it consumed. -/
theorem string_parse_write_identity_iff {d : Bytes} {p p' : Nat} {v : DString} (h : DString.read d p = .ok (v, p')) :
    (∃ bs, v.enc = .ok bs ∧ HasAt d p bs ∧ p' = p + bs.length) ↔
      (v.IsIsrc → ∃ n, U16At d (p + 1) n ∧ p' = p + n) := by
  refine ⟨?_, string_parse_write_identity_partial h⟩
  rintro ⟨bs, he, hb, hq⟩ hi
  rcases DString.enc_eq_ok he with ⟨c, rfl, -⟩ | ⟨b, rfl, hl, rfl⟩
  · exact hi.elim
  · unfold longBytes at hb hq
    rw [HasAt.append_iff, HasAt.append_iff] at hb
    refine ⟨_, U16At.of_hasAt hb.2.1, ?_⟩
    rw [hq]
    simp [UInt16.toNat_ofNat']
    omega

/-- An ISRC with the right length. -/
example : ∃ v p', DString.read [0x90, 7, 0, 0, 3, 65, 0] 0 = .ok (v, p') ∧ v.IsIsrc ∧
    ∃ n, U16At [0x90, 7, 0, 0, 3, 65, 0] 1 n ∧ p' = 0 + n :=
  ⟨.long (.isrc [65]), 7, by decide +kernel, trivial, 7, ⟨7, 0, rfl, rfl, rfl⟩, rfl⟩

end Rekordcrate
