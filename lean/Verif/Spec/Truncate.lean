import Verif.Spec.Layout

/-! # Specification vocabulary for truncated files -/

namespace Rekordcrate

/-- Every place of the file that looks like a long string with the mark of an ISRC (flags `0x90`, an even length,
a zero byte, `0x03`) has the NUL byte that ends an ISRC within that length.  ISRC strings that the code writes are
like this. -/
def IsrcsEnd (file : Bytes) : Prop :=
  ∀ i n, ByteAt file i 0x90 → U16At file (i + 1) n → n % 2 = 0 → ByteAt file (i + 3) 0 → ByteAt file (i + 4) 3 →
    ∃ z, i + 5 ≤ z ∧ z < i + n ∧ ByteAt file z 0

end Rekordcrate
