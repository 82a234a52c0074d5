import Verif.Lemmas.Header

/-! # Properties C08-C13, C27, C40: bit fields, page types, indices, alignment, file header -/

namespace Rekordcrate
open Rd

/-! ## C08: packed row counts -/

/-- C08: the three bytes are the little-endian number `num_rows + 8192 * num_rows_valid`. -/
theorem packed_row_counts_layout (c : PackedRowCounts) :
    ∃ b0 b1 b2 : UInt8, c.enc = [b0, b1, b2] ∧
      b0.toNat + 256 * b1.toNat + 65536 * b2.toNat = c.numRows.val + 8192 * c.numRowsValid.val := by
  have h1 := c.numRows.isLt
  have h2 := c.numRowsValid.isLt
  rw [c.enc_eq]
  refine ⟨_, _, _, rfl, ?_⟩
  simp only [UInt8.toNat_ofNat', Nat.mod_mod]
  omega

/-- C08: written counts are read back. -/
theorem packed_row_counts_roundtrip (c : PackedRowCounts) : RT PackedRowCounts.read c.enc c := c.rt

/-- C08: any three bytes are read as counts that are written as the same three bytes. -/
theorem packed_row_counts_bytes_roundtrip (b0 b1 b2 : UInt8) :
    ∃ c, RT PackedRowCounts.read [b0, b1, b2] c ∧ c.enc = [b0, b1, b2] := by
  refine ⟨.ofRaw (leDec [b0, b1, b2]), ?_, PackedRowCounts.enc_ofRaw rfl⟩
  exact RT.bind_pure (f := fun bs => PackedRowCounts.ofRaw (leDec bs)) (RT.bytes' (n := 3) rfl)

/-- C08: setters change only their own field and reject values that do not fit. -/
theorem packed_row_counts_setters (c : PackedRowCounts) (n : Nat) :
    (n < 8192 → ∃ c', c.setNumRows n = .ok c' ∧ c'.numRows.val = n ∧ c'.numRowsValid = c.numRowsValid) ∧
    (8192 ≤ n → c.setNumRows n = .panic) ∧
    (n < 2048 → ∃ c', c.setNumRowsValid n = .ok c' ∧ c'.numRowsValid.val = n ∧ c'.numRows = c.numRows) ∧
    (2048 ≤ n → c.setNumRowsValid n = .panic) := by
  refine ⟨fun h => ?_, fun h => ?_, fun h => ?_, fun h => ?_⟩
  · exact ⟨⟨⟨n, h⟩, c.numRowsValid⟩, by simp [PackedRowCounts.setNumRows, h], rfl, rfl⟩
  · simp [PackedRowCounts.setNumRows]; omega
  · exact ⟨⟨c.numRows, ⟨n, h⟩⟩, by simp [PackedRowCounts.setNumRowsValid, h], rfl, rfl⟩
  · simp [PackedRowCounts.setNumRowsValid]; omega

/-- C08: `from_all_valid` sets both counts, and works exactly when the count fits both fields
(the `as u16` conversion makes it accept counts modulo 65536). -/
theorem packed_row_counts_from_all_valid (n : Nat) (h : n < 65536) :
    (n < 2048 → ∃ c, PackedRowCounts.fromAllValid n = .ok c ∧ c.numRows.val = n ∧ c.numRowsValid.val = n) ∧
    (2048 ≤ n → PackedRowCounts.fromAllValid n = .panic) := by
  have hm : n % 65536 = n := Nat.mod_eq_of_lt h
  constructor
  · intro h2
    refine ⟨⟨⟨n, by omega⟩, ⟨n, h2⟩⟩, ?_, rfl, rfl⟩
    simp only [PackedRowCounts.fromAllValid, hm, PackedRowCounts.setNumRows,
      show n < 8192 by omega, dif_pos, Res.ok_bind, PackedRowCounts.setNumRowsValid, h2]
  · intro h2
    simp only [PackedRowCounts.fromAllValid, hm, PackedRowCounts.setNumRows,
      PackedRowCounts.setNumRowsValid, show ¬ n < 2048 by omega, dif_neg, not_false_eq_true]
    split <;> rfl

example : (⟨5, 3⟩ : PackedRowCounts).enc = [5, 0x60, 0] := by decide +kernel
example : RT PackedRowCounts.read [0xFF, 0xFF, 0x01] ⟨8191, 15⟩ :=
  packed_row_counts_roundtrip ⟨8191, 15⟩

/-! ## C09: row index arithmetic -/

/-- C09: exactly enough groups of 16. -/
theorem num_row_groups_is_least_cover (c : PackedRowCounts) :
    c.numRows.val ≤ 16 * c.numRowGroups ∧ ∀ g, c.numRows.val ≤ 16 * g → c.numRowGroups ≤ g := by
  unfold PackedRowCounts.numRowGroups
  constructor
  · split <;> omega
  · intro g hg; split <;> omega

/-- C09: the last slot is slot `(n-1) mod 16` of group `(n-1) div 16`; without rows there is none. -/
theorem last_row_index_spec (c : PackedRowCounts) :
    (c.numRows.val = 0 → c.lastRowIndex = none) ∧
    (∀ n, c.numRows.val = n + 1 → c.lastRowIndex = some (n / 16, n % 16)) := by
  constructor
  · intro h; simp [PackedRowCounts.lastRowIndex, PackedRowCounts.numRowGroups, h]
  · intro n h
    have hg : c.numRowGroups = n / 16 + 1 := by
      unfold PackedRowCounts.numRowGroups; rw [h]; split <;> omega
    simp [PackedRowCounts.lastRowIndex, hg, h]

/-- C09: counting one more row moves the last slot to the next slot in order, starting at slot 0 of
group 0. -/
theorem increment_moves_last_row (c c' : PackedRowCounts) (h : c.incrementNumRows = .ok c') :
    ∃ g s, c'.lastRowIndex = some (g, s) ∧ s < 16 ∧
      match c.lastRowIndex with
      | none => g = 0 ∧ s = 0
      | some (g0, s0) => if s0 = 15 then g = g0 + 1 ∧ s = 0 else g = g0 ∧ s = s0 + 1 := by
  have hn : c'.numRows.val = c.numRows.val + 1 := by
    unfold PackedRowCounts.incrementNumRows PackedRowCounts.setNumRows at h
    split at h
    · injection h with h; rw [← h]
    · cases h
  refine ⟨_, _, (last_row_index_spec c').2 _ hn, by omega, ?_⟩
  cases hc : c.numRows.val with
  | zero => rw [(last_row_index_spec c).1 hc]; simp
  | succ n =>
    rw [(last_row_index_spec c).2 n hc]
    simp only
    split
    · constructor <;> omega
    · constructor <;> omega

/-- C09: counting a row changes its own counter by one, and only that; it fails exactly when the
counter is full. -/
theorem increment_counts (c : PackedRowCounts) :
    ((∃ c', c.incrementNumRows = .ok c' ∧ c'.numRows.val = c.numRows.val + 1 ∧
        c'.numRowsValid = c.numRowsValid) ↔ c.numRows.val < 8191) ∧
    ((∃ c', c.incrementNumRowsValid = .ok c' ∧ c'.numRowsValid.val = c.numRowsValid.val + 1 ∧
        c'.numRows = c.numRows) ↔ c.numRowsValid.val < 2047) ∧
    (c.incrementNumRows = .panic ↔ c.numRows.val = 8191) ∧
    (c.incrementNumRowsValid = .panic ↔ c.numRowsValid.val = 2047) := by
  have h1 := c.numRows.isLt
  have h2 := c.numRowsValid.isLt
  unfold PackedRowCounts.incrementNumRows PackedRowCounts.incrementNumRowsValid
    PackedRowCounts.setNumRows PackedRowCounts.setNumRowsValid
  refine ⟨?_, ?_, ?_, ?_⟩
  · by_cases h : c.numRows.val + 1 < 8192
    · simp only [h, dif_pos]; exact ⟨fun _ => by omega, fun _ => ⟨_, rfl, rfl, rfl⟩⟩
    · simp only [h, dif_neg]; simp; omega
  · by_cases h : c.numRowsValid.val + 1 < 2048
    · simp only [h, dif_pos]; exact ⟨fun _ => by omega, fun _ => ⟨_, rfl, rfl, rfl⟩⟩
    · simp only [h, dif_neg]; simp; omega
  · by_cases h : c.numRows.val + 1 < 8192
    · simp only [h, dif_pos]; simp; omega
    · simp only [h, dif_neg]; simp; omega
  · by_cases h : c.numRowsValid.val + 1 < 2048
    · simp only [h, dif_pos]; simp; omega
    · simp only [h, dif_neg]; simp; omega

example : (⟨16, 0⟩ : PackedRowCounts).lastRowIndex = some (0, 15) := by decide +kernel
example : (⟨16, 0⟩ : PackedRowCounts).incrementNumRows = .ok ⟨17, 0⟩ := by decide +kernel
example : (⟨17, 0⟩ : PackedRowCounts).lastRowIndex = some (1, 0) := by decide +kernel

/-! ## C10: page flags -/

/-- C10: flags survive a write/read cycle. -/
theorem page_flags_roundtrip (f : PageFlags) : RT PageFlags.read f.enc f := f.rt

/-- C10: every byte is read as flags that are written as the same byte, and each flag is the bit the
format says: deleted marker bit 4, index page bit 6. -/
theorem page_flags_bits (b : UInt8) :
    ∃ f, RT PageFlags.read [b] f ∧ f.enc = [b] ∧
      f.unknown0 = b.toNat.testBit 0 ∧ f.unknown1 = b.toNat.testBit 1 ∧
      f.unknown2 = b.toNat.testBit 2 ∧ f.unknown3 = b.toNat.testBit 3 ∧
      f.containsDeleted = b.toNat.testBit 4 ∧ f.unknown5 = b.toNat.testBit 5 ∧
      f.isIndexPage = b.toNat.testBit 6 ∧ f.unknown7 = b.toNat.testBit 7 := by
  have key : ∀ n : Fin 256,
      (PageFlags.ofRaw n.val).unknown0 = n.val.testBit 0 ∧ (PageFlags.ofRaw n.val).unknown1 = n.val.testBit 1 ∧
      (PageFlags.ofRaw n.val).unknown2 = n.val.testBit 2 ∧ (PageFlags.ofRaw n.val).unknown3 = n.val.testBit 3 ∧
      (PageFlags.ofRaw n.val).containsDeleted = n.val.testBit 4 ∧ (PageFlags.ofRaw n.val).unknown5 = n.val.testBit 5 ∧
      (PageFlags.ofRaw n.val).isIndexPage = n.val.testBit 6 ∧ (PageFlags.ofRaw n.val).unknown7 = n.val.testBit 7 := by
    decide +kernel
  refine ⟨.ofRaw (leDec [b]), ?_, PageFlags.enc_ofRaw rfl, ?_⟩
  · exact RT.bind_pure (f := fun bs => PageFlags.ofRaw (leDec bs)) (RT.bytes' (n := 1) rfl)
  · have := key ⟨b.toNat, b.toNat_lt⟩
    simpa [leDec] using this

/-- C10: flag bytes of fresh pages. -/
theorem page_flags_constructors :
    PageFlags.newDataPage.enc = [0x24] ∧ PageFlags.newIndexPage.enc = [0x64] := by decide +kernel

example : RT PageFlags.read [0x34] ⟨false, false, true, false, true, true, false, false⟩ :=
  page_flags_roundtrip ⟨false, false, true, false, true, true, false, false⟩

/-! ## C11: index entries -/

theorem IndexEntry.raw_tryFrom {page : PageIndex} {flags : UInt8} (hp : page.val.toNat < 0x03FFFFFF)
    (hf : flags.toNat < 8) :
    ∃ e, IndexEntry.tryFrom page flags = .ok e ∧ e.raw.toNat = 8 * page.val.toNat + flags.toNat := by
  have h7 : flags &&& 7 = flags := by
    have key : ∀ n : Fin 256, n.val < 8 → (UInt8.ofNat n.val) &&& 7 = UInt8.ofNat n.val := by
      decide +kernel
    have := key ⟨flags.toNat, flags.toNat_lt⟩ hf
    simpa using this
  refine ⟨_, by simp [IndexEntry.tryFrom, h7]; rfl, ?_⟩
  simp only [UInt32.toNat_or, UInt32.toNat_shiftLeft, UInt8.toNat_toUInt32]
  rw [show (3 : UInt32).toNat % 32 = 3 from rfl, Nat.shiftLeft_eq, Nat.mod_eq_of_lt (by omega),
    Nat.mul_comm, show (8 * page.val.toNat) = 2 ^ 3 * page.val.toNat from rfl]
  exact (Nat.two_pow_add_eq_or_of_lt (i := 3) (by omega) page.val.toNat).symm

/-- C11: an index entry for a page that `PageIndex::try_from` accepts and flags up to 7 gives both
back, is not the empty marker, and survives a write/read cycle. -/
theorem index_entry_roundtrip (v : UInt32) (page : PageIndex) (flags : UInt8)
    (hp : PageIndex.tryFrom v = .ok page) (hf : flags.toNat ≤ 7) :
    ∃ e, IndexEntry.tryFrom page flags = .ok e ∧ e.pageIndex = .ok page ∧ e.indexFlags = flags ∧
      e.isEmpty = false ∧ RT IndexEntry.read e.enc e := by
  have hv : v < 0x03FFFFFF ∧ page = ⟨v⟩ := by
    unfold PageIndex.tryFrom at hp
    split at hp
    · rename_i h
      injection hp with hp
      exact ⟨h, hp.symm⟩
    · cases hp
  obtain ⟨hlt, rfl⟩ := hv
  have hlt' : v.toNat < 0x03FFFFFF := by
    have := UInt32.lt_iff_toNat_lt.1 hlt
    simpa using this
  obtain ⟨e, he, hr⟩ := IndexEntry.raw_tryFrom (page := ⟨v⟩) (flags := flags) hlt' (by omega)
  refine ⟨e, he, ?_, ?_, ?_, e.rt⟩
  · have : e.raw >>> 3 = v := by
      apply UInt32.toNat_inj.1
      rw [UInt32.toNat_shiftRight, show (3 : UInt32).toNat % 32 = 3 from rfl, Nat.shiftRight_eq_div_pow, hr]
      simp only
      omega
    simp [IndexEntry.pageIndex, this, PageIndex.tryFrom, hlt]
  · apply UInt8.toNat_inj.1
    simp only [IndexEntry.indexFlags, UInt32.toNat_toUInt8, UInt32.toNat_and]
    rw [show (7 : UInt32).toNat = 2 ^ 3 - 1 from rfl, Nat.and_two_pow_sub_one_eq_mod, hr]
    simp only
    omega
  · simp only [IndexEntry.isEmpty, beq_eq_false_iff_ne, ne_eq]
    intro h
    have := congrArg UInt32.toNat h
    rw [hr] at this
    simp only [UInt32.reduceToNat] at this
    omega

/-- C11: flags above 7 are rejected. -/
theorem index_entry_rejects_flags (page : PageIndex) (flags : UInt8) (hf : 8 ≤ flags.toNat) :
    IndexEntry.tryFrom page flags = .err (.invalidIndexFlags flags.toNat) := by
  have key : ∀ n : Fin 256, 8 ≤ n.val → ¬ ((UInt8.ofNat n.val) &&& 7 = UInt8.ofNat n.val) := by
    decide +kernel
  have := key ⟨flags.toNat, flags.toNat_lt⟩ hf
  simp only [UInt8.ofNat_toNat] at this
  simp [IndexEntry.tryFrom, this]

/-- C11: the empty marker is empty and has no page index. -/
theorem index_entry_empty : IndexEntry.empty.isEmpty = true ∧
    ∀ i, IndexEntry.empty.pageIndex ≠ .ok i := by
  constructor
  · decide
  · intro i h
    rw [show IndexEntry.empty.pageIndex = .err (.invalidPageIndex 0x03FFFFFF) by decide +kernel] at h
    cases h

/-- C11: `PageIndex::try_from` accepts exactly the values below `0x03FFFFFF`. -/
theorem page_index_try_from (v : UInt32) :
    (v.toNat < 0x03FFFFFF → PageIndex.tryFrom v = .ok ⟨v⟩) ∧
    (0x03FFFFFF ≤ v.toNat → PageIndex.tryFrom v = .err (.invalidPageIndex v.toNat)) := by
  constructor
  · intro h
    have : v < 0x03FFFFFF := UInt32.lt_iff_toNat_lt.2 h
    simp [PageIndex.tryFrom, this]
  · intro h
    have : ¬ v < 0x03FFFFFF := fun h' => by
      have := UInt32.lt_iff_toNat_lt.1 h'
      simp only [UInt32.reduceToNat] at this
      omega
    simp [PageIndex.tryFrom, this]

example : ∃ e, IndexEntry.tryFrom ⟨5⟩ 3 = .ok e ∧ e.raw = 43 := ⟨_, rfl, rfl⟩

/-- An index entry read from a file need not hold a valid page index, and then formatting it with
`Debug` panics. -/
theorem index_entry_debug_can_panic : ∃ e, RT IndexEntry.read [0xFF, 0xFF, 0xFF, 0xFF] e ∧
    e.debugFmt = .panic :=
  ⟨⟨0xFFFFFFFF⟩, IndexEntry.rt ⟨0xFFFFFFFF⟩, by decide⟩

/-! ## C12: page type codes -/

/-- C12: every code parses, to the documented page type (or `Unknown` with this code), which is
written as the same code. -/
theorem page_type_code_roundtrip (db : DatabaseType) (c : UInt32) :
    RT (PageType.read db) (encU32 c) (pageTypeOfCode db c) ∧
      (pageTypeOfCode db c).enc = encU32 c :=
  ⟨PageType.rt_code db c, pageTypeOfCode_enc db c⟩

/-- C12: different codes never parse to the same page type. -/
theorem page_type_codes_disjoint (db : DatabaseType) (img img' : Bytes) (p p' q q' : Nat)
    (t : PageType) (c c' : UInt32) (hc : HasAt img p (encU32 c)) (hc' : HasAt img' p' (encU32 c'))
    (h : PageType.read db img p = .ok (t, q)) (h' : PageType.read db img' p' = .ok (t, q')) :
    c = c' := by
  rw [(page_type_code_roundtrip db c).1 img p hc] at h
  rw [(page_type_code_roundtrip db c').1 img' p' hc'] at h'
  simp only [Res.ok.injEq, Prod.mk.injEq] at h h'
  apply encU32_inj
  rw [← (page_type_code_roundtrip db c).2, ← (page_type_code_roundtrip db c').2, h.1, h'.1]

example : pageTypeOfCode .plain 19 = .plain .history := by decide +kernel
example : pageTypeOfCode .plain 9 = .unknown 9 := by decide +kernel
example : pageTypeOfCode .ext 3 = .ext .tag := by decide +kernel
example : HasAt [1, 0, 0, 0] 0 (encU32 1) := hasAt_self _

/-! ## C13: page offsets -/

/-- C13: the offset is the product, without overflow. -/
theorem page_offset_no_overflow (i : PageIndex) (pageSize : UInt32) :
    i.offset pageSize = .ok (i.val.toNat * pageSize.toNat) := by
  have h1 := i.val.toNat_lt
  have h2 := pageSize.toNat_lt
  have : i.val.toNat * pageSize.toNat ≤ (2 ^ 32 - 1) * (2 ^ 32 - 1) :=
    Nat.mul_le_mul (by omega) (by omega)
  rw [PageIndex.offset, if_pos (by omega)]

/-- C13: different pages occupy disjoint byte ranges. -/
theorem page_ranges_disjoint (i j : PageIndex) (pageSize : UInt32) (h : i ≠ j) (oi oj : Nat)
    (hi : i.offset pageSize = .ok oi) (hj : j.offset pageSize = .ok oj) :
    DisjointRanges oi pageSize.toNat oj pageSize.toNat := by
  rw [page_offset_no_overflow] at hi hj
  injection hi with hi
  injection hj with hj
  subst hi hj
  have hne : i.val.toNat ≠ j.val.toNat := by
    intro h'
    apply h
    obtain ⟨a⟩ := i
    obtain ⟨b⟩ := j
    simp only [UInt32.toNat_inj] at h'
    rw [h']
  unfold DisjointRanges
  rcases Nat.lt_or_gt_of_ne hne with h' | h'
  · left
    rw [← Nat.succ_mul]
    exact Nat.mul_le_mul_right _ h'
  · right
    rw [← Nat.succ_mul]
    exact Nat.mul_le_mul_right _ h'

example : (⟨3⟩ : PageIndex).offset 4096 = .ok 12288 := by decide +kernel

/-! ## C27: alignment -/

/-- C27: `align_by` returns the least multiple of the alignment that is not below the offset.  It
does not panic unless that multiple does not fit in a `u64`. -/
theorem align_by_least_multiple (a o : Nat) (ha : 0 < a) (r : Nat) (h : alignBy a o = .ok r) :
    a ∣ r ∧ o ≤ r ∧ ∀ m, a ∣ m → o ≤ m → r ≤ m := by
  unfold alignBy at h
  rw [if_neg (by omega)] at h
  split at h
  · rename_i h0
    injection h with h
    subst h
    exact ⟨Nat.dvd_of_mod_eq_zero h0, Nat.le_refl _, fun m _ hm => hm⟩
  · rename_i h0
    simp only at h
    split at h
    · injection h with h
      subst h
      have hlt := Nat.mod_lt o ha
      have hdm := Nat.div_add_mod o a
      have e : o + (a - o % a) = a * (o / a + 1) := by
        rw [Nat.mul_add]; omega
      refine ⟨⟨_, e⟩, by omega, ?_⟩
      rintro m ⟨k, rfl⟩ hm
      rw [e]
      apply Nat.mul_le_mul_left
      have : o / a < k := by
        rcases Nat.lt_or_ge (o / a) k with h | h
        · exact h
        · have := Nat.mul_le_mul_left a h
          omega
      omega
    · cases h

/-- C27: it succeeds whenever the result fits in 64 bits. -/
theorem align_by_total (a o : Nat) (ha : 0 < a) (h : o + a ≤ 2 ^ 64) :
    ∃ r, alignBy a o = .ok r := by
  unfold alignBy
  rw [if_neg (by omega)]
  split
  · exact ⟨_, rfl⟩
  · rename_i h0
    rw [if_pos]
    · exact ⟨_, rfl⟩
    · have := Nat.mod_lt o ha
      omega

example : alignBy 4 13 = .ok 16 := by decide +kernel
example : alignBy 4 16 = .ok 16 := by decide +kernel

/-! ## C40: file header -/

/-- C40: a header whose table count is right survives a write/read cycle. -/
theorem header_roundtrip (db : DatabaseType) (h : Header) (hc : h.Consistent db) :
    RT (Header.read db) h.enc h := h.rt db hc

/-- C40: headers that were read are consistent, and writing them gives the bytes they came from. -/
theorem header_read_write (db : DatabaseType) (img : Bytes) (p p' : Nat) (h : Header)
    (hr : Header.read db img p = .ok (h, p')) :
    h.Consistent db ∧ HasAt img p h.enc ∧ p' = p + h.enc.length := by
  obtain ⟨bs, h1, h2, h3⟩ := Header.inv db img p h p' hr
  subst h3
  exact ⟨Header.read_consistent hr, h1, h2⟩

/-- C40: reading a header never panics. -/
theorem header_read_no_panic (db : DatabaseType) (img : Bytes) (p : Nat) :
    Header.read db img p ≠ .panic := Header.np db img p

theorem Header.findFrom_spec (pt : PageType) (ts : List Table) (i : Nat) :
    (Header.findFrom pt i ts = none ↔ ∀ t ∈ ts, t.pageType ≠ pt) ∧
    (∀ k t, Header.findFrom pt i ts = some (k, t) →
      ∃ j, k = i + j ∧ ts[j]? = some t ∧ t.pageType = pt ∧ ∀ j' < j, ∀ t', ts[j']? = some t' → t'.pageType ≠ pt) := by
  induction ts generalizing i with
  | nil => simp [Header.findFrom]
  | cons a ts ih =>
    obtain ⟨ih1, ih2⟩ := ih (i + 1)
    by_cases ha : a.pageType = pt
    · constructor
      · simp [Header.findFrom, ha]
      · intro k t h
        simp only [Header.findFrom, ha, if_true, Option.some.injEq, Prod.mk.injEq] at h
        obtain ⟨rfl, rfl⟩ := h
        exact ⟨0, rfl, rfl, ha, fun j' hj' => absurd hj' (by omega)⟩
    · constructor
      · simp [Header.findFrom, ha, ih1]
      · intro k t h
        simp only [Header.findFrom, ha, if_false] at h
        obtain ⟨j, rfl, h1, h2, h3⟩ := ih2 k t h
        refine ⟨j + 1, by omega, by simpa using h1, h2, ?_⟩
        intro j' hj' t' ht'
        cases j' with
        | zero => simp at ht'; rw [← ht']; exact ha
        | succ j' => exact h3 j' (by omega) t' (by simpa using ht')

/-- C40: `find_table` returns the first table with the page type, with its index, and nothing exactly
if there is none. -/
theorem find_table_first (h : Header) (pt : PageType) :
    (h.findTable pt = none ↔ ∀ t ∈ h.tables, t.pageType ≠ pt) ∧
    (∀ i t, h.findTable pt = some (i, t) → h.tables[i]? = some t ∧ t.pageType = pt ∧
      ∀ j < i, ∀ t', h.tables[j]? = some t' → t'.pageType ≠ pt) := by
  obtain ⟨h1, h2⟩ := Header.findFrom_spec pt h.tables 0
  refine ⟨h1, fun i t hi => ?_⟩
  obtain ⟨j, rfl, h3, h4, h5⟩ := h2 i t hi
  simp only [Nat.zero_add]
  exact ⟨h3, h4, h5⟩

/-- A small consistent header. -/
def sampleHeader : Header :=
  { pageSize := 4096, numTables := 2, nextUnusedPage := ⟨7⟩, unknown := 5, sequence := 9
    tables := [⟨.plain .tracks, 0, ⟨1⟩, ⟨2⟩⟩, ⟨.unknown 9, 0, ⟨3⟩, ⟨3⟩⟩] }

theorem sampleHeader_consistent : sampleHeader.Consistent .plain := by
  refine ⟨rfl, ?_⟩
  intro t ht
  simp only [sampleHeader, List.mem_cons, List.not_mem_nil, or_false] at ht
  rcases ht with rfl | rfl
  · exact ⟨0, by decide +kernel⟩
  · exact ⟨9, by decide +kernel⟩

example : RT (Header.read .plain) sampleHeader.enc sampleHeader :=
  header_roundtrip _ _ sampleHeader_consistent
example : sampleHeader.findTable (.unknown 9) = some (1, ⟨.unknown 9, 0, ⟨3⟩, ⟨3⟩⟩) := by decide +kernel

end Rekordcrate
