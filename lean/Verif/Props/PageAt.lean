import Verif.Props.PageLayout
import Verif.Props.RowAt
import Verif.Props.RowPanic
import Verif.Spec.PageAt

/-! # C95: exactly which bytes are read as the header of a database and as a page -/

namespace Rekordcrate
open Rd

/-! ## Headers -/

theorem pageType_read_iff {db : DatabaseType} {d : Bytes} {p : Nat} {t : PageType} {q : Nat} :
    PageType.read db d p = .ok (t, q) ↔ PageType.At db d p t ∧ q = p + 4 := by
  rw [exact_of (enc := PageType.enc) (C := PageType.ValidFor db) (PageType.inv db) (fun _ _ _ _ => PageType.read_valid)
    (PageType.rt db), PageType.enc_length, ← and_assoc]
  refine and_congr ?_ Iff.rfl
  constructor
  · rintro ⟨⟨c, rfl⟩, h⟩
    rw [pageTypeOfCode_enc, hasAt_u32_iff] at h
    exact ⟨c, h, rfl⟩
  · rintro ⟨c, h, rfl⟩
    rw [pageTypeOfCode_enc, hasAt_u32_iff]
    exact ⟨⟨c, rfl⟩, h⟩

theorem pageIndex_read_iff {d : Bytes} {p : Nat} {t : PageIndex} {q : Nat} :
    PageIndex.read d p = .ok (t, q) ↔ U32At d p t.val.toNat ∧ q = p + 4 := by
  unfold PageIndex.read
  simp only [bind_eq_ok, pure_eq_ok, u32_read_iff]
  constructor
  · rintro ⟨_, _, ⟨h, rfl⟩, rfl, rfl⟩
    exact ⟨h, rfl⟩
  · rintro ⟨h, rfl⟩
    exact ⟨_, _, ⟨h, rfl⟩, rfl, rfl⟩

theorem table_read_iff {db : DatabaseType} {d : Bytes} {p : Nat} {t : Table} {q : Nat} :
    Table.read db d p = .ok (t, q) ↔ Table.At db d p t ∧ q = p + 16 := by
  unfold Table.read Table.At
  simp only [bind_eq_ok, pure_eq_ok, u32_read_iff, pageType_read_iff, pageIndex_read_iff]
  constructor
  · rintro ⟨_, _, ⟨h1, rfl⟩, _, _, ⟨h2, rfl⟩, _, _, ⟨h3, rfl⟩, _, _, ⟨h4, rfl⟩, rfl, rfl⟩
    exact ⟨⟨h1, h2, h3, h4⟩, rfl⟩
  · rintro ⟨⟨h1, h2, h3, h4⟩, rfl⟩
    exact ⟨_, _, ⟨h1, rfl⟩, _, _, ⟨h2, rfl⟩, _, _, ⟨h3, rfl⟩, _, _, ⟨h4, rfl⟩, rfl, rfl⟩

theorem many_read_iff {α : Type} {r : Rd α} {A : Nat → α → Prop} {k : Nat} {d : Bytes}
    (h : ∀ p a q, r d p = .ok (a, q) ↔ A p a ∧ q = p + k) {n p : Nat} {l : List α} {q : Nat} :
    Rd.many r n d p = .ok (l, q) ↔ l.length = n ∧ (∀ (i : Nat) a, l[i]? = some a → A (p + k * i) a) ∧ q = p + k * n := by
  induction n generalizing p l q with
  | zero =>
    rw [Rd.many, pure_eq_ok]
    constructor
    · rintro ⟨rfl, rfl⟩
      exact ⟨rfl, fun i a h => by simp at h, by simp⟩
    · rintro ⟨h1, -, rfl⟩
      exact ⟨(List.length_eq_zero_iff.1 h1).symm, by simp⟩
  | succ n ih =>
    rw [Rd.many]
    simp only [bind_eq_ok, pure_eq_ok, h, ih]
    constructor
    · rintro ⟨a, _, ⟨h1, rfl⟩, as, _, ⟨h2, h3, rfl⟩, rfl, rfl⟩
      refine ⟨by rw [List.length_cons, h2], ?_, by rw [Nat.mul_succ]; omega⟩
      intro i b hb
      cases i with
      | zero => simp at hb; subst hb; simpa using h1
      | succ i =>
        have := h3 i b (by simpa using hb)
        rwa [show p + k * (i + 1) = p + k + k * i by rw [Nat.mul_succ]; omega]
    · rintro ⟨h1, h2, rfl⟩
      cases l with
      | nil => simp at h1
      | cons a as =>
        refine ⟨a, _, ⟨by simpa using h2 0 a rfl, rfl⟩, as, _, ⟨by simpa using h1, ?_, rfl⟩, rfl,
          by rw [Nat.mul_succ]; omega⟩
        intro i b hb
        have := h2 (i + 1) b (by simpa using hb)
        rwa [show p + k * (i + 1) = p + k + k * i by rw [Nat.mul_succ]; omega] at this

/-- C95: the header of a database is read exactly if its fields are at their positions and there are as many tables as
it declares. -/
theorem header_read_iff {db : DatabaseType} {d : Bytes} {p : Nat} {h : Header} {q : Nat} :
    Header.read db d p = .ok (h, q) ↔ Header.At db d p h ∧ q = p + 28 + 16 * h.tables.length := by
  unfold Header.read Header.At
  simp only [bind_eq_ok, pure_eq_ok, u32_read_iff, pageIndex_read_iff, magic32_read_iff,
    many_read_iff (fun _ _ _ => table_read_iff)]
  constructor
  · rintro ⟨_, _, ⟨h0, rfl⟩, _, _, ⟨h1, rfl⟩, _, _, ⟨h2, rfl⟩, _, _, ⟨h3, rfl⟩, _, _, ⟨h4, rfl⟩, _, _, ⟨h5, rfl⟩,
      _, _, ⟨h6, rfl⟩, _, _, ⟨h7, h8, rfl⟩, rfl, rfl⟩
    exact ⟨⟨h0, h1, by rw [h7]; exact h2, h7, h3, h4, h5, h6, h8⟩, by rw [h7]⟩
  · rintro ⟨⟨h0, h1, h2, h7, h3, h4, h5, h6, h8⟩, rfl⟩
    rw [h7] at h2 ⊢
    exact ⟨(), _, ⟨h0, rfl⟩, _, _, ⟨h1, rfl⟩, _, _, ⟨h2, rfl⟩, _, _, ⟨h3, rfl⟩, _, _, ⟨h4, rfl⟩, _, _, ⟨h5, rfl⟩,
      (), _, ⟨h6, rfl⟩, _, _, ⟨h7, h8, rfl⟩, rfl, rfl⟩

theorem counts_read_iff {d : Bytes} {p : Nat} {c : PackedRowCounts} {q : Nat} :
    PackedRowCounts.read d p = .ok (c, q) ↔ U24At d p (c.numRows.val + 8192 * c.numRowsValid.val) ∧ q = p + 3 := by
  rw [exact_of (enc := PackedRowCounts.enc) (C := fun _ => True) PackedRowCounts.inv (fun _ _ _ _ _ => trivial)
    (fun c _ => PackedRowCounts.rt c), PackedRowCounts.enc_length]
  simp only [true_and]
  refine and_congr ?_ Iff.rfl
  obtain ⟨b0, b1, b2, he, hv⟩ := packed_row_counts_layout c
  rw [he, ← hv]
  constructor
  · intro h
    exact ⟨b0, b1, b2, by simpa [ByteAt] using h 0 (by simp), by simpa [ByteAt] using h 1 (by simp),
      by simpa [ByteAt] using h 2 (by simp), rfl⟩
  · rintro ⟨c0, c1, c2, h0, h1, h2, h⟩
    have l0 := b0.toNat_lt
    have l1 := b1.toNat_lt
    have l2 := b2.toNat_lt
    have m0 := c0.toNat_lt
    have m1 := c1.toNat_lt
    have m2 := c2.toNat_lt
    have e0 : b0 = c0 := UInt8.toNat_inj.1 (by omega)
    have e1 : b1 = c1 := UInt8.toNat_inj.1 (by omega)
    have e2 : b2 = c2 := UInt8.toNat_inj.1 (by omega)
    subst e0 e1 e2
    intro i hi
    match i with
    | 0 => exact h0
    | 1 => exact h1
    | 2 => exact h2
    | i + 3 => simp at hi

private theorem flags_ofRaw : ∀ b : Fin 256, PageFlags.ofRaw b.val =
    ⟨b.val.testBit 0, b.val.testBit 1, b.val.testBit 2, b.val.testBit 3, b.val.testBit 4, b.val.testBit 5,
      b.val.testBit 6, b.val.testBit 7⟩ := by decide +kernel

theorem flags_read_iff {d : Bytes} {p : Nat} {f : PageFlags} {q : Nat} :
    PageFlags.read d p = .ok (f, q) ↔ PageFlags.At d p f ∧ q = p + 1 := by
  have hr : PageFlags.read d p = .ok (f, q) ↔ ∃ b, ByteAt d p b ∧ PageFlags.ofRaw b.toNat = f ∧ q = p + 1 := by
    unfold PageFlags.read
    simp only [bind_eq_ok, pure_eq_ok]
    constructor
    · rintro ⟨bs, _, h, rfl, rfl⟩
      obtain ⟨h1, h2, rfl⟩ := bytes_eq_ok.1 h
      obtain ⟨b, rfl⟩ := List.length_eq_one_iff.1 h1
      exact ⟨b, hasAt_u8_iff.1 h2, rfl, rfl⟩
    · rintro ⟨b, hb, rfl, rfl⟩
      exact ⟨[b], _, bytes_eq_ok.2 ⟨rfl, hasAt_u8_iff.2 hb, rfl⟩, rfl, rfl⟩
  rw [hr]
  constructor
  · rintro ⟨b, hb, rfl, rfl⟩
    refine ⟨⟨b, hb, ?_⟩, rfl⟩
    rw [flags_ofRaw ⟨b.toNat, b.toNat_lt⟩]
    exact ⟨rfl, rfl, rfl, rfl, rfl, rfl, rfl, rfl⟩
  · rintro ⟨⟨b, hb, h0, h1, h2, h3, h4, h5, h6, h7⟩, rfl⟩
    refine ⟨b, hb, ?_, rfl⟩
    rw [flags_ofRaw ⟨b.toNat, b.toNat_lt⟩]
    simp only [h0, h1, h2, h3, h4, h5, h6, h7]

/-- C95: the header of a page is read exactly if its fields are at their positions. -/
theorem page_header_read_iff {db : DatabaseType} {d : Bytes} {p : Nat} {h : PageHeader} {q : Nat} :
    PageHeader.read db d p = .ok (h, q) ↔ PageHeader.At db d p h ∧ q = p + 32 := by
  unfold PageHeader.read PageHeader.At
  simp only [bind_eq_ok, pure_eq_ok, u32_read_iff, u16_ok_iff, pageIndex_read_iff, pageType_read_iff, magic32_read_iff,
    counts_read_iff, flags_read_iff]
  constructor
  · rintro ⟨_, _, ⟨h0, rfl⟩, _, _, ⟨h1, rfl⟩, _, _, ⟨h2, rfl⟩, _, _, ⟨h3, rfl⟩, _, _, ⟨h4, rfl⟩, _, _, ⟨h5, rfl⟩,
      _, _, ⟨h6, rfl⟩, _, _, ⟨h7, rfl⟩, _, _, ⟨h8, rfl⟩, _, _, ⟨h9, rfl⟩, rfl, rfl⟩
    exact ⟨⟨h0, h1, h2, h3, h4, h5, h6, h7, h8, h9⟩, rfl⟩
  · rintro ⟨⟨h0, h1, h2, h3, h4, h5, h6, h7, h8, h9⟩, rfl⟩
    exact ⟨(), _, ⟨h0, rfl⟩, _, _, ⟨h1, rfl⟩, _, _, ⟨h2, rfl⟩, _, _, ⟨h3, rfl⟩, _, _, ⟨h4, rfl⟩, _, _, ⟨h5, rfl⟩,
      _, _, ⟨h6, rfl⟩, _, _, ⟨h7, rfl⟩, _, _, ⟨h8, rfl⟩, _, _, ⟨h9, rfl⟩, rfl, rfl⟩

theorem dataHeader_read_iff {d : Bytes} {p : Nat} {h : DataPageHeader} {q : Nat} :
    DataPageHeader.read d p = .ok (h, q) ↔ (U16At d p h.unknown5.toNat ∧ U16At d (p + 2) h.unknownNotNumRowsLarge.toNat ∧
      U16At d (p + 4) h.unknown6.toNat ∧ U16At d (p + 6) h.unknown7.toNat) ∧ q = p + 8 := by
  unfold DataPageHeader.read
  simp only [bind_eq_ok, pure_eq_ok, u16_ok_iff]
  constructor
  · rintro ⟨_, _, ⟨h0, rfl⟩, _, _, ⟨h1, rfl⟩, _, _, ⟨h2, rfl⟩, _, _, ⟨h3, rfl⟩, rfl, rfl⟩
    exact ⟨⟨h0, h1, h2, h3⟩, rfl⟩
  · rintro ⟨⟨h0, h1, h2, h3⟩, rfl⟩
    exact ⟨_, _, ⟨h0, rfl⟩, _, _, ⟨h1, rfl⟩, _, _, ⟨h2, rfl⟩, _, _, ⟨h3, rfl⟩, rfl, rfl⟩

theorem magic64_read_iff {d : Bytes} {p : Nat} {u : Unit} {q : Nat} :
    Rd.magic (encU64 0x03ffffff) d p = .ok (u, q) ↔ (U32At d p 0x3ffffff ∧ U32At d (p + 4) 0) ∧ q = p + 8 := by
  rw [magic_read_iff, encU64_length, show encU64 0x03ffffff = encU32 0x3ffffff ++ encU32 0 by decide +kernel,
    HasAt.append_iff, hasAt_u32_iff, hasAt_u32_iff, encU32_length]
  rfl

theorem indexEntry_read_iff {d : Bytes} {p : Nat} {t : IndexEntry} {q : Nat} :
    IndexEntry.read d p = .ok (t, q) ↔ U32At d p t.raw.toNat ∧ q = p + 4 := by
  unfold IndexEntry.read
  simp only [bind_eq_ok, pure_eq_ok, u32_read_iff]
  constructor
  · rintro ⟨_, _, ⟨h, rfl⟩, rfl, rfl⟩
    exact ⟨h, rfl⟩
  · rintro ⟨h, rfl⟩
    exact ⟨_, _, ⟨h, rfl⟩, rfl, rfl⟩

/-- C95: the content of an index page is read exactly if its fields and entries are at their positions. -/
theorem index_page_read_iff {d : Bytes} {p : Nat} {c : IndexPageContent} {q : Nat} :
    IndexPageContent.read d (p + 32) = .ok (c, q) ↔
      IndexPageContent.At d p c ∧ q = p + 60 + 4 * c.header.numEntries.toNat := by
  unfold IndexPageContent.read IndexPageHeader.read IndexPageContent.At
  simp only [bind_eq_ok, pure_eq_ok, u16_ok_iff, pageIndex_read_iff, magic16_read_iff, magic64_read_iff,
    many_read_iff (fun _ _ _ => indexEntry_read_iff)]
  constructor
  · rintro ⟨_, _, ⟨_, _, ⟨h0, rfl⟩, _, _, ⟨h1, rfl⟩, _, _, ⟨h2, rfl⟩, _, _, ⟨h3, rfl⟩, _, _, ⟨h4, rfl⟩, _, _, ⟨h5, rfl⟩,
      _, _, ⟨⟨h6, h7⟩, rfl⟩, _, _, ⟨h8, rfl⟩, _, _, ⟨h9, rfl⟩, rfl, rfl⟩, _, _, ⟨h10, h11, rfl⟩, rfl, rfl⟩
    exact ⟨⟨h0, h1, h2, h3, h4, h5, h6, h7, h8, h9, h10, h11⟩, rfl⟩
  · rintro ⟨⟨h0, h1, h2, h3, h4, h5, h6, h7, h8, h9, h10, h11⟩, rfl⟩
    exact ⟨_, _, ⟨_, _, ⟨h0, rfl⟩, _, _, ⟨h1, rfl⟩, (), _, ⟨h2, rfl⟩, _, _, ⟨h3, rfl⟩, _, _, ⟨h4, rfl⟩, _, _, ⟨h5, rfl⟩,
      (), _, ⟨⟨h6, h7⟩, rfl⟩, _, _, ⟨h8, rfl⟩, _, _, ⟨h9, rfl⟩, rfl, rfl⟩, _, _, ⟨h10, h11, rfl⟩, rfl, rfl⟩

/-! ## Row groups and rows -/

theorem rowGroup_at_iff {d : Bytes} {e : Nat} {g : RowGroup} (he : 36 ≤ e) : RowGroup.At d e g ↔
    g.rowOffsets.length = 16 ∧ HasAt d (e - 36) ((g.rowOffsets.flatMap encU16) ++
      (encU16 g.rowPresenceFlags ++ encU16 g.unknown)) := by
  unfold RowGroup.At
  refine and_congr_right fun hl => ?_
  rw [HasAt.append_iff, HasAt.append_iff, hasAt_flatMap_iff encU16_length, hasAt_u16_iff, hasAt_u16_iff,
    flatMap_encU16_length, hl, encU16_length, show e - 36 + 16 * 2 = e - 4 by omega, show e - 4 + 2 = e - 2 by omega]
  refine and_congr ?_ Iff.rfl
  constructor
  · intro h i a ha
    have hi : i < 16 := by rw [← hl]; exact (List.getElem?_eq_some_iff.1 ha).1
    have := h (15 - i) (by omega)
    rw [RowGroup.slot, show 15 - (15 - i) = i by omega, List.getD_eq_getElem?_getD, ha,
      show e - 6 - 2 * (15 - i) = e - 36 + i * 2 by omega] at this
    exact hasAt_u16_iff.2 this
  · intro h s hs
    have := h (15 - s) (g.rowOffsets[15 - s]'(by omega)) (List.getElem?_eq_getElem _)
    rw [hasAt_u16_iff, show e - 36 + (15 - s) * 2 = e - 6 - 2 * s by omega] at this
    rwa [RowGroup.slot, List.getD_eq_getElem?_getD, List.getElem?_eq_getElem (by omega)]

theorem groups_read_iff {d : Bytes} {heap n p : Nat} {gs : List RowGroup} {q : Nat} :
    DataPageContent.readGroups heap n d p = .ok (gs, q) ↔ q = p ∧ gs.length = n ∧ 36 * gs.length ≤ p + heap ∧
      ∀ (k : Nat) g, gs[k]? = some g → RowGroup.At d (p + heap - 36 * k) g := by
  rw [DataPageContent.readGroups_eq_ok, RowGroup.readAll_iff]
  refine and_congr_right fun _ => and_congr_right fun hn => and_congr_right fun hle => ?_
  refine forall_congr' fun k => forall_congr' fun g => ?_
  constructor
  · intro h hk
    have : k < gs.length := (List.getElem?_eq_some_iff.1 hk).1
    exact (rowGroup_at_iff (by omega)).2 (h hk)
  · intro h hk
    have : k < gs.length := (List.getElem?_eq_some_iff.1 hk).1
    exact (rowGroup_at_iff (by omega)).1 (h hk)

theorem U16At.unique {d : Bytes} {p a b : Nat} (ha : U16At d p a) (hb : U16At d p b) : a = b := by
  obtain ⟨l, h, h1, h2, rfl⟩ := ha
  obtain ⟨l', h', h3, h4, rfl⟩ := hb
  rw [h1] at h3
  rw [h2] at h4
  cases h3
  cases h4
  rfl

theorem listed_iff {d : Bytes} {e n : Nat} {gs : List RowGroup} (hn : gs.length = (n + 15) / 16)
    (h : ∀ (k : Nat) g, gs[k]? = some g → RowGroup.At d (e - 36 * k) g) (o : UInt16) :
    o ∈ gs.flatMap RowGroup.presentRowsOffsets ↔ OffsetListed d e n o.toNat := by
  rw [DataPageContent.presentRowsOffsets_flatMap fun g hg => by
    obtain ⟨k, hk⟩ := List.getElem?_of_mem hg
    exact (h k g hk).1]
  simp only [List.mem_flatMap, RowGroup.present, List.mem_filterMap, List.mem_range]
  constructor
  · rintro ⟨g, hg, s, hs, ho⟩
    obtain ⟨k, hk⟩ := List.getElem?_of_mem hg
    have : k < gs.length := (List.getElem?_eq_some_iff.1 hk).1
    obtain ⟨-, h1, h2, -⟩ := h k g hk
    split at ho
    · rename_i hp
      cases ho
      exact ⟨k, s, _, by omega, hs, h2, hp, h1 s hs⟩
    · cases ho
  · rintro ⟨k, s, f, hk, hs, hf, hb, ho⟩
    have hk' : gs[k]? = some gs[k] := List.getElem?_eq_getElem (by omega)
    obtain ⟨-, h1, h2, -⟩ := h k _ hk'
    have hf' := hf.unique h2
    have ho' := ho.unique (h1 s hs)
    subst hf'
    refine ⟨gs[k], List.getElem_mem _, s, hs, ?_⟩
    rw [if_pos (show RowGroup.Present _ s from hb), UInt16.toNat_inj.1 ho']

theorem sorted_iff {rows : RowMap} : rows.Sorted ↔ rows.Pairwise fun x y => x.1.toNat < y.1.toNat := Iff.rfl

theorem rows_read_iff {d : Bytes} {t : PageType} {gs : List RowGroup} {p : Nat} {rows : RowMap} {q : Nat} :
    DataPageContent.readRows t gs d p = .ok (rows, q) ↔ q = p ∧ rows.Sorted ∧
      (∀ o, (∃ row, (o, row) ∈ rows) ↔ o ∈ gs.flatMap RowGroup.presentRowsOffsets) ∧
      ∀ o row, (o, row) ∈ rows → ∃ q, Row.At SoundTextAt d (p + o.toNat) t row q := by
  simp only [← row_read_iff]
  constructor
  · intro h
    obtain ⟨h1, h2, h3, h4⟩ := DataPageContent.readRows_inv h
    refine ⟨h1, h2, fun o => ?_, fun o row => h4 (o, row)⟩
    rw [h3]
    exact ⟨fun ⟨row, h⟩ => ⟨_, h, rfl⟩, fun ⟨x, h, e⟩ => ⟨x.2, e ▸ h⟩⟩
  · rintro ⟨rfl, h2, h3, h4⟩
    refine DataPageContent.readRows_of h2 (fun o => ?_) fun x => h4 x.1 x.2
    rw [← h3]
    exact ⟨fun ⟨row, h⟩ => ⟨_, h, rfl⟩, fun ⟨x, h, e⟩ => ⟨x.2, e ▸ h⟩⟩

theorem require_read_iff {b : Bool} {e : Err} {d : Bytes} {p : Nat} {u : Unit} {q : Nat} :
    Rd.require b e d p = .ok (u, q) ↔ b = true ∧ q = p := by
  unfold Rd.require
  cases b with
  | true => simp [pure_eq_ok, eq_comm]
  | false => simp [Rd.fail]

theorem seekBy_read_iff {n : Nat} {d : Bytes} {p : Nat} {u : Unit} {q : Nat} :
    Rd.seekBy (n : Nat) d p = .ok (u, q) ↔ q = p + n := by
  rw [Rd.seekBy_nat]
  simp [eq_comm]

theorem lift_read_iff {α : Type} {r : Res α} {d : Bytes} {p : Nat} {a : α} {q : Nat} :
    Rd.lift r d p = .ok (a, q) ↔ r = .ok a ∧ q = p := by
  unfold Rd.lift
  cases r <;> simp [eq_comm]

/-- C95: the content of a data page is read exactly if the page size is at least 40, its fields and row groups are at
their positions, the rows are the ones at the listed offsets, and there are as many as the header declares. -/
theorem data_page_read_iff {d : Bytes} {pageSize : Nat} {h : PageHeader} {p : Nat} {c : DataPageContent} {q : Nat} :
    DataPageContent.read pageSize h d (p + 32) = .ok (c, q) ↔
      40 ≤ pageSize ∧ DataPageContent.At SoundTextAt d p (p + pageSize) h c ∧ q = p + pageSize := by
  unfold DataPageContent.read DataPageContent.At
  simp only [bind_eq_ok, pure_eq_ok, dataHeader_read_iff, groups_read_iff, rows_read_iff, require_read_iff,
    seekBy_read_iff, lift_read_iff, DataPageContent.pageHeapSize_eq, beq_iff_eq, PackedRowCounts.numRowGroups_eq]
  constructor
  · rintro ⟨hd, _, ⟨⟨h1, h2, h3, h4⟩, rfl⟩, heap, _, ⟨hh, rfl⟩, gs, _, ⟨rfl, g1, g2, g3⟩, rows, _, ⟨rfl, r1, r2, r3⟩, _, _,
      ⟨hv, rfl⟩, _, _, rfl, rfl, rfl⟩
    have h40 : 40 ≤ pageSize := by
      rcases Nat.lt_or_ge pageSize 40 with h | h
      · rw [if_neg (by omega)] at hh; cases hh
      · exact h
    rw [if_pos h40] at hh
    cases hh
    rw [show p + 32 + 8 + (pageSize - 40) = p + pageSize by omega] at g2 g3
    exact ⟨h40, ⟨h1, h2, h3, h4, g1, g2, g3, r1, fun o => (r2 o).trans (listed_iff g1 g3 o), r3, hv⟩, by omega⟩
  · rintro ⟨h40, ⟨h1, h2, h3, h4, g1, g2, g3, r1, r2, r3, hv⟩, rfl⟩
    refine ⟨_, _, ⟨⟨h1, h2, h3, h4⟩, rfl⟩, _, _, ⟨if_pos h40, rfl⟩, c.rowGroups, _, ⟨rfl, g1, ?_, ?_⟩, c.rows, _,
      ⟨rfl, r1, fun o => (r2 o).trans (listed_iff g1 g3 o).symm, r3⟩, (), _, ⟨hv, rfl⟩, (), _, rfl, rfl, by omega⟩
    · rw [show p + 32 + 8 + (pageSize - 40) = p + pageSize by omega]; exact g2
    · rw [show p + 32 + 8 + (pageSize - 40) = p + pageSize by omega]; exact g3

theorem content_read_iff {R : Rd DataPageContent} {b : Bool} {d : Bytes} {p : Nat} {c : PageContent} {q : Nat} :
    Rd.orElse (do Rd.require (!b); let c ← R; pure (.data c))
      (do Rd.require b; let c ← IndexPageContent.read; pure (.index c)) d p = .ok (c, q) ↔
      match c with
      | .data c => b = false ∧ R d p = .ok (c, q)
      | .index c => b = true ∧ IndexPageContent.read d p = .ok (c, q) := by
  have hx : ∀ {X : Type} (f : Unit → Rd X), (Rd.require false >>= f) d p = .err .assertFail := fun _ => rfl
  have ht : ∀ {X : Type} (f : Unit → Rd X), (Rd.require true >>= f) d p = f () d p := fun _ => rfl
  unfold Rd.orElse
  cases b with
  | true =>
    simp only [Bool.not_true, hx, ht, bind_eq_ok, pure_eq_ok]
    cases c with
    | data c => simp
    | index c =>
      simp only [true_and]
      exact ⟨fun ⟨_, _, h, e1, e2⟩ => by cases e1; cases e2; exact h, fun h => ⟨c, q, h, rfl, rfl⟩⟩
  | false =>
    simp only [Bool.not_false, hx, ht]
    cases hr : R d p with
    | ok x => obtain ⟨c', q'⟩ := x; rw [bind_of_ok hr]; cases c <;> simp [pure_eq_ok]
    | panic => rw [bind_of_panic hr]; cases c <;> simp
    | err e => rw [bind_of_err hr]; cases c <;> simp

/-- C95: a page is read exactly if it is stored: its header is at the start and its content is the one of a data page or
of an index page, as one bit of the flags of the page says. -/
theorem page_read_iff {pageSize : Nat} {db : DatabaseType} {d : Bytes} {p : Nat} {pg : Page} {q : Nat} :
    Page.read pageSize db d p = .ok (pg, q) ↔ Page.At SoundTextAt (soundSize pageSize) db d p pg q := by
  have hc : ∀ (h : PageHeader) (c : PageContent), PageContent.read pageSize h d (p + 32) = .ok (c, q) ↔
      match c with
      | .data c => h.pageFlags.isIndexPage = false ∧ ∃ n, soundSize pageSize = some n ∧
          DataPageContent.At SoundTextAt d p (p + n) h c ∧ q = p + n
      | .index c => h.pageFlags.isIndexPage = true ∧ IndexPageContent.At d p c ∧
          q = p + 60 + 4 * c.header.numEntries.toNat := by
    intro h c
    have hs : ∀ c : DataPageContent, (∃ n, soundSize pageSize = some n ∧
          DataPageContent.At SoundTextAt d p (p + n) h c ∧ q = p + n) ↔
        DataPageContent.read pageSize h d (p + 32) = .ok (c, q) := by
      intro c
      rw [data_page_read_iff]
      unfold soundSize
      constructor
      · rintro ⟨n, hn, h1, h2⟩
        split at hn
        · cases hn; exact ⟨‹_›, h1, h2⟩
        · cases hn
      · rintro ⟨h1, h2, h3⟩
        exact ⟨pageSize, if_pos h1, h2, h3⟩
    unfold PageContent.read
    rw [content_read_iff]
    cases c with
    | data c => exact and_congr_right fun _ => (hs c).symm
    | index c => exact and_congr_right fun _ => index_page_read_iff
  unfold Page.read Page.At
  simp only [bind_eq_ok, pure_eq_ok, page_header_read_iff]
  constructor
  · rintro ⟨h, _, ⟨h1, rfl⟩, c, _, h2, rfl, rfl⟩
    exact ⟨h1, (hc h c).1 h2⟩
  · rintro ⟨h1, h2⟩
    exact ⟨_, _, ⟨h1, rfl⟩, _, _, (hc pg.header pg.content).2 h2, rfl, rfl⟩

/-! ## Builds without overflow checks -/

namespace DataPageContent

theorem parseAtOffsetsWrap_eq_ok {t : PageType} {base : Nat} {os : List UInt16} {img : Bytes}
    {l : List (UInt16 × Row)} {q : Nat} :
    parseAtOffsetsWrap t base os img base = .ok (l, q) ↔
      q = base ∧ l.map Prod.fst = os ∧
        ∀ x ∈ l, ∃ q', Row.readWrap t img (base + x.1.toNat) = .ok (x.2, q') := by
  induction os generalizing l q with
  | nil =>
    rw [parseAtOffsetsWrap, pure_eq_ok]
    constructor
    · rintro ⟨rfl, rfl⟩
      exact ⟨rfl, rfl, fun x hx => by cases hx⟩
    · rintro ⟨rfl, h, -⟩
      exact ⟨(List.map_eq_nil_iff.1 h).symm, rfl⟩
  | cons o os ih =>
    rw [parseAtOffsetsWrap, bind_of_ok (Rd.seekBy_nat o.toNat img base)]
    constructor
    · intro h
      obtain ⟨v, p1, h1, h⟩ := bind_eq_ok.1 h
      obtain ⟨_, p2, h2, h⟩ := bind_eq_ok.1 h
      have : p2 = base := by
        simp only [Rd.seekTo, Res.ok.injEq, Prod.mk.injEq] at h2
        exact h2.2.symm
      subst this
      obtain ⟨rest, p3, h3, h⟩ := bind_eq_ok.1 h
      rw [pure_eq_ok] at h
      obtain ⟨rfl, rfl⟩ := h
      obtain ⟨rfl, h4, h5⟩ := ih.1 h3
      refine ⟨rfl, by rw [List.map_cons, h4], ?_⟩
      intro x hx
      rcases List.mem_cons.1 hx with rfl | hx
      · exact ⟨p1, h1⟩
      · exact h5 x hx
    · rintro ⟨rfl, hm, hall⟩
      cases l with
      | nil => cases hm
      | cons x l =>
        rw [List.map_cons, List.cons.injEq] at hm
        obtain ⟨rfl, hm⟩ := hm
        obtain ⟨q', hx⟩ := hall x (List.mem_cons_self ..)
        rw [bind_of_ok hx, bind_of_ok (show Rd.seekTo q img q' = .ok ((), q) from rfl),
          bind_of_ok (ih.2 ⟨rfl, hm, fun y hy => hall y (List.mem_cons_of_mem _ hy)⟩)]
        rfl

/-- Reading rows whose offsets are the keys of a map gives the map. -/
theorem readRowsWrap_of {t : PageType} {gs : List RowGroup} {img : Bytes} {base : Nat} {rows : RowMap}
    (hs : rows.Sorted)
    (hk : ∀ o, o ∈ gs.flatMap RowGroup.presentRowsOffsets ↔ ∃ x ∈ rows, x.1 = o)
    (hr : ∀ x ∈ rows, ∃ q, Row.readWrap t img (base + x.1.toNat) = .ok (x.2, q)) :
    readRowsWrap t gs img base = .ok (rows, base) := by
  have hval : ∀ os : List UInt16, (∀ o ∈ os, ∃ x ∈ rows, x.1 = o) →
      ∃ l : List (UInt16 × Row), l.map Prod.fst = os ∧ (∀ x ∈ l, x ∈ rows) := by
    intro os
    induction os with
    | nil => intro _; exact ⟨[], rfl, fun x hx => by cases hx⟩
    | cons o os ih =>
      intro h
      obtain ⟨x, hx, rfl⟩ := h o (List.mem_cons_self ..)
      obtain ⟨l, h1, h2⟩ := ih fun o ho => h o (List.mem_cons_of_mem _ ho)
      refine ⟨x :: l, by rw [List.map_cons, h1], ?_⟩
      intro y hy
      rcases List.mem_cons.1 hy with rfl | hy
      · exact hx
      · exact h2 y hy
  obtain ⟨l, hl1, hl2⟩ := hval _ fun o ho => (hk o).1 ho
  unfold readRowsWrap
  rw [bind_of_ok (show Rd.pos img base = .ok (base, base) from rfl),
    bind_of_ok (parseAtOffsetsWrap_eq_ok.2 ⟨rfl, hl1, fun x hx => hr x (hl2 x hx)⟩)]
  have hinj : ∀ x ∈ l, ∀ y ∈ l, x.1 = y.1 → x = y := fun x hx y hy h => hs.inj (hl2 x hx) (hl2 y hy) h
  obtain ⟨h1, h2⟩ := RowMap.ofList_spec hinj
  have : RowMap.ofList l = rows := by
    apply h1.ext hs
    intro x
    rw [h2 x]
    constructor
    · exact hl2 x
    · intro hx
      have : x.1 ∈ l.map Prod.fst := by rw [hl1]; exact (hk x.1).2 ⟨x, hx, rfl⟩
      obtain ⟨y, hy, he⟩ := List.mem_map.1 this
      rw [← hs.inj (hl2 y hy) hx he]
      exact hy
  rw [this]
  rfl

theorem readRowsWrap_inv {t : PageType} {gs : List RowGroup} {img : Bytes} {base q : Nat} {rows : RowMap}
    (h : readRowsWrap t gs img base = .ok (rows, q)) :
    q = base ∧ rows.Sorted ∧ (∀ o, o ∈ gs.flatMap RowGroup.presentRowsOffsets ↔ ∃ x ∈ rows, x.1 = o) ∧
      ∀ x ∈ rows, ∃ q, Row.readWrap t img (base + x.1.toNat) = .ok (x.2, q) := by
  unfold readRowsWrap at h
  rw [bind_of_ok (show Rd.pos img base = .ok (base, base) from rfl)] at h
  obtain ⟨l, p1, h1, h⟩ := bind_eq_ok.1 h
  rw [pure_eq_ok] at h
  obtain ⟨rfl, rfl⟩ := h
  obtain ⟨rfl, h2, h3⟩ := parseAtOffsetsWrap_eq_ok.1 h1
  have hinj : ∀ x ∈ l, ∀ y ∈ l, x.1 = y.1 → x = y := by
    intro x hx y hy he
    obtain ⟨qx, hx⟩ := h3 x hx
    obtain ⟨qy, hy⟩ := h3 y hy
    rw [he, hy] at hx
    simp only [Res.ok.injEq, Prod.mk.injEq] at hx
    exact Prod.ext he hx.1.symm
  obtain ⟨h4, h5⟩ := RowMap.ofList_spec hinj
  refine ⟨rfl, h4, ?_, fun x hx => h3 x ((h5 x).1 hx)⟩
  intro o
  rw [← h2, List.mem_map]
  constructor
  · rintro ⟨x, hx, rfl⟩; exact ⟨x, (h5 x).2 hx, rfl⟩
  · rintro ⟨x, hx, rfl⟩; exact ⟨x, (h5 x).1 hx, rfl⟩

end DataPageContent

theorem rows_release_read_iff {d : Bytes} (hd : d.length < 2 ^ 64 - 1) {t : PageType} {gs : List RowGroup} {p : Nat}
    {rows : RowMap} {q : Nat} :
    DataPageContent.readRowsWrap t gs d p = .ok (rows, q) ↔ q = p ∧ rows.Sorted ∧
      (∀ o, (∃ row, (o, row) ∈ rows) ↔ o ∈ gs.flatMap RowGroup.presentRowsOffsets) ∧
      ∀ o row, (o, row) ∈ rows → ∃ q, Row.At TextAt d (p + o.toNat) t row q := by
  simp only [← row_release_read_iff hd]
  constructor
  · intro h
    obtain ⟨h1, h2, h3, h4⟩ := DataPageContent.readRowsWrap_inv h
    refine ⟨h1, h2, fun o => ?_, fun o row => h4 (o, row)⟩
    rw [h3]
    exact ⟨fun ⟨row, h⟩ => ⟨_, h, rfl⟩, fun ⟨x, h, e⟩ => ⟨x.2, e ▸ h⟩⟩
  · rintro ⟨rfl, h2, h3, h4⟩
    refine DataPageContent.readRowsWrap_of h2 (fun o => ?_) fun x => h4 x.1 x.2
    rw [← h3]
    exact ⟨fun ⟨row, h⟩ => ⟨_, h, rfl⟩, fun ⟨x, h, e⟩ => ⟨x.2, e ▸ h⟩⟩

theorem wrappedHeap {pageSize : Nat} (hp : pageSize < 2 ^ 32) :
    ∃ n, wrappedSize pageSize = some n ∧ n = 40 + DataPageContent.pageHeapSizeWrap pageSize := by
  refine ⟨_, rfl, ?_⟩
  unfold DataPageContent.pageHeapSizeWrap subWrap32
  split <;> omega

/-- C95, release build: as `data_page_read_iff`, but a page size below 40 is taken for a very large one and the lengths
that the strings declare need not be possible. -/
theorem data_page_release_read_iff {d : Bytes} (hd : d.length < 2 ^ 64 - 1) {pageSize : Nat} (hp : pageSize < 2 ^ 32)
    {h : PageHeader} {p : Nat} {c : DataPageContent} {q : Nat} :
    DataPageContent.readWrap pageSize h d (p + 32) = .ok (c, q) ↔
      ∃ n, wrappedSize pageSize = some n ∧ DataPageContent.At TextAt d p (p + n) h c ∧ q = p + n := by
  obtain ⟨n, hn, he⟩ := wrappedHeap hp
  have hx : (∃ m, wrappedSize pageSize = some m ∧ DataPageContent.At TextAt d p (p + m) h c ∧ q = p + m) ↔
      DataPageContent.At TextAt d p (p + n) h c ∧ q = p + n := by
    rw [hn]
    constructor
    · rintro ⟨m, hm, h⟩; cases hm; exact h
    · exact fun h => ⟨n, rfl, h⟩
  rw [hx]
  unfold DataPageContent.readWrap DataPageContent.At
  simp only [bind_eq_ok, pure_eq_ok, dataHeader_read_iff, groups_read_iff, rows_release_read_iff hd, require_read_iff,
    seekBy_read_iff, beq_iff_eq, PackedRowCounts.numRowGroups_eq]
  clear hn hx
  generalize DataPageContent.pageHeapSizeWrap pageSize = heap at he ⊢
  constructor
  · rintro ⟨hd, _, ⟨⟨h1, h2, h3, h4⟩, rfl⟩, gs, _, ⟨rfl, g1, g2, g3⟩, rows, _, ⟨rfl, r1, r2, r3⟩, _, _,
      ⟨hv, rfl⟩, _, _, rfl, rfl, rfl⟩
    have e : p + 32 + 8 + heap = p + n := by omega
    rw [e] at g2 g3
    exact ⟨⟨h1, h2, h3, h4, g1, g2, g3, r1, fun o => (r2 o).trans (listed_iff g1 g3 o), r3, hv⟩, e⟩
  · rintro ⟨⟨h1, h2, h3, h4, g1, g2, g3, r1, r2, r3, hv⟩, rfl⟩
    have e : p + 32 + 8 + heap = p + n := by omega
    exact ⟨_, _, ⟨⟨h1, h2, h3, h4⟩, rfl⟩, c.rowGroups, _, ⟨rfl, g1, by rw [e]; exact g2, by rw [e]; exact g3⟩, c.rows, _,
      ⟨rfl, r1, fun o => (r2 o).trans (listed_iff g1 g3 o).symm, r3⟩, (), _, ⟨hv, rfl⟩, (), _, rfl, rfl, e⟩

/-- C95, release build: a page is read exactly if it is stored, where a page size below 40 is taken for a very large one
and the lengths that the strings declare need not be possible. -/
theorem page_release_read_iff {d : Bytes} (hd : d.length < 2 ^ 64 - 1) {pageSize : Nat} (hp : pageSize < 2 ^ 32)
    {db : DatabaseType} {p : Nat} {pg : Page} {q : Nat} :
    Page.readWrap pageSize db d p = .ok (pg, q) ↔ Page.At TextAt (wrappedSize pageSize) db d p pg q := by
  have hc : ∀ (h : PageHeader) (c : PageContent), PageContent.readWrap pageSize h d (p + 32) = .ok (c, q) ↔
      match c with
      | .data c => h.pageFlags.isIndexPage = false ∧ ∃ n, wrappedSize pageSize = some n ∧
          DataPageContent.At TextAt d p (p + n) h c ∧ q = p + n
      | .index c => h.pageFlags.isIndexPage = true ∧ IndexPageContent.At d p c ∧
          q = p + 60 + 4 * c.header.numEntries.toNat := by
    intro h c
    unfold PageContent.readWrap
    rw [content_read_iff]
    cases c with
    | data c => exact and_congr_right fun _ => data_page_release_read_iff hd hp
    | index c => exact and_congr_right fun _ => index_page_read_iff
  unfold Page.readWrap Page.At
  simp only [bind_eq_ok, pure_eq_ok, page_header_read_iff]
  constructor
  · rintro ⟨h, _, ⟨h1, rfl⟩, c, _, h2, rfl, rfl⟩
    exact ⟨h1, (hc h c).1 h2⟩
  · rintro ⟨h1, h2⟩
    exact ⟨_, _, ⟨h1, rfl⟩, _, _, (hc pg.header pg.content).2 h2, rfl, rfl⟩

/-! ## Consequences -/

/-- C95: the bytes determine the page. -/
theorem page_unambiguous {pageSize : Nat} {db : DatabaseType} {d : Bytes} {p : Nat} {pg pg' : Page} {q q' : Nat}
    (h : Page.At SoundTextAt (soundSize pageSize) db d p pg q)
    (h' : Page.At SoundTextAt (soundSize pageSize) db d p pg' q') : pg = pg' ∧ q = q' := by
  have := (page_read_iff.2 h).symm.trans (page_read_iff.2 h')
  simpa using this

/-- C95: a page of 96 bytes that holds one genre, with the identifier 7 and the name "A". -/
def genrePageBytes : Bytes :=
  [0, 0, 0, 0, 1, 0, 0, 0, 1, 0, 0, 0, 2, 0, 0, 0, 0, 0, 0, 0, 0, 0, 0, 0, 1, 32, 0, 0x24, 0, 0, 8, 0] ++
    [1, 0, 0, 0, 0, 0, 0, 0] ++ [7, 0, 0, 0, 5, 65] ++ List.replicate 14 0 ++ List.replicate 32 0 ++ [1, 0, 0, 0]

def genrePageRead : Page :=
  { header :=
      { pageIndex := ⟨1⟩, pageType := .plain .genres, nextPage := ⟨2⟩, unknown1 := 0, unknown2 := 0
        packedRowCounts := ⟨1, 1⟩, pageFlags := .newDataPage, freeSize := 0, usedSize := 8 }
    content := .data
      { header := ⟨1, 0, 0, 0⟩
        rowGroups := [⟨List.replicate 16 0, 1, 0⟩]
        rows := [(0, .plain (.genre { id := 7, name := .short [65] }))] } }

/-- C95: it is read, so it is stored as described. -/
example : Page.At SoundTextAt (soundSize 96) .plain genrePageBytes 0 genrePageRead 96 :=
  page_read_iff.1 (by decide +kernel)

/-- C95: its only row group lists the offset 0. -/
example : OffsetListed genrePageBytes 96 1 0 :=
  ⟨0, 0, 1, by decide, by decide, ⟨1, 0, rfl, rfl, rfl⟩, rfl, ⟨0, 0, rfl, rfl, rfl⟩⟩

/-- C95: with the mark of the slot removed nothing is listed there, so that no page is read: the header declares a
row. -/
example : ¬ ∃ pg q, Page.read 96 .plain (genrePageBytes.set 92 0) 0 = .ok (pg, q) := by
  rintro ⟨pg, q, h⟩
  have : Page.read 96 .plain (genrePageBytes.set 92 0) 0 = .err .assertFail := by decide +kernel
  rw [this] at h
  cases h

end Rekordcrate
