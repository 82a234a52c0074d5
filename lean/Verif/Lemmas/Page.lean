import Verif.Lemmas.RowGroup
import Verif.Lemmas.Header
import Verif.Lemmas.Rows

/-! # Lemmas about pages -/

namespace Rekordcrate
open Rd

theorem PackedRowCounts.numRowGroups_eq (c : PackedRowCounts) :
    c.numRowGroups = (c.numRows.val + 15) / 16 := by
  unfold numRowGroups
  split <;> omega

/-! ## Headers -/

@[simp] theorem PageHeader.enc_length (h : PageHeader) : h.enc.length = 32 := by
  simp [PageHeader.enc]

theorem PageHeader.rt (db : DatabaseType) (h : PageHeader) (hv : h.pageType.ValidFor db) :
    RT (PageHeader.read db) h.enc h :=
  RT.bind (RT.magic _) <| RT.bind (PageIndex.rt _) <| RT.bind (PageType.rt db _ hv) <|
    RT.bind (PageIndex.rt _) <| RT.bind (RT.u32 _) <| RT.bind (RT.u32 _) <|
    RT.bind (PackedRowCounts.rt _) <| RT.bind (PageFlags.rt _) <| RT.bind (RT.u16 _) <|
    RT.bind_pure (f := fun l => PageHeader.mk _ _ _ _ _ _ _ _ l) (RT.u16 _)

theorem PageHeader.inv (db : DatabaseType) : Inv (PageHeader.read db) (fun h bs => bs = h.enc) := by
  refine Inv.bind (Inv.magic _) ?_
  rintro _ _ rfl
  refine Inv.bind PageIndex.inv ?_
  rintro a _ rfl
  refine Inv.bind (PageType.inv db) ?_
  rintro b _ rfl
  refine Inv.bind PageIndex.inv ?_
  rintro c _ rfl
  refine Inv.bind Inv.u32 ?_
  rintro e _ rfl
  refine Inv.bind Inv.u32 ?_
  rintro f _ rfl
  refine Inv.bind PackedRowCounts.inv ?_
  rintro g _ rfl
  refine Inv.bind PageFlags.inv ?_
  rintro h _ rfl
  refine Inv.bind Inv.u16 ?_
  rintro i _ rfl
  refine Inv.bind Inv.u16 ?_
  rintro j _ rfl
  refine (Inv.pure _).mono ?_
  rintro _ _ ⟨rfl, rfl⟩
  simp [PageHeader.enc]

theorem PageHeader.np (db : DatabaseType) : NP (PageHeader.read db) :=
  NP.bind (NP.magic _) fun _ => NP.bind PageIndex.np fun _ => NP.bind (PageType.np db) fun _ =>
    NP.bind PageIndex.np fun _ => NP.bind NP.u32 fun _ => NP.bind NP.u32 fun _ =>
    NP.bind PackedRowCounts.np fun _ => NP.bind PageFlags.np fun _ => NP.bind NP.u16 fun _ =>
    NP.bind NP.u16 fun _ => NP.pure _

theorem PageHeader.read_valid {db : DatabaseType} {img : Bytes} {p q : Nat} {h : PageHeader}
    (hr : PageHeader.read db img p = .ok (h, q)) : h.pageType.ValidFor db := by
  unfold PageHeader.read at hr
  obtain ⟨_, p1, -, hr⟩ := bind_eq_ok.1 hr
  obtain ⟨_, p2, -, hr⟩ := bind_eq_ok.1 hr
  obtain ⟨t, p3, ht, hr⟩ := bind_eq_ok.1 hr
  obtain ⟨_, p4, -, hr⟩ := bind_eq_ok.1 hr
  obtain ⟨_, p5, -, hr⟩ := bind_eq_ok.1 hr
  obtain ⟨_, p6, -, hr⟩ := bind_eq_ok.1 hr
  obtain ⟨_, p7, -, hr⟩ := bind_eq_ok.1 hr
  obtain ⟨_, p8, -, hr⟩ := bind_eq_ok.1 hr
  obtain ⟨_, p9, -, hr⟩ := bind_eq_ok.1 hr
  obtain ⟨_, p10, -, hr⟩ := bind_eq_ok.1 hr
  rw [pure_eq_ok] at hr
  obtain ⟨rfl, -⟩ := hr
  exact PageType.read_valid ht

@[simp] theorem DataPageHeader.enc_length (h : DataPageHeader) : h.enc.length = 8 := by
  simp [DataPageHeader.enc]

theorem DataPageHeader.rt (h : DataPageHeader) : RT DataPageHeader.read h.enc h :=
  RT.bind (RT.u16 _) <| RT.bind (RT.u16 _) <| RT.bind (RT.u16 _) <|
    RT.bind_pure (f := fun l => DataPageHeader.mk _ _ _ l) (RT.u16 _)

theorem DataPageHeader.inv : Inv DataPageHeader.read (fun h bs => bs = h.enc) := by
  refine Inv.bind Inv.u16 ?_
  rintro a _ rfl
  refine Inv.bind Inv.u16 ?_
  rintro b _ rfl
  refine Inv.bind Inv.u16 ?_
  rintro c _ rfl
  refine Inv.bind Inv.u16 ?_
  rintro e _ rfl
  refine (Inv.pure _).mono ?_
  rintro _ _ ⟨rfl, rfl⟩
  simp [DataPageHeader.enc]

theorem DataPageHeader.np : NP DataPageHeader.read :=
  NP.bind NP.u16 fun _ => NP.bind NP.u16 fun _ => NP.bind NP.u16 fun _ => NP.bind NP.u16 fun _ => NP.pure _

@[simp] theorem IndexPageHeader.enc_length (h : IndexPageHeader) : h.enc.length = 28 := by
  simp [IndexPageHeader.enc]

theorem IndexPageHeader.rt (h : IndexPageHeader) : RT IndexPageHeader.read h.enc h :=
  RT.bind (RT.u16 _) <| RT.bind (RT.u16 _) <| RT.bind (RT.magic _) <| RT.bind (RT.u16 _) <|
    RT.bind (PageIndex.rt _) <| RT.bind (PageIndex.rt _) <| RT.bind (RT.magic _) <|
    RT.bind (RT.u16 _) <| RT.bind_pure (f := fun l => IndexPageHeader.mk _ _ _ _ _ _ l) (RT.u16 _)

theorem IndexPageHeader.inv : Inv IndexPageHeader.read (fun h bs => bs = h.enc) := by
  refine Inv.bind Inv.u16 ?_
  rintro a _ rfl
  refine Inv.bind Inv.u16 ?_
  rintro b _ rfl
  refine Inv.bind (Inv.magic _) ?_
  rintro _ _ rfl
  refine Inv.bind Inv.u16 ?_
  rintro c _ rfl
  refine Inv.bind PageIndex.inv ?_
  rintro e _ rfl
  refine Inv.bind PageIndex.inv ?_
  rintro f _ rfl
  refine Inv.bind (Inv.magic _) ?_
  rintro _ _ rfl
  refine Inv.bind Inv.u16 ?_
  rintro g _ rfl
  refine Inv.bind Inv.u16 ?_
  rintro h _ rfl
  refine (Inv.pure _).mono ?_
  rintro _ _ ⟨rfl, rfl⟩
  simp [IndexPageHeader.enc]

theorem IndexPageHeader.np : NP IndexPageHeader.read :=
  NP.bind NP.u16 fun _ => NP.bind NP.u16 fun _ => NP.bind (NP.magic _) fun _ => NP.bind NP.u16 fun _ =>
    NP.bind PageIndex.np fun _ => NP.bind PageIndex.np fun _ => NP.bind (NP.magic _) fun _ =>
    NP.bind NP.u16 fun _ => NP.bind NP.u16 fun _ => NP.pure _

/-! ## Index pages -/

theorem IndexEntry.flatMap_length (l : List IndexEntry) : (l.flatMap IndexEntry.enc).length = 4 * l.length := by
  induction l with
  | nil => rfl
  | cons a l ih => rw [List.flatMap_cons, List.length_append, ih, List.length_cons, IndexEntry.enc,
      encU32_length]; omega

theorem IndexPageContent.totalEntries_eq (n : Nat) :
    IndexPageContent.totalEntries n = if 80 ≤ n then .ok ((n - 80) / 4) else .panic := by
  unfold totalEntries subU
  split
  · simp only [Res.ok_bind]
    split
    · simp only [Res.ok_bind]
      split
      · simp only [Res.ok_bind]
        rw [if_pos (by omega)]
        rw [show n - 32 - 28 - 20 = n - 80 by omega]
      · rw [if_neg (by omega)]; rfl
    · rw [if_neg (by omega)]; rfl
  · rw [if_neg (by omega)]; rfl

theorem IndexPageContent.write_eq_ok {c : IndexPageContent} {pageSize p q : Nat} {ps : List Patch} :
    c.write pageSize p = .ok ((), q, ps) ↔
      80 ≤ pageSize ∧ c.header.numEntries.toNat ≤ (pageSize - 80) / 4 ∧
      q = p + 48 + 4 * c.entries.length + 4 * ((pageSize - 80) / 4 - c.header.numEntries.toNat) ∧
      ps = [⟨p, c.header.enc⟩, ⟨p + 28, c.entries.flatMap IndexEntry.enc⟩,
        ⟨p + 28 + 4 * c.entries.length,
          (List.replicate ((pageSize - 80) / 4 - c.header.numEntries.toNat) IndexEntry.empty).flatMap IndexEntry.enc⟩,
        ⟨p + 28 + 4 * c.entries.length + 4 * ((pageSize - 80) / 4 - c.header.numEntries.toNat),
          List.replicate 20 0⟩] := by
  unfold write
  rw [totalEntries_eq]
  by_cases h1 : 80 ≤ pageSize
  · rw [if_pos h1]
    unfold subU
    by_cases h2 : c.header.numEntries.toNat ≤ (pageSize - 80) / 4
    · simp only [Wr.bind_def, Wr.lift, h2, if_true, Wr.emit_def, IndexEntry.flatMap_length,
        IndexPageHeader.enc_length, List.length_replicate, List.nil_append, List.cons_append, Res.ok.injEq,
        Prod.mk.injEq, true_and, h1]
      constructor
      · rintro ⟨rfl, rfl⟩; exact ⟨by omega, rfl⟩
      · rintro ⟨rfl, rfl⟩; exact ⟨by omega, rfl⟩
    · simp [Wr.bind_def, Wr.lift, h2]
  · rw [if_neg h1]
    simp [Wr.bind_def, Wr.lift, h1]

theorem IndexPageContent.read_of_contains {c : IndexPageContent} {img : Bytes} {p : Nat}
    (hn : c.entries.length = c.header.numEntries.toNat) (h1 : HasAt img p c.header.enc)
    (h2 : HasAt img (p + 28) (c.entries.flatMap IndexEntry.enc)) :
    IndexPageContent.read img p = .ok (c, p + 28 + 4 * c.entries.length) := by
  have : RT IndexPageContent.read (c.header.enc ++ c.entries.flatMap IndexEntry.enc) c :=
    RT.bind (IndexPageHeader.rt _) <|
      RT.bind_pure (f := fun l => IndexPageContent.mk _ l) (RT.many' hn fun a _ => a.rt)
  rw [this img p (HasAt.append_iff.2 ⟨h1, by rw [IndexPageHeader.enc_length]; exact h2⟩)]
  rw [List.length_append, IndexPageHeader.enc_length, IndexEntry.flatMap_length, Nat.add_assoc]

theorem IndexPageContent.read_inv {c : IndexPageContent} {img : Bytes} {p q : Nat}
    (h : IndexPageContent.read img p = .ok (c, q)) :
    c.entries.length = c.header.numEntries.toNat ∧ HasAt img p c.header.enc ∧
      HasAt img (p + 28) (c.entries.flatMap IndexEntry.enc) ∧ q = p + 28 + 4 * c.entries.length := by
  unfold read at h
  obtain ⟨hd, p1, h1, h⟩ := bind_eq_ok.1 h
  obtain ⟨bs, hb1, rfl, rfl⟩ := IndexPageHeader.inv _ _ _ _ h1
  obtain ⟨es, p2, h2, h⟩ := bind_eq_ok.1 h
  obtain ⟨bs, hb2, rfl, rfl, hl⟩ := Inv.many IndexEntry.inv IndexEntry.enc (fun a bs h => h) _ _ _ _ _ h2
  rw [pure_eq_ok] at h
  obtain ⟨rfl, rfl⟩ := h
  rw [IndexPageHeader.enc_length] at hb2
  refine ⟨hl, hb1, hb2, ?_⟩
  rw [IndexPageHeader.enc_length, IndexEntry.flatMap_length]

theorem IndexPageContent.np : NP IndexPageContent.read :=
  NP.bind IndexPageHeader.np fun _ => NP.bind (NP.many IndexEntry.np _) fun _ => NP.pure _

/-! ## Data pages -/

namespace DataPageContent

theorem pageHeapSize_eq (n : Nat) : pageHeapSize n = if 40 ≤ n then .ok (n - 40) else .panic := by
  unfold pageHeapSize subU
  split
  · simp only [Res.ok_bind]
    split
    · rw [if_pos (by omega), show n - 32 - 8 = n - 40 by omega]
    · rw [if_neg (by omega)]
  · rw [if_neg (by omega)]; rfl

/-- The writes of rows at their offsets. -/
inductive RowsWritten (base : Nat) : RowMap → List Patch → Prop where
  | nil : RowsWritten base [] []
  | cons {o : UInt16} {r : Row} {rows : RowMap} {q : Nat} {ps1 ps2 : List Patch}
      (h : r.write (base + o.toNat) = .ok ((), q, ps1)) (t : RowsWritten base rows ps2) :
      RowsWritten base ((o, r) :: rows) (ps1 ++ ps2)

theorem writeRowAt_eq_ok {base : Nat} {x : UInt16 × Row} {q : Nat} {ps : List Patch} :
    writeRowAt base x base = .ok ((), q, ps) ↔
      q = base ∧ ∃ q', x.2.write (base + x.1.toNat) = .ok ((), q', ps) := by
  unfold writeRowAt
  constructor
  · intro h
    obtain ⟨_, p1, ps1, ps2, h1, h2, rfl⟩ := Wr.bind_eq_ok.1 h
    rw [Wr.seekBy_nat] at h1
    simp only [Res.ok.injEq, Prod.mk.injEq] at h1
    obtain ⟨-, rfl, rfl⟩ := h1
    obtain ⟨_, p2, ps3, ps4, h3, h4, rfl⟩ := Wr.bind_eq_ok.1 h2
    rw [Wr.seekTo_def] at h4
    simp only [Res.ok.injEq, Prod.mk.injEq] at h4
    obtain ⟨-, rfl, rfl⟩ := h4
    exact ⟨rfl, p2, by simpa using h3⟩
  · rintro ⟨rfl, q', h⟩
    have := Wr.bind_of_ok (f := fun _ => do x.2.write; Wr.seekTo q) (Wr.seekBy_nat x.1.toNat q)
      (Wr.bind_of_ok (f := fun _ => Wr.seekTo q) h (Wr.seekTo_def _ _))
    simpa using this

theorem forEach_writeRowAt {base : Nat} {rows : RowMap} {q : Nat} {ps : List Patch} :
    Wr.forEach (writeRowAt base) rows base = .ok ((), q, ps) ↔ q = base ∧ RowsWritten base rows ps := by
  induction rows generalizing q ps with
  | nil =>
    constructor
    · intro h
      simp only [Wr.forEach, Wr.pure_def, Res.ok.injEq, Prod.mk.injEq] at h
      obtain ⟨-, rfl, rfl⟩ := h
      exact ⟨rfl, .nil⟩
    · rintro ⟨rfl, h⟩
      cases h
      rfl
  | cons x rows ih =>
    constructor
    · intro h
      obtain ⟨_, p1, ps1, ps2, h1, h2, rfl⟩ := Wr.bind_eq_ok.1 h
      obtain ⟨rfl, q', h1⟩ := writeRowAt_eq_ok.1 h1
      obtain ⟨rfl, h2⟩ := ih.1 h2
      exact ⟨rfl, .cons h1 h2⟩
    · rintro ⟨rfl, h⟩
      cases h with
      | cons h t =>
        exact Wr.bind_of_ok (writeRowAt_eq_ok.2 ⟨rfl, _, h⟩) (ih.2 ⟨rfl, t⟩)

theorem writeAtOffsets_eq_ok {base : Nat} {rows : RowMap} {q : Nat} {ps : List Patch} :
    writeAtOffsets rows base = .ok ((), q, ps) ↔ q = base ∧ RowsWritten base rows ps := by
  unfold writeAtOffsets
  rw [← forEach_writeRowAt, Wr.bind_def, Wr.pos_def]
  simp only [List.nil_append]
  cases Wr.forEach (writeRowAt base) rows base with
  | ok x => obtain ⟨⟨⟩, a, b⟩ := x; simp
  | err e => simp
  | panic => simp

theorem writeGroups_eq_ok {heap : Nat} {gs : List RowGroup} (hl : ∀ g ∈ gs, g.rowOffsets.length = 16)
    {p q : Nat} {ps : List Patch} :
    writeGroups heap gs p = .ok ((), q, ps) ↔
      q = p ∧ 36 * gs.length ≤ p + heap ∧ ps = RowGroup.allPatches (p + heap) gs := by
  unfold writeGroups Wr.restore
  have h0 : (do Wr.seekBy (heap : Nat); Wr.forEach RowGroup.write gs : Wr Unit) p =
      match Wr.forEach RowGroup.write gs (p + heap) with
      | .ok (b, p'', ps') => .ok (b, p'', ps')
      | .err e => .err e
      | .panic => .panic := by
    rw [Wr.bind_def, Wr.seekBy_nat]
    simp only [List.nil_append]
    cases Wr.forEach RowGroup.write gs (p + heap) <;> rfl
  rw [h0]
  cases h : Wr.forEach RowGroup.write gs (p + heap) with
  | ok x =>
    obtain ⟨⟨⟩, q1, ps1⟩ := x
    obtain ⟨h1, -, rfl⟩ := RowGroup.writeAll_eq_ok hl h
    simp only [Res.ok.injEq, Prod.mk.injEq, true_and, h1]
    constructor
    · rintro ⟨rfl, rfl⟩; exact ⟨rfl, rfl⟩
    · rintro ⟨rfl, rfl⟩; exact ⟨rfl, rfl⟩
  | err e =>
    simp only [reduceCtorEq, false_iff]
    rintro ⟨-, h1, -⟩
    rw [RowGroup.writeAll_ok hl h1] at h
    cases h
  | panic =>
    simp only [reduceCtorEq, false_iff]
    rintro ⟨-, h1, -⟩
    rw [RowGroup.writeAll_ok hl h1] at h
    cases h

theorem write_eq_ok {c : DataPageContent} (hl : ∀ g ∈ c.rowGroups, g.rowOffsets.length = 16)
    {pageSize p q : Nat} {ps : List Patch} :
    c.write pageSize p = .ok ((), q, ps) ↔
      40 ≤ pageSize ∧ q = p + (pageSize - 32) ∧ 36 * c.rowGroups.length ≤ p + (pageSize - 32) ∧
      ∃ rps, RowsWritten (p + 8) c.rows rps ∧
        ps = [⟨p, c.header.enc⟩] ++ (RowGroup.allPatches (p + (pageSize - 32)) c.rowGroups ++ rps) := by
  unfold write
  rw [pageHeapSize_eq]
  by_cases h40 : 40 ≤ pageSize
  · rw [if_pos h40]
    have e1 : p + 8 + (pageSize - 40) = p + (pageSize - 32) := by omega
    constructor
    · intro h
      obtain ⟨_, p1, ps1, ps2, h1, h2, rfl⟩ := Wr.bind_eq_ok.1 h
      rw [Wr.emit_def, DataPageHeader.enc_length] at h1
      simp only [Res.ok.injEq, Prod.mk.injEq] at h1
      obtain ⟨-, rfl, rfl⟩ := h1
      obtain ⟨a, p2, ps3, ps4, h3, h4, rfl⟩ := Wr.bind_eq_ok.1 h2
      simp only [Wr.lift, Res.ok.injEq, Prod.mk.injEq] at h3
      obtain ⟨rfl, rfl, rfl⟩ := h3
      obtain ⟨_, p3, ps5, ps6, h5, h6, rfl⟩ := Wr.bind_eq_ok.1 h4
      obtain ⟨rfl, hh, rfl⟩ := (writeGroups_eq_ok hl).1 h5
      obtain ⟨_, p4, ps7, ps8, h7, h8, rfl⟩ := Wr.bind_eq_ok.1 h6
      obtain ⟨rfl, h7'⟩ := writeAtOffsets_eq_ok.1 h7
      rw [Wr.seekBy_nat] at h8
      simp only [Res.ok.injEq, Prod.mk.injEq] at h8
      obtain ⟨-, rfl, rfl⟩ := h8
      rw [e1] at hh
      refine ⟨h40, e1, hh, ps7, h7', ?_⟩
      rw [e1]
      simp
    · rintro ⟨-, rfl, hh, rps, hr, rfl⟩
      refine Wr.bind_of_ok (Wr.emit_def _ _) ?_
      rw [DataPageHeader.enc_length]
      rw [show RowGroup.allPatches (p + (pageSize - 32)) c.rowGroups ++ rps =
        [] ++ (RowGroup.allPatches (p + (pageSize - 32)) c.rowGroups ++ (rps ++ [])) by simp]
      refine Wr.bind_of_ok (a := pageSize - 40) (p1 := p + 8) rfl ?_
      refine Wr.bind_of_ok ((writeGroups_eq_ok hl).2 ⟨rfl, by omega, by rw [e1]⟩) ?_
      refine Wr.bind_of_ok (writeAtOffsets_eq_ok.2 ⟨rfl, hr⟩) ?_
      rw [Wr.seekBy_nat, e1]
  · rw [if_neg h40]
    simp only [h40, false_and, iff_false]
    intro h
    obtain ⟨_, p1, ps1, ps2, h1, h2, -⟩ := Wr.bind_eq_ok.1 h
    obtain ⟨a, p2, ps3, ps4, h3, h4, -⟩ := Wr.bind_eq_ok.1 h2
    simp [Wr.lift] at h3

theorem RowsWritten.exists {base : Nat} {rows : RowMap}
    (h : ∀ x ∈ rows, ∃ q ps, x.2.write (base + x.1.toNat) = .ok ((), q, ps)) :
    ∃ ps, RowsWritten base rows ps := by
  induction rows with
  | nil => exact ⟨[], .nil⟩
  | cons x rows ih =>
    obtain ⟨q, ps1, h1⟩ := h x (List.mem_cons_self ..)
    obtain ⟨ps2, h2⟩ := ih fun y hy => h y (List.mem_cons_of_mem _ hy)
    exact ⟨ps1 ++ ps2, .cons h1 h2⟩

theorem RowsWritten.of_contains {base : Nat} {img : Bytes} {rows : RowMap}
    (h : ∀ x ∈ rows, ∃ q ps, x.2.write (base + x.1.toNat) = .ok ((), q, ps) ∧ Contains img ps) :
    ∃ ps, RowsWritten base rows ps ∧ Contains img ps := by
  induction rows with
  | nil => exact ⟨[], .nil, Contains.nil⟩
  | cons x rows ih =>
    obtain ⟨q, ps1, h1, c1⟩ := h x (List.mem_cons_self ..)
    obtain ⟨ps2, h2, c2⟩ := ih fun y hy => h y (List.mem_cons_of_mem _ hy)
    exact ⟨ps1 ++ ps2, .cons h1 h2, Contains.append_iff.2 ⟨c1, c2⟩⟩

/-- Every written row can be read where it was written. -/
theorem RowsWritten.readable {base : Nat} {rows : RowMap} {ps : List Patch} {t : PageType}
    (h : RowsWritten base rows ps) (hs : ∀ x ∈ rows, x.2.Storable ∧ x.2.Fits t) :
    ∃ rows' : RowMap, Pointwise (fun x y => y.1 = x.1 ∧ x.2.Resolved y.2) rows rows' ∧
      ∀ img, Contains img ps → ∀ y ∈ rows', ∃ q, Row.read t img (base + y.1.toNat) = .ok (y.2, q) := by
  induction h with
  | nil => exact ⟨[], .nil, fun _ _ y hy => by cases hy⟩
  | @cons o r rows q ps1 ps2 h t ih =>
    obtain ⟨hst, hft⟩ := hs _ (List.mem_cons_self ..)
    obtain ⟨r', hr', hread⟩ := Row.write_then_read hst hft h
    obtain ⟨rows', hp, hrest⟩ := ih fun x hx => hs x (List.mem_cons_of_mem _ hx)
    refine ⟨(o, r') :: rows', .cons ⟨rfl, hr'⟩ hp, ?_⟩
    intro img hc y hy
    rw [Contains.append_iff] at hc
    rcases List.mem_cons.1 hy with rfl | hy
    · exact hread img hc.1
    · exact hrest img hc.2 y hy

theorem parseAtOffsets_eq_ok {t : PageType} {base : Nat} {os : List UInt16} {img : Bytes}
    {l : List (UInt16 × Row)} {q : Nat} :
    parseAtOffsets t base os img base = .ok (l, q) ↔
      q = base ∧ l.map Prod.fst = os ∧
        ∀ x ∈ l, ∃ q', Row.read t img (base + x.1.toNat) = .ok (x.2, q') := by
  induction os generalizing l q with
  | nil =>
    rw [parseAtOffsets, pure_eq_ok]
    constructor
    · rintro ⟨rfl, rfl⟩
      exact ⟨rfl, rfl, fun x hx => by cases hx⟩
    · rintro ⟨rfl, h, -⟩
      exact ⟨(List.map_eq_nil_iff.1 h).symm, rfl⟩
  | cons o os ih =>
    rw [parseAtOffsets, bind_of_ok (Rd.seekBy_nat o.toNat img base)]
    constructor
    · intro h
      obtain ⟨v, p1, h1, h⟩ := bind_eq_ok.1 h
      obtain ⟨_, p2, h2, h⟩ := bind_eq_ok.1 h
      have : p2 = base := by
        simp only [Rd.seekTo, Res.ok.injEq, Prod.mk.injEq] at h2
        exact h2.2.symm
      subst this
      obtain ⟨rest, p3, h3, h⟩ := bind_eq_ok.1 h
      rw [pure_eq_ok] at h
      obtain ⟨rfl, rfl⟩ := h
      obtain ⟨rfl, h4, h5⟩ := ih.1 h3
      refine ⟨rfl, by rw [List.map_cons, h4], ?_⟩
      intro x hx
      rcases List.mem_cons.1 hx with rfl | hx
      · exact ⟨p1, h1⟩
      · exact h5 x hx
    · rintro ⟨rfl, hm, hall⟩
      cases l with
      | nil => cases hm
      | cons x l =>
        rw [List.map_cons, List.cons.injEq] at hm
        obtain ⟨rfl, hm⟩ := hm
        obtain ⟨q', hx⟩ := hall x (List.mem_cons_self ..)
        rw [bind_of_ok hx, bind_of_ok (show Rd.seekTo q img q' = .ok ((), q) from rfl),
          bind_of_ok (ih.2 ⟨rfl, hm, fun y hy => hall y (List.mem_cons_of_mem _ hy)⟩)]
        rfl

/-- Reading rows whose offsets are the keys of a map gives the map. -/
theorem readRows_of {t : PageType} {gs : List RowGroup} {img : Bytes} {base : Nat} {rows : RowMap}
    (hs : rows.Sorted)
    (hk : ∀ o, o ∈ gs.flatMap RowGroup.presentRowsOffsets ↔ ∃ x ∈ rows, x.1 = o)
    (hr : ∀ x ∈ rows, ∃ q, Row.read t img (base + x.1.toNat) = .ok (x.2, q)) :
    readRows t gs img base = .ok (rows, base) := by
  have hval : ∀ os : List UInt16, (∀ o ∈ os, ∃ x ∈ rows, x.1 = o) →
      ∃ l : List (UInt16 × Row), l.map Prod.fst = os ∧ (∀ x ∈ l, x ∈ rows) := by
    intro os
    induction os with
    | nil => intro _; exact ⟨[], rfl, fun x hx => by cases hx⟩
    | cons o os ih =>
      intro h
      obtain ⟨x, hx, rfl⟩ := h o (List.mem_cons_self ..)
      obtain ⟨l, h1, h2⟩ := ih fun o ho => h o (List.mem_cons_of_mem _ ho)
      refine ⟨x :: l, by rw [List.map_cons, h1], ?_⟩
      intro y hy
      rcases List.mem_cons.1 hy with rfl | hy
      · exact hx
      · exact h2 y hy
  obtain ⟨l, hl1, hl2⟩ := hval _ fun o ho => (hk o).1 ho
  unfold readRows
  rw [bind_of_ok (show Rd.pos img base = .ok (base, base) from rfl),
    bind_of_ok (parseAtOffsets_eq_ok.2 ⟨rfl, hl1, fun x hx => hr x (hl2 x hx)⟩)]
  have hinj : ∀ x ∈ l, ∀ y ∈ l, x.1 = y.1 → x = y := fun x hx y hy h => hs.inj (hl2 x hx) (hl2 y hy) h
  obtain ⟨h1, h2⟩ := RowMap.ofList_spec hinj
  have : RowMap.ofList l = rows := by
    apply h1.ext hs
    intro x
    rw [h2 x]
    constructor
    · exact hl2 x
    · intro hx
      have : x.1 ∈ l.map Prod.fst := by rw [hl1]; exact (hk x.1).2 ⟨x, hx, rfl⟩
      obtain ⟨y, hy, he⟩ := List.mem_map.1 this
      rw [← hs.inj (hl2 y hy) hx he]
      exact hy
  rw [this]
  rfl

theorem readRows_inv {t : PageType} {gs : List RowGroup} {img : Bytes} {base q : Nat} {rows : RowMap}
    (h : readRows t gs img base = .ok (rows, q)) :
    q = base ∧ rows.Sorted ∧ (∀ o, o ∈ gs.flatMap RowGroup.presentRowsOffsets ↔ ∃ x ∈ rows, x.1 = o) ∧
      ∀ x ∈ rows, ∃ q, Row.read t img (base + x.1.toNat) = .ok (x.2, q) := by
  unfold readRows at h
  rw [bind_of_ok (show Rd.pos img base = .ok (base, base) from rfl)] at h
  obtain ⟨l, p1, h1, h⟩ := bind_eq_ok.1 h
  rw [pure_eq_ok] at h
  obtain ⟨rfl, rfl⟩ := h
  obtain ⟨rfl, h2, h3⟩ := parseAtOffsets_eq_ok.1 h1
  have hinj : ∀ x ∈ l, ∀ y ∈ l, x.1 = y.1 → x = y := by
    intro x hx y hy he
    obtain ⟨qx, hx⟩ := h3 x hx
    obtain ⟨qy, hy⟩ := h3 y hy
    rw [he, hy] at hx
    simp only [Res.ok.injEq, Prod.mk.injEq] at hx
    exact Prod.ext he hx.1.symm
  obtain ⟨h4, h5⟩ := RowMap.ofList_spec hinj
  refine ⟨rfl, h4, ?_, fun x hx => h3 x ((h5 x).1 hx)⟩
  intro o
  rw [← h2, List.mem_map]
  constructor
  · rintro ⟨x, hx, rfl⟩; exact ⟨x, (h5 x).2 hx, rfl⟩
  · rintro ⟨x, hx, rfl⟩; exact ⟨x, (h5 x).1 hx, rfl⟩

theorem presentRowsOffsets_flatMap {gs : List RowGroup} (hl : ∀ g ∈ gs, g.rowOffsets.length = 16) :
    gs.flatMap RowGroup.presentRowsOffsets = gs.flatMap RowGroup.present := by
  induction gs with
  | nil => rfl
  | cons g gs ih =>
    rw [List.flatMap_cons, List.flatMap_cons, RowGroup.presentRowsOffsets_eq g (hl g (List.mem_cons_self ..)),
      ih fun x hx => hl x (List.mem_cons_of_mem _ hx)]

theorem readGroups_eq_ok {heap n : Nat} {img : Bytes} {p q : Nat} {gs : List RowGroup} :
    readGroups heap n img p = .ok (gs, q) ↔ q = p ∧ ∃ q', Rd.many RowGroup.read n img (p + heap) = .ok (gs, q') := by
  unfold readGroups Rd.restore
  rw [bind_of_ok (Rd.seekBy_nat heap img p)]
  cases h : Rd.many RowGroup.read n img (p + heap) with
  | ok x =>
    obtain ⟨gs', q'⟩ := x
    simp only [Res.ok.injEq, Prod.mk.injEq]
    constructor
    · rintro ⟨rfl, rfl⟩; exact ⟨rfl, q', rfl, rfl⟩
    · rintro ⟨rfl, _, rfl, -⟩; exact ⟨rfl, rfl⟩
  | err e => simp
  | panic => simp

theorem read_of_contains {h : PageHeader} {c : DataPageContent} (hc : c.Consistent h)
    (hs : ∀ x ∈ c.rows, x.2.Storable ∧ x.2.Fits h.pageType) {pageSize p q : Nat} {ps : List Patch}
    (hw : c.write pageSize p = .ok ((), q, ps)) {img : Bytes} (hi : Contains img ps) :
    ∃ c', DataPageContent.read pageSize h img p = .ok (c', q) ∧ c.ReadBack c' ∧
      (∀ g ∈ c'.rowGroups, g.rowOffsets.length = 16) := by
  obtain ⟨h40, rfl, hh, rps, hr, rfl⟩ := (write_eq_ok hc.sixteen).1 hw
  rw [Contains.append_iff, Contains.append_iff, Contains.cons_iff] at hi
  obtain ⟨⟨hi1, -⟩, hi2, hi3⟩ := hi
  obtain ⟨gs', hg1, hg2, hg3⟩ := RowGroup.readAll_of_contains hc.sixteen hh hi2
  obtain ⟨rows', hp, hread⟩ := hr.readable hs
  have hkeys : rows'.map Prod.fst = c.rows.map Prod.fst := hp.map_eq fun a b hab => hab.1
  have hsorted : RowMap.Sorted rows' := by
    have h1 : (c.rows.map Prod.fst).Pairwise (· < ·) := List.pairwise_map.2 hc.sorted
    rw [← hkeys] at h1
    exact List.pairwise_map.1 h1
  have hrows : readRows h.pageType gs' img (p + 8) = .ok (rows', p + 8) := by
    refine readRows_of hsorted ?_ (hread img hi3)
    intro o
    rw [presentRowsOffsets_flatMap hg3, hg2.flatMap_eq (f := RowGroup.present) fun a b _ hab => hab.present]
    have := hc.offsets o
    unfold DataPageContent.present at this
    rw [this, ← hkeys, List.mem_map]
  refine ⟨⟨c.header, gs', rows'⟩, ?_, ⟨rfl, hg2, hp⟩, hg3⟩
  unfold read
  rw [bind_of_ok (DataPageHeader.rt _ _ _ hi1), DataPageHeader.enc_length, pageHeapSize_eq, if_pos h40,
    bind_of_ok (show Rd.lift (Res.ok (pageSize - 40)) img (p + 8) = .ok (pageSize - 40, p + 8) from rfl),
    bind_of_ok (readGroups_eq_ok.2 ⟨rfl, _, by
      rw [PackedRowCounts.numRowGroups_eq, ← hc.groups, show p + 8 + (pageSize - 40) = p + (pageSize - 32) by omega]
      exact hg1⟩),
    bind_of_ok hrows]
  rw [require_true_bind (by rw [← hp.length, hc.valid]; simp)]
  rw [bind_of_ok (Rd.seekBy_nat _ _ _), show p + 8 + (pageSize - 40) = p + (pageSize - 32) by omega]
  rfl

theorem read_inv {h : PageHeader} {c : DataPageContent} {pageSize p q : Nat} {img : Bytes}
    (hr : DataPageContent.read pageSize h img p = .ok (c, q)) :
    40 ≤ pageSize ∧ q = p + (pageSize - 32) ∧ HasAt img p c.header.enc ∧
      36 * c.rowGroups.length ≤ p + (pageSize - 32) ∧
      Contains img (RowGroup.allPatches (p + (pageSize - 32)) c.rowGroups) ∧
      c.rowGroups.length = (h.packedRowCounts.numRows.val + 15) / 16 ∧
      (∀ g ∈ c.rowGroups, g.rowOffsets.length = 16) ∧ c.rows.Sorted ∧
      (∀ o, o ∈ c.present ↔ ∃ x ∈ c.rows, x.1 = o) ∧
      h.packedRowCounts.numRowsValid.val = c.rows.length ∧
      ∀ x ∈ c.rows, ∃ q, Row.read h.pageType img (p + 8 + x.1.toNat) = .ok (x.2, q) := by
  unfold read at hr
  obtain ⟨hd, p1, h1, hr⟩ := bind_eq_ok.1 hr
  obtain ⟨bs, hb1, rfl, rfl⟩ := DataPageHeader.inv _ _ _ _ h1
  rw [DataPageHeader.enc_length, pageHeapSize_eq] at hr
  obtain ⟨heap, p2, h2, hr⟩ := bind_eq_ok.1 hr
  have h40 : 40 ≤ pageSize := by
    rcases Nat.lt_or_ge pageSize 40 with h | h
    · rw [if_neg (by omega)] at h2; simp [Rd.lift] at h2
    · exact h
  rw [if_pos h40] at h2
  simp only [Rd.lift, Res.ok.injEq, Prod.mk.injEq] at h2
  obtain ⟨rfl, rfl⟩ := h2
  obtain ⟨gs, p3, h3, hr⟩ := bind_eq_ok.1 hr
  obtain ⟨rfl, q', h3⟩ := readGroups_eq_ok.1 h3
  rw [show p + 8 + (pageSize - 40) = p + (pageSize - 32) by omega] at h3
  obtain ⟨g1, g2, g3, g4, g5⟩ := RowGroup.readAll_inv h3
  obtain ⟨rows, p4, h4, hr⟩ := bind_eq_ok.1 hr
  obtain ⟨rfl, r1, r2, r3⟩ := readRows_inv h4
  obtain ⟨_, p5, h5, hr⟩ := bind_eq_ok.1 hr
  have hv : rows.length = h.packedRowCounts.numRowsValid.val ∧ p5 = p + 8 := by
    unfold Rd.require at h5
    split at h5
    · rename_i hb
      rw [pure_eq_ok] at h5
      exact ⟨by simpa using hb, h5.2.symm⟩
    · simp [Rd.fail] at h5
  obtain ⟨hv, rfl⟩ := hv
  rw [bind_of_ok (Rd.seekBy_nat _ _ _), pure_eq_ok] at hr
  obtain ⟨rfl, rfl⟩ := hr
  refine ⟨h40, by omega, hb1, by simp only; omega, g5, ?_, g4, r1, ?_, hv.symm, r3⟩
  · simp only; rw [g1, PackedRowCounts.numRowGroups_eq]
  · intro o
    rw [← r2 o, presentRowsOffsets_flatMap g4]
    rfl

/-! ### Layout -/

theorem RowsWritten.mem {base : Nat} {rows : RowMap} {ps : List Patch} (h : RowsWritten base rows ps)
    {q : Patch} (hq : q ∈ ps) :
    ∃ x ∈ rows, ∃ q' qs, x.2.write (base + x.1.toNat) = .ok ((), q', qs) ∧ q ∈ qs := by
  induction h with
  | nil => cases hq
  | cons h t ih =>
    rcases List.mem_append.1 hq with hq | hq
    · exact ⟨_, List.mem_cons_self .., _, _, h, hq⟩
    · obtain ⟨x, hx, r⟩ := ih hq
      exact ⟨x, List.mem_cons_of_mem _ hx, r⟩

theorem RowsWritten.within {base hi : Nat} {rows : RowMap} {ps : List Patch} (h : RowsWritten base rows ps)
    (he : ∀ x ∈ rows, ∃ n, x.2.Extent n ∧ base + x.1.toNat + n ≤ hi) : PatchesWithin ps base hi := by
  intro q hq
  obtain ⟨x, hx, q', qs, hw, hqs⟩ := h.mem hq
  obtain ⟨n, hn, hle⟩ := he x hx
  have := hn _ _ _ hw q hqs
  omega

theorem RowsWritten.compatible {base : Nat} {rows : RowMap} {ps : List Patch} (h : RowsWritten base rows ps)
    (ha : rows.Pairwise fun a b => ∃ n, a.2.Extent n ∧ a.1.toNat + n ≤ b.1.toNat)
    (hc : ∀ x ∈ rows, x.2.Coherent) (he : ∀ x ∈ rows, ∃ n, x.2.Extent n) : Compatible ps := by
  induction h with
  | nil => exact Compatible.nil
  | @cons o r rows q ps1 ps2 h t ih =>
    obtain ⟨a1, a2⟩ := List.pairwise_cons.1 ha
    refine (hc _ (List.mem_cons_self ..) _ _ _ h).append
      (ih a2 (fun x hx => hc x (List.mem_cons_of_mem _ hx)) fun x hx => he x (List.mem_cons_of_mem _ hx)) ?_
    intro a ha' b hb
    obtain ⟨y, hy, q', qs, hw, hqs⟩ := t.mem hb
    obtain ⟨n, hn, hle⟩ := a1 y hy
    obtain ⟨m, hm⟩ := he y (List.mem_cons_of_mem _ hy)
    have h1 := hn _ _ _ h a ha'
    have h2 := hm _ _ _ hw b hqs
    simp only at h1 hle
    left
    omega

/-- A laid out page is written without conflicts, inside its own bytes.  `p` is the start of the page
content, 32 bytes after the start of the page. -/
theorem write_layout {c : DataPageContent} (hl : ∀ g ∈ c.rowGroups, g.rowOffsets.length = 16)
    {pageSize : Nat} (ho : c.LaidOut pageSize) {p q : Nat} {ps : List Patch}
    (hw : c.write pageSize p = .ok ((), q, ps)) : Compatible ps ∧ PatchesWithin ps p (p + (pageSize - 32)) := by
  obtain ⟨h40, -, hh, rps, hr, rfl⟩ := (write_eq_ok hl).1 hw
  obtain ⟨f, hf1, hf2, hf3⟩ := ho.fits
  have hrow : PatchesWithin rps (p + 8) (p + (pageSize - 32) - f) := by
    refine hr.within fun x hx => ?_
    obtain ⟨n, hn, hle⟩ := hf3 x hx
    exact ⟨n, hn, by omega⟩
  have hgrp : PatchesWithin (RowGroup.allPatches (p + (pageSize - 32)) c.rowGroups)
      (p + (pageSize - 32) - f) (p + (pageSize - 32)) := by
    refine RowGroup.allPatches_within hl hh fun k g hg => ?_
    have := hf1 k g hg
    omega
  have hhd : PatchesWithin [⟨p, c.header.enc⟩] p (p + 8) := by
    intro x hx
    rw [List.mem_singleton] at hx
    subst hx
    simp
  have hrc := hr.compatible ho.apart ho.coherent fun x hx => by
    obtain ⟨n, hn, -⟩ := hf3 x hx
    exact ⟨n, hn⟩
  refine ⟨?_, ?_⟩
  · refine (Compatible.singleton _).append_ranges
      ((RowGroup.allPatches_compatible hl hh).append_ranges hrc hgrp hrow (Or.inr (Nat.le_refl _)))
      hhd (c := p + 8) (d := p + (pageSize - 32)) ?_ (Or.inl (Nat.le_refl _))
    exact (hgrp.mono (by omega) (Nat.le_refl _)).append (hrow.mono (Nat.le_refl _) (by omega))
  · exact (hhd.mono (Nat.le_refl _) (by omega)).append
      ((hgrp.mono (by omega) (Nat.le_refl _)).append (hrow.mono (by omega) (by omega)))

/-- A page without rows missing from its layout can be written. -/
theorem write_ok {c : DataPageContent} {h : PageHeader} (hc : c.Consistent h) {t : PageType}
    (hs : RowsStorable t c.rows) (hrow : ∀ r : Row, r.Storable → r.OffsetsFit → ∀ p, ∃ p' ps, r.write p = .ok ((), p', ps))
    {pageSize p : Nat} (h40 : 40 ≤ pageSize) (hp : 36 * c.rowGroups.length ≤ p + (pageSize - 32)) :
    ∃ ps, c.write pageSize p = .ok ((), p + (pageSize - 32), ps) := by
  obtain ⟨rps, hr⟩ := RowsWritten.exists (base := p + 8) (rows := c.rows) fun x hx =>
    hrow x.2 (hs x hx).1 (hs x hx).2.2 _
  exact ⟨_, (write_eq_ok hc.sixteen).2 ⟨h40, rfl, hp, rps, hr, rfl⟩⟩

end DataPageContent

/-! ## Pages -/

namespace Page

theorem write_eq_ok {pg : Page} {pageSize p q : Nat} {ps : List Patch} :
    pg.write pageSize p = .ok ((), q, ps) ↔
      ∃ ps', pg.content.write pageSize (p + 32) = .ok ((), q, ps') ∧ ps = [⟨p, pg.header.enc⟩] ++ ps' := by
  unfold write
  constructor
  · intro h
    obtain ⟨_, p1, ps1, ps2, h1, h2, rfl⟩ := Wr.bind_eq_ok.1 h
    rw [Wr.emit_def, PageHeader.enc_length] at h1
    simp only [Res.ok.injEq, Prod.mk.injEq] at h1
    obtain ⟨-, rfl, rfl⟩ := h1
    exact ⟨ps2, h2, rfl⟩
  · rintro ⟨ps', h, rfl⟩
    refine Wr.bind_of_ok (Wr.emit_def _ _) ?_
    rw [PageHeader.enc_length]
    exact h

theorem content_read_data {pageSize : Nat} {h : PageHeader} (hf : h.pageFlags.isIndexPage = false)
    {img : Bytes} {p q : Nat} {c : DataPageContent} (hr : DataPageContent.read pageSize h img p = .ok (c, q)) :
    PageContent.read pageSize h img p = .ok (.data c, q) := by
  unfold PageContent.read Rd.orElse
  rw [hf]
  have : (do Rd.require (!false); let c ← DataPageContent.read pageSize h; pure (.data c) : Rd PageContent)
      img p = .ok (.data c, q) := by
    rw [require_true_bind (b := !false) rfl, bind_of_ok hr]
    rfl
  rw [this]

theorem content_read_index {pageSize : Nat} {h : PageHeader} (hf : h.pageFlags.isIndexPage = true)
    {img : Bytes} {p q : Nat} {c : IndexPageContent} (hr : IndexPageContent.read img p = .ok (c, q)) :
    PageContent.read pageSize h img p = .ok (.index c, q) := by
  unfold PageContent.read Rd.orElse
  rw [hf]
  have : (do Rd.require true; let c ← IndexPageContent.read; pure (.index c) : Rd PageContent)
      img p = .ok (.index c, q) := by
    rw [require_true_bind rfl, bind_of_ok hr]
    rfl
  exact this

theorem content_read_inv {pageSize : Nat} {h : PageHeader} {img : Bytes} {p q : Nat} {c : PageContent}
    (hr : PageContent.read pageSize h img p = .ok (c, q)) :
    (h.pageFlags.isIndexPage = false ∧ ∃ d, c = .data d ∧ DataPageContent.read pageSize h img p = .ok (d, q)) ∨
    (h.pageFlags.isIndexPage = true ∧ ∃ d, c = .index d ∧ IndexPageContent.read img p = .ok (d, q)) := by
  unfold PageContent.read Rd.orElse at hr
  cases hf : h.pageFlags.isIndexPage with
  | false =>
    left
    refine ⟨rfl, ?_⟩
    rw [hf] at hr
    cases hd : DataPageContent.read pageSize h img p with
    | ok x =>
      obtain ⟨d, q'⟩ := x
      have : (do Rd.require (!false); let c ← DataPageContent.read pageSize h; pure (.data c) : Rd PageContent)
          img p = .ok (.data d, q') := by
        rw [require_true_bind (b := !false) rfl, bind_of_ok hd]; rfl
      rw [this] at hr
      simp only [Res.ok.injEq, Prod.mk.injEq] at hr
      obtain ⟨rfl, rfl⟩ := hr
      exact ⟨d, rfl, rfl⟩
    | err e =>
      have : (do Rd.require (!false); let c ← DataPageContent.read pageSize h; pure (.data c) : Rd PageContent)
          img p = .err e := by
        rw [require_true_bind (b := !false) rfl, bind_of_err hd]
      rw [this] at hr
      cases hr
    | panic =>
      have : (do Rd.require (!false); let c ← DataPageContent.read pageSize h; pure (.data c) : Rd PageContent)
          img p = .panic := by
        rw [require_true_bind (b := !false) rfl, bind_of_panic hd]
      rw [this] at hr
      cases hr
  | true =>
    right
    refine ⟨rfl, ?_⟩
    rw [hf] at hr
    have hr' : (do Rd.require true; let c ← IndexPageContent.read; pure (.index c) : Rd PageContent)
        img p = .ok (c, q) := hr
    rw [require_true_bind rfl] at hr'
    obtain ⟨d, q', hd, hr'⟩ := bind_eq_ok.1 hr'
    rw [pure_eq_ok] at hr'
    obtain ⟨rfl, rfl⟩ := hr'
    exact ⟨d, rfl, hd⟩

theorem read_eq_ok {pageSize : Nat} {db : DatabaseType} {img : Bytes} {p q : Nat} {pg : Page}
    (h : Page.read pageSize db img p = .ok (pg, q)) :
    pg.header.pageType.ValidFor db ∧ HasAt img p pg.header.enc ∧
      PageContent.read pageSize pg.header img (p + 32) = .ok (pg.content, q) := by
  unfold read at h
  obtain ⟨hd, p1, h1, h⟩ := bind_eq_ok.1 h
  have hv := PageHeader.read_valid h1
  obtain ⟨bs, hb, rfl, rfl⟩ := PageHeader.inv _ _ _ _ _ h1
  rw [PageHeader.enc_length] at h
  obtain ⟨c, p2, h2, h⟩ := bind_eq_ok.1 h
  rw [pure_eq_ok] at h
  obtain ⟨rfl, rfl⟩ := h
  exact ⟨hv, hb, h2⟩

theorem read_of {pageSize : Nat} {db : DatabaseType} {img : Bytes} {p q : Nat} {h : PageHeader}
    {c : PageContent} (hv : h.pageType.ValidFor db) (hb : HasAt img p h.enc)
    (hc : PageContent.read pageSize h img (p + 32) = .ok (c, q)) :
    Page.read pageSize db img p = .ok (⟨h, c⟩, q) := by
  unfold read
  rw [bind_of_ok (PageHeader.rt db h hv img p hb), PageHeader.enc_length, bind_of_ok hc]
  rfl

end Page

end Rekordcrate
