import Verif.Lemmas.Truncate
import Verif.Lemmas.Layout

/-! # Databases read from a truncated image -/

namespace Rekordcrate

open Rd

theorem ByteAt.of_prefix {img full : Bytes} (h : img <+: full) {i : Nat} {b : UInt8} (hb : ByteAt img i b) :
    ByteAt full i b := by
  obtain ⟨t, rfl⟩ := h
  unfold ByteAt at *
  rw [List.getElem?_append_left (List.getElem?_eq_some_iff.1 hb).1, hb]

theorem HasAt.of_prefix {img full : Bytes} (h : img <+: full) {p : Nat} {bs : Bytes} (hb : HasAt img p bs) :
    HasAt full p bs := by
  intro i hi
  have := hb i hi
  rw [List.getElem?_eq_getElem hi] at this ⊢
  exact ByteAt.of_prefix h this

theorem ByteAt.of_le {img full : Bytes} (h : img <+: full) {i : Nat} {b : UInt8} (hb : ByteAt full i b)
    (hi : i < img.length) : ByteAt img i b := by
  obtain ⟨t, rfl⟩ := h
  unfold ByteAt at *
  rwa [List.getElem?_append_left hi] at hb

/-! ## Strings -/

theorem readNullString_ok_of_nul {d : Bytes} {p z : Nat} (hz : p ≤ z) (h : ByteAt d z 0) :
    ∃ x, readNullString d p = .ok x := by
  unfold readNullString
  simp only
  rw [if_pos]
  · exact ⟨_, rfl⟩
  · refine Nat.lt_of_not_le fun hlt => ?_
    have hl : (List.takeWhile (fun b : UInt8 => b != 0) (d.drop p)).length = (d.drop p).length :=
      Nat.le_antisymm (List.takeWhile_prefix _).length_le (by omega)
    have he : List.takeWhile (fun b : UInt8 => b != 0) (d.drop p) = d.drop p :=
      (List.takeWhile_prefix _).eq_of_length hl
    have hm : (0 : UInt8) ∈ d.drop p := by
      rw [List.mem_iff_getElem?]
      refine ⟨z - p, ?_⟩
      rw [List.getElem?_drop, show p + (z - p) = z by omega]
      exact h
    rw [← he] at hm
    have := List.all_eq_true.1 List.all_takeWhile _ hm
    simp at this

theorem Rd.Cut.readNullString {G : Bytes → Prop} {P : Prop} : Cut G P readNullString := by
  intro img full p hp _
  by_cases h : ∃ e, Rekordcrate.readNullString img p = .err e
  · exact .inl h
  refine .inr (.inl ?_)
  obtain ⟨t, rfl⟩ := hp
  unfold Rekordcrate.readNullString at *
  simp only at *
  split at h
  · rename_i hl
    have hle : p ≤ img.length := by
      refine Nat.le_of_not_lt fun hc => ?_
      rw [List.drop_eq_nil_of_le (by omega)] at hl
      simp at hl
    rw [List.drop_append_of_le_length hle]
    have : List.takeWhile (fun b : UInt8 => b != 0) (img.drop p ++ t) =
        List.takeWhile (fun b : UInt8 => b != 0) (img.drop p) := by
      rw [List.takeWhile_append, if_neg (by omega)]
    rw [this, if_pos (by rw [List.length_append]; omega), if_pos hl]
  · exact absurd ⟨_, rfl⟩ h

theorem LongBody.cut_ascii {G : Bytes → Prop} {P : Prop} {f : UInt8} (hf : f ≠ 0x90) (n : Nat) : Cut G P (LongBody.read f n) := by
  unfold LongBody.read
  have h : (f == 0x90) = false := by simpa using hf
  refine Cut.orElse_right (Fails.require h _) (Cut.orElse_left ?_ (Fails.require h _))
  exact .bind (.require _ _) fun _ => .bind (.bytes _) fun _ => .pure _

theorem magic_one {b : UInt8} {d : Bytes} {p : Nat} : (ByteAt d p b ∧ Rd.magic [b] d p = .ok ((), p + 1)) ∨
    (¬ ByteAt d p b ∧ ∃ e, Rd.magic [b] d p = .err e) := by
  cases h : Rd.magic [b] d p with
  | panic => exact absurd h (NP.magic _ _ _)
  | ok x =>
    obtain ⟨u, q⟩ := x
    obtain ⟨bs, hb, hq, rfl⟩ := Inv.magic [b] d p u q h
    refine .inl ⟨hb 0 (by simp), ?_⟩
    rw [hq]; rfl
  | err e =>
    refine .inr ⟨fun hb => ?_, e, rfl⟩
    have := RT.magic [b] d p (fun i hi => by
      have : i = 0 := by simpa using hi
      subst this
      exact hb)
    rw [h] at this
    cases this

/-- A string with the mark of an ISRC, where the whole image has the NUL byte. -/
theorem LongBody.cutAt_marked {P : Prop} {n p : Nat} {img full : Bytes} (hp : img <+: full)
    (hz : n % 2 = 0 → ByteAt full p 3 → ∃ z, p + 1 ≤ z ∧ z < p + n ∧ ByteAt full z 0) :
    CutAt P (LongBody.read 0x90 n) img full p := by
  have hgt : ∀ {α : Type} {r : Rd α}, Cut (fun _ => True) P r → CutAt P r img full p := fun h => h img full p hp trivial
  unfold LongBody.read
  refine CutAt.orElse (hgt ?_) (hgt ?_) ?_
  · exact .bind (.require _ _) fun _ => .bind (.magic _) fun _ => .bind Cut.readNullString fun _ => .pure _
  · exact Cut.orElse_right (Fails.require rfl _)
      (.bind (.require _ _) fun _ => .bind (.require _ _) fun _ => .bind (.many .u16 _) fun _ => .pure _)
  · intro ha
    have ha : ∃ e, (do Rd.magic [0x3]; let s ← readNullString; pure (LongBody.isrc s) : Rd LongBody) img p = .err e := ha
    have goal : (∃ e, (do Rd.require (n % 2 == 0); let us ← Rd.many Rd.u16 (n / 2); pure (LongBody.ucs2le us) : Rd LongBody)
          img p = .err e) ∨
        ∃ e, (do Rd.magic [0x3]; let s ← readNullString; pure (LongBody.isrc s) : Rd LongBody) full p = .err e := by
      by_cases hn : n % 2 = 0
      · rcases magic_one (b := 3) (d := full) (p := p) with ⟨h3, -⟩ | ⟨-, e, he⟩
        · left
          have hreq : (n % 2 == 0) = true := by simpa using hn
          obtain ⟨z, hz1, hz2, hz0⟩ := hz hn h3
          cases hm : Rd.many Rd.u16 (n / 2) img p with
          | err e =>
            refine ⟨e, ?_⟩
            rw [require_true_bind hreq]
            exact bind_of_err hm
          | panic => exact absurd hm (NP.many NP.u16 _ _ _)
          | ok x =>
            exfalso
            obtain ⟨us, q⟩ := x
            obtain ⟨bs, hb, -, rfl, hl⟩ := Inv.many Inv.u16 encU16 (fun _ _ h => h) _ _ _ _ _ hm
            have hlen : (us.flatMap encU16).length = n := by
              rw [flatMap_encU16_length, hl]; omega
            have hin : p + n ≤ img.length := by
              have := hb.bound (by intro h0; rw [h0] at hlen; simp at hlen; omega)
              omega
            obtain ⟨e, he⟩ := ha
            rcases magic_one (b := 3) (d := img) (p := p) with ⟨-, hm3⟩ | ⟨hm3, -⟩
            · rw [bind_of_ok hm3] at he
              obtain ⟨x, hx⟩ := readNullString_ok_of_nul hz1 (hz0.of_le hp (by omega))
              obtain ⟨s, q'⟩ := x
              rw [bind_of_ok hx] at he
              cases he
            · exact hm3 (h3.of_le hp (by omega))
        · exact .inr ⟨e, bind_of_err he⟩
      · left
        have hreq : (n % 2 == 0) = false := by simpa using hn
        exact Fails.require hreq _ _ _
    rcases goal with h | h
    · exact .inl h
    · exact .inr h

theorem DString.readLong_cut {P : Prop} : Cut IsrcsEnd P DString.readLong := by
  intro img full p hp hg
  unfold DString.readLong
  refine (Cut.u8 img full p hp hg).bind fun f q hf => ?_
  refine (Cut.require _ _ img full q hp hg).bind fun _ q' hr => ?_
  refine (Cut.u16 img full q' hp hg).bind fun l q2 hl => ?_
  refine (Cut.lift _ img full q2 hp hg).bind fun n q3 hn => ?_
  refine (Cut.magic _ img full q3 hp hg).bind fun _ q4 hm => ?_
  refine CutAt.bind ?_ fun _ _ _ => Cut.pure _ img full _ hp hg
  by_cases hfl : f = 0x90
  · subst hfl
    refine LongBody.cutAt_marked hp fun hpar h3 => ?_
    obtain ⟨bs, hb, rfl, rfl⟩ := Inv.u8 _ _ _ _ hf
    cases hr
    obtain ⟨bs, hb2, rfl, rfl⟩ := Inv.u16 _ _ _ _ hl
    have hn' : subU l.toNat 4 = .ok n ∧ q3 = p + (encU8 144).length + (encU16 l).length := by
      cases hs : subU l.toNat 4 with
      | ok m => rw [hs] at hn; cases hn; exact ⟨rfl, rfl⟩
      | err _ => rw [hs] at hn; cases hn
      | panic => rw [hs] at hn; cases hn
    obtain ⟨hn', rfl⟩ := hn'
    unfold subU at hn'
    split at hn'
    · rename_i h4
      cases hn'
      rcases magic_one (b := 0) (d := img) (p := p + (encU8 144).length + (encU16 l).length) with ⟨h0, hm'⟩ | ⟨-, e, he⟩
      · rw [hm'] at hm
        cases hm
        simp only [encU8, List.length_cons, List.length_nil, encU16_length] at h0 h3 hb2 ⊢
        obtain ⟨z, h1, h2, h3⟩ := hg p l.toNat (ByteAt.of_prefix hp (hb 0 (by simp [encU8])))
          (U16At.of_hasAt (hb2.of_prefix hp)) (by omega) (ByteAt.of_prefix hp (by simpa using h0)) (by simpa using h3)
        exact ⟨z, by omega, by omega, h3⟩
      · rw [he] at hm; cases hm
    · cases hn'
  · exact LongBody.cut_ascii (G := fun _ => True) hfl _ img full _ hp trivial

theorem DString.readShort_cut {G : Bytes → Prop} {P : Prop} : Cut G P DString.readShort :=
  .bind .u8 fun _ => .bind (.require _ _) fun _ => .bind (.lift _) fun _ => .bind (.bytes _) fun _ => .pure _

theorem DString.cut {P : Prop} : Cut IsrcsEnd P DString.read := by
  intro img full p hp hg
  refine CutAt.orElse (DString.readShort_cut img full p hp hg) (DString.readLong_cut img full p hp hg) fun _ => ?_
  cases h8 : Rd.u8 img p with
  | err e => exact .inl ⟨e, bind_of_err h8⟩
  | panic => exact absurd h8 (NP.u8 _ _)
  | ok x =>
    obtain ⟨f, q⟩ := x
    by_cases hf : f.toNat % 2 = 0
    · right
      have h8' := (Cut.u8 (G := fun _ => True) (P := False) img full p hp trivial).ok h8
      have : (f.toNat % 2 == 1) = false := by
        rw [hf]; rfl
      unfold DString.readShort
      rw [bind_of_ok h8', this]
      exact ⟨_, rfl⟩
    · left
      have : (f.toNat % 2 == 0) = false := by simpa using hf
      unfold DString.readLong
      rw [bind_of_ok h8, this]
      exact ⟨_, rfl⟩

/-! ## Offset arrays -/

theorem OffsetArray.cut {G : Bytes → Prop} {P : Prop} (n : Nat) (size : OffsetSize) : Cut G P (OffsetArray.read n size) := by
  refine Cut.orElse_guards ?_ ?_ ?_
  · cases size <;> simp
  · exact .bind (.magic _) fun _ => .bind (.many .u8 _) fun _ => .pure _
  · exact .bind (.magic _) fun _ => .bind (.many .u16 _) fun _ => .pure _

theorem OffsetContainer.readItems_cut {img full : Bytes} (hp : img <+: full) (hg : IsrcsEnd full) {base : Nat} :
    ∀ {os : List Nat} {cur : Nat} {vs : List DString}, readItems img base cur os = .ok vs →
      readItems full base cur os = .ok vs
  | [], _, _, h => h
  | o :: os, cur, vs, h => by
    unfold readItems at h ⊢
    cases hr : DString.read img (cur + o) with
    | panic => rw [hr] at h; cases h
    | err e =>
      rw [hr] at h
      simp only at h
      cases h2 : readItems img base (cur + o) os with
      | ok _ => rw [h2] at h; cases h
      | err _ => rw [h2] at h; cases h
      | panic => rw [h2] at h; cases h
    | ok x =>
      obtain ⟨v, q⟩ := x
      rw [hr] at h
      rw [(DString.cut (P := False) img full _ hp hg).ok hr]
      simp only at h ⊢
      cases h2 : readItems img base base os with
      | ok ws =>
        rw [h2] at h
        rw [OffsetContainer.readItems_cut hp hg h2]
        exact h
      | err _ => rw [h2] at h; cases h
      | panic => rw [h2] at h; cases h

theorem OffsetContainer.readAll_cut (base : Nat) (os : List Nat) : Cut IsrcsEnd True (readAll base os) := by
  intro img full p hp hg
  unfold CutAt readAll
  cases h : readItems img base p os with
  | ok vs => rw [readItems_cut hp hg h]; exact .inr (.inl rfl)
  | err e => exact .inl ⟨e, rfl⟩
  | panic => exact .inr (.inr ⟨trivial, rfl⟩)

theorem OffsetContainer.cut {T : Type} [OffsetItems T] (offset : Nat) (size : OffsetSize) :
    Cut IsrcsEnd True (OffsetContainer.read offset size : Rd (OffsetContainer T)) :=
  .bind .pos fun _ => .bind (OffsetArray.cut _ _) fun _ => .bind (.require _ _) fun _ => .bind (.lift _) fun _ =>
    .bind (.seekTo _) fun _ => .bind (readAll_cut _ _) fun _ => .pure _

/-! ## Rows -/

theorem ColorIndex.exactly : Exactly 1 ColorIndex.read := Exactly.magicEnum (by omega) (by decide)

theorem FileType.exactly : Exactly 2 FileType.read :=
  (Exactly.magicEnum (by omega) (by decide)).orElse (Exactly.u16.bind fun _ _ _ _ => rfl)

theorem MenuVisibility.exactly : Exactly 1 MenuVisibility.read :=
  (Exactly.magicEnum (by omega) (by decide)).orElse (Exactly.u8.bind fun _ _ _ _ => rfl)

/-- Closes goals about readers that are sequences of field readers. -/
macro "cut_fields" : tactic =>
  `(tactic| repeat' first
    | with_reducible exact Cut.pure _
    | with_reducible exact DString.cut
    | with_reducible exact Cut.u8
    | with_reducible exact Cut.u16
    | with_reducible exact Cut.u32
    | with_reducible exact Cut.u16be
    | with_reducible exact Cut.u32be
    | with_reducible exact Cut.bytes _
    | with_reducible exact Cut.magic _
    | with_reducible exact Cut.require _ _
    | with_reducible exact Cut.lift _
    | with_reducible exact ColorIndex.exactly.cut
    | with_reducible exact FileType.exactly.cut
    | with_reducible exact MenuVisibility.exactly.cut
    | with_reducible exact OffsetContainer.cut _ _
    | with_reducible refine Cut.bind ?_ fun _ => ?_)

theorem Album.cut : Cut IsrcsEnd True Album.read := by unfold Album.read; cut_fields
theorem Artist.cut : Cut IsrcsEnd True Artist.read := by unfold Artist.read; cut_fields
theorem Artwork.cut : Cut IsrcsEnd True Artwork.read := by unfold Artwork.read; cut_fields
theorem Color.cut : Cut IsrcsEnd True Color.read := by unfold Color.read; cut_fields
theorem Genre.cut : Cut IsrcsEnd True Genre.read := by unfold Genre.read; cut_fields
theorem HistoryPlaylist.cut : Cut IsrcsEnd True HistoryPlaylist.read := by unfold HistoryPlaylist.read; cut_fields
theorem HistoryEntry.cut : Cut IsrcsEnd True HistoryEntry.read := by unfold HistoryEntry.read; cut_fields
theorem History.cut : Cut IsrcsEnd True History.read := by unfold History.read; cut_fields
theorem Key.cut : Cut IsrcsEnd True Key.read := by unfold Key.read; cut_fields
theorem Label.cut : Cut IsrcsEnd True Label.read := by unfold Label.read; cut_fields
theorem PlaylistTreeNode.cut : Cut IsrcsEnd True PlaylistTreeNode.read := by unfold PlaylistTreeNode.read; cut_fields
theorem PlaylistEntry.cut : Cut IsrcsEnd True PlaylistEntry.read := by unfold PlaylistEntry.read; cut_fields
theorem ColumnEntry.cut : Cut IsrcsEnd True ColumnEntry.read := by unfold ColumnEntry.read; cut_fields
theorem Menu.cut : Cut IsrcsEnd True Menu.read := by unfold Menu.read; cut_fields
theorem Track.cut : Cut IsrcsEnd True Track.read := by unfold Track.read; cut_fields
theorem TagOrCategory.cut : Cut IsrcsEnd True TagOrCategory.read := by unfold TagOrCategory.read; cut_fields
theorem TrackTag.cut : Cut IsrcsEnd True TrackTag.read := by unfold TrackTag.read; cut_fields

theorem PlainRow.cut (t : PlainPageType) : Cut IsrcsEnd True (PlainRow.read t) := by
  cases t <;> refine Cut.bind ?_ fun _ => Cut.pure _
  · exact Track.cut
  · exact Genre.cut
  · exact Artist.cut
  · exact Album.cut
  · exact Label.cut
  · exact Key.cut
  · exact Color.cut
  · exact PlaylistTreeNode.cut
  · exact PlaylistEntry.cut
  · exact HistoryPlaylist.cut
  · exact HistoryEntry.cut
  · exact Artwork.cut
  · exact ColumnEntry.cut
  · exact Menu.cut
  · exact History.cut

theorem Row.cut (t : PageType) : Cut IsrcsEnd True (Row.read t) := by
  cases t with
  | plain t => exact .bind (PlainRow.cut t) fun _ => .pure _
  | ext t => cases t with
    | tag => exact .bind (.bind TagOrCategory.cut fun _ => .pure _) fun _ => .pure _
    | trackTag => exact .bind (.bind TrackTag.cut fun _ => .pure _) fun _ => .pure _
  | unknown c => exact .pure _

/-! ## Pages -/

theorem PageType.exactly (db : DatabaseType) : Exactly 4 (PageType.read db) := by
  refine Exactly.orElse (Exactly.require ?_ _ _) (Exactly.orElse (Exactly.require ?_ _ _) ?_)
  · exact (Exactly.magicEnum (by omega) (by decide)).bind fun _ _ _ _ => rfl
  · exact (Exactly.magicEnum (by omega) (by decide)).bind fun _ _ _ _ => rfl
  · exact Exactly.u32.bind fun _ _ _ _ => rfl

theorem PageIndex.cut {G : Bytes → Prop} {P : Prop} : Cut G P PageIndex.read := .bind .u32 fun _ => .pure _

theorem PageHeader.cut {G : Bytes → Prop} {P : Prop} (db : DatabaseType) : Cut G P (PageHeader.read db) :=
  .bind (.magic _) fun _ => .bind PageIndex.cut fun _ => .bind (PageType.exactly db).cut fun _ =>
    .bind PageIndex.cut fun _ => .bind .u32 fun _ => .bind .u32 fun _ =>
    .bind (.bind (.bytes 3) fun _ => .pure _) fun _ => .bind (.bind (.bytes 1) fun _ => .pure _) fun _ =>
    .bind .u16 fun _ => .bind .u16 fun _ => .pure _

theorem DataPageHeader.cut {G : Bytes → Prop} {P : Prop} : Cut G P DataPageHeader.read := by
  unfold DataPageHeader.read; cut_fields

theorem IndexPageContent.cut {G : Bytes → Prop} {P : Prop} : Cut G P IndexPageContent.read := by
  refine .bind ?_ fun _ => .bind (.many (.bind .u32 fun _ => .pure _) _) fun _ => .pure _
  exact .bind .u16 fun _ => .bind .u16 fun _ => .bind (.magic _) fun _ => .bind .u16 fun _ => .bind PageIndex.cut fun _ =>
    .bind PageIndex.cut fun _ => .bind (.magic _) fun _ => .bind .u16 fun _ => .bind .u16 fun _ => .pure _

theorem RowGroup.cut {G : Bytes → Prop} {P : Prop} : Cut G P RowGroup.read :=
  .bind (.seekBy _) fun _ => .bind (.many .u16 _) fun _ => .bind .u16 fun _ => .bind .u16 fun _ =>
    .bind (.seekBy _) fun _ => .pure _

theorem DataPageContent.parseAtOffsets_cut (t : PageType) (base : Nat) : ∀ os : List UInt16,
    Cut IsrcsEnd True (parseAtOffsets t base os)
  | [] => .pure _
  | _ :: os => .bind (.seekBy _) fun _ => .bind (Row.cut t) fun _ => .bind (.seekTo _) fun _ =>
      .bind (parseAtOffsets_cut t base os) fun _ => .pure _

theorem DataPageContent.cut (pageSize : Nat) (h : PageHeader) : Cut IsrcsEnd True (DataPageContent.read pageSize h) :=
  .bind DataPageHeader.cut fun _ => .bind (.lift _) fun _ =>
    .bind (.restore (.bind (.seekBy _) fun _ => .many RowGroup.cut _)) fun _ =>
    .bind (.bind .pos fun _ => .bind (parseAtOffsets_cut _ _ _) fun _ => .pure _) fun _ =>
    .bind (.require _ _) fun _ => .bind (.seekBy _) fun _ => .pure _

theorem PageContent.cut (pageSize : Nat) (h : PageHeader) : Cut IsrcsEnd True (PageContent.read pageSize h) := by
  refine Cut.orElse_guards ?_ ?_ ?_
  · cases h.pageFlags.isIndexPage <;> simp
  · exact .bind (DataPageContent.cut _ _) fun _ => .pure _
  · exact .bind IndexPageContent.cut fun _ => .pure _

theorem Page.cut (pageSize : Nat) (db : DatabaseType) : Cut IsrcsEnd True (Page.read pageSize db) :=
  .bind (PageHeader.cut db) fun _ => .bind (PageContent.cut _ _) fun _ => .pure _

/-! ## The header of the database -/

theorem Header.cut {G : Bytes → Prop} {P : Prop} (db : DatabaseType) : Cut G P (Header.read db) :=
  .bind (.magic _) fun _ => .bind .u32 fun _ => .bind .u32 fun _ => .bind PageIndex.cut fun _ => .bind .u32 fun _ =>
    .bind .u32 fun _ => .bind (.magic _) fun _ =>
    .bind (.many (.bind (PageType.exactly db).cut fun _ => .bind .u32 fun _ => .bind PageIndex.cut fun _ =>
      .bind PageIndex.cut fun _ => .pure _) _) fun _ => .pure _

end Rekordcrate
