import Verif.Lemmas.Rows
import Verif.Lemmas.Page

/-! # Where readers can panic -/

namespace Rekordcrate

open Rd

/-- If the reader panics at a position, then the string parser panics there or further on; a reader that
succeeds does not go back. -/
def Rd.StrOnly {α : Type} (r : Rd α) : Prop :=
  ∀ d p, (r d p = .panic → ∃ o, DString.read d (p + o) = .panic) ∧ ∀ a q, r d p = .ok (a, q) → p ≤ q

/-- A reader that never panics and takes exactly `n` bytes. -/
def Rd.Fixed {α : Type} (n : Nat) (r : Rd α) : Prop :=
  ∀ d p, r d p ≠ .panic ∧ ∀ a q, r d p = .ok (a, q) → q = p + n

/-- If the reader panics, the file is as described. -/
def Rd.PanicIf {α : Type} (r : Rd α) (P : Bytes → Nat → Prop) : Prop := ∀ d p, r d p = .panic → P d p

namespace Rd

variable {α β : Type}

theorem Fixed.strOnly {n : Nat} {r : Rd α} (h : Fixed n r) : StrOnly r := fun d p =>
  ⟨fun hp => absurd hp (h d p).1, fun a q hq => by rw [(h d p).2 a q hq]; omega⟩

theorem Fixed.of_inv {n : Nat} {r : Rd α} {P : α → Bytes → Prop} (h : NP r) (h' : Inv r P)
    (hn : ∀ a bs, P a bs → bs.length = n) : Fixed n r := fun d p =>
  ⟨h d p, fun a q hq => by
    obtain ⟨bs, -, rfl, hb⟩ := h' d p a q hq
    rw [hn a bs hb]⟩

theorem StrOnly.of_inv {r : Rd α} {P : α → Bytes → Prop} (h : NP r) (h' : Inv r P) : StrOnly r := fun d p =>
  ⟨fun hp => absurd hp (h d p), fun a q hq => by
    obtain ⟨bs, -, rfl, -⟩ := h' d p a q hq
    omega⟩

theorem StrOnly.pure (a : α) : StrOnly (Pure.pure a : Rd α) := fun d p =>
  ⟨fun h => absurd h (NP.pure a d p), fun b q h => by rw [pure_eq_ok] at h; omega⟩

theorem StrOnly.bind {r : Rd α} {f : α → Rd β} (h : StrOnly r) (h' : ∀ a, StrOnly (f a)) :
    StrOnly (r >>= f) := by
  intro d p
  constructor
  · intro he
    rcases bind_eq_panic.1 he with h1 | ⟨a, p', h1, h2⟩
    · exact (h d p).1 h1
    · obtain ⟨o, ho⟩ := (h' a d p').1 h2
      have := (h d p).2 a p' h1
      exact ⟨p' - p + o, by rwa [show p + (p' - p + o) = p' + o by omega]⟩
  · intro b q he
    obtain ⟨a, p', h1, h2⟩ := bind_eq_ok.1 he
    exact Nat.le_trans ((h d p).2 _ _ h1) ((h' a d p').2 _ _ h2)

theorem PanicIf.bind {n : Nat} {r : Rd α} {f : α → Rd β} {P : Bytes → Nat → Prop} (h : Fixed n r)
    (h' : ∀ a, PanicIf (f a) P) : PanicIf (r >>= f) (fun d p => P d (p + n)) := by
  intro d p he
  rcases bind_eq_panic.1 he with h1 | ⟨a, p', h1, h2⟩
  · exact absurd h1 (h d p).1
  · have := (h d p).2 a p' h1
    subst this
    exact h' a d _ h2

theorem PanicIf.bind_pure {r : Rd α} {f : α → β} {P : Bytes → Nat → Prop} (h : PanicIf r P) :
    PanicIf (r >>= fun a => Pure.pure (f a)) P := by
  intro d p he
  rcases bind_eq_panic.1 he with h1 | ⟨a, p', -, h2⟩
  · exact h d p h1
  · exact absurd h2 (NP.pure _ _ _)

theorem Fixed.u8 : Fixed 1 Rd.u8 := .of_inv NP.u8 Inv.u8 fun a bs h => by subst h; rfl
theorem Fixed.u16 : Fixed 2 Rd.u16 := .of_inv NP.u16 Inv.u16 fun a bs h => by subst h; simp
theorem Fixed.u32 : Fixed 4 Rd.u32 := .of_inv NP.u32 Inv.u32 fun a bs h => by subst h; simp

theorem StrOnly.magic (m : Bytes) : StrOnly (Rd.magic m) := .of_inv (NP.magic m) (Inv.magic m)

end Rd

theorem DString.strOnly : StrOnly DString.read := fun d p =>
  ⟨fun h => ⟨0, h⟩, fun a q h => by
    obtain ⟨bs, -, rfl, -⟩ := DString.read_inv d p a q h
    omega⟩

theorem OffsetContainer.readItems_panic {d : Bytes} {base cur : Nat} (hc : base ≤ cur) {os : List Nat}
    (h : readItems d base cur os = .panic) : ∃ o, DString.read d (base + o) = .panic := by
  induction os generalizing cur with
  | nil => cases h
  | cons o os ih =>
    unfold readItems at h
    cases hr : DString.read d (cur + o) with
    | panic => exact ⟨cur - base + o, by rwa [show base + (cur - base + o) = cur + o by omega]⟩
    | ok x =>
      obtain ⟨v, q⟩ := x
      rw [hr] at h
      simp only at h
      cases h2 : readItems d base base os with
      | panic => exact ih (Nat.le_refl _) h2
      | ok _ => rw [h2] at h; cases h
      | err _ => rw [h2] at h; cases h
    | err e =>
      rw [hr] at h
      simp only at h
      cases h2 : readItems d base (cur + o) os with
      | panic => exact ih (by omega) h2
      | ok _ => rw [h2] at h; cases h
      | err _ => rw [h2] at h; cases h

theorem OffsetContainer.panicIf {T : Type} [OffsetItems T] (offset : Nat) (size : OffsetSize) :
    PanicIf (OffsetContainer.read offset size : Rd (OffsetContainer T))
      (fun d p => offset ≤ p ∧ ∃ o, DString.read d (p - offset + o) = .panic) := by
  intro d p h
  unfold read at h
  rcases bind_eq_panic.1 h with h1 | ⟨start, p1, h1, h⟩
  · cases h1
  · simp only [Rd.pos, Res.ok.injEq, Prod.mk.injEq] at h1
    obtain ⟨rfl, rfl⟩ := h1
    rcases bind_eq_panic.1 h with h1 | ⟨os, p2, -, h⟩
    · exact absurd h1 (OffsetArray.read_np _ _ _ _)
    rcases bind_eq_panic.1 h with h1 | ⟨_, p3, -, h⟩
    · exact absurd h1 (NP.require _ _ _ _)
    by_cases hle : offset ≤ p
    · rcases bind_eq_panic.1 h with h1 | ⟨base, p4, h1, h⟩
      · rw [calculateBase, if_pos hle] at h1; cases h1
      rw [calculateBase, if_pos hle] at h1
      simp only [Rd.lift, Res.ok.injEq, Prod.mk.injEq] at h1
      obtain ⟨rfl, rfl⟩ := h1
      rcases bind_eq_panic.1 h with h1 | ⟨_, p5, h1, h⟩
      · cases h1
      simp only [Rd.seekTo, Res.ok.injEq, Prod.mk.injEq, true_and] at h1
      subst h1
      rcases bind_eq_panic.1 h with h1 | ⟨_, p6, -, h⟩
      · unfold readAll at h1
        cases hr : readItems d (p - offset) (p - offset) os.seeks with
        | panic => exact ⟨hle, readItems_panic (Nat.le_refl _) hr⟩
        | ok _ => rw [hr] at h1; cases h1
        | err _ => rw [hr] at h1; cases h1
      · exact absurd h (NP.pure _ _ _)
    · rw [calculateBase, if_neg hle] at h
      rcases bind_eq_panic.1 h with h1 | ⟨base, p4, h1, h⟩
      · cases h1
      · cases h1

/-! ## Rows -/

theorem ColorIndex.fixed : Fixed 1 ColorIndex.read := .of_inv ColorIndex.np ColorIndex.inv fun a bs h => by subst h; simp

theorem ColorIndex.strOnly : StrOnly ColorIndex.read := .of_inv ColorIndex.np ColorIndex.inv
theorem FileType.fixed : Fixed 2 FileType.read := .of_inv FileType.np FileType.inv fun a bs h => by subst h; simp

theorem MenuVisibility.strOnly : StrOnly MenuVisibility.read :=
  .of_inv (NP.orElse (NP.magicEnum _) (NP.bind NP.u8 fun _ => NP.pure _)) MenuVisibility.inv

/-- Closes goals about readers that are sequences of field readers. -/
macro "str_fields" : tactic =>
  `(tactic| repeat' first
    | with_reducible exact StrOnly.pure _
    | with_reducible exact DString.strOnly
    | with_reducible exact Fixed.u8.strOnly
    | with_reducible exact Fixed.u16.strOnly
    | with_reducible exact Fixed.u32.strOnly
    | with_reducible exact StrOnly.magic _
    | with_reducible exact ColorIndex.strOnly
    | with_reducible exact MenuVisibility.strOnly
    | with_reducible refine StrOnly.bind ?_ fun _ => ?_)

/-- The conclusion for rows. -/
def StringPanics (d : Bytes) (p : Nat) : Prop := ∃ o, DString.read d (p + o) = .panic

theorem Rd.StrOnly.panicIf {α : Type} {r : Rd α} (h : StrOnly r) : PanicIf r StringPanics := fun d p => (h d p).1

theorem Album.panicIf : PanicIf Album.read StringPanics := by
  intro d p h
  unfold Album.read at h
  obtain ⟨-, o, ho⟩ := (PanicIf.bind Fixed.u16 fun _ =>
    PanicIf.bind Fixed.u16 fun _ =>
    PanicIf.bind Fixed.u32 fun _ =>
    PanicIf.bind Fixed.u32 fun _ =>
    PanicIf.bind Fixed.u32 fun _ =>
    PanicIf.bind Fixed.u32 fun _ =>
    PanicIf.bind_pure (OffsetContainer.panicIf 20 _)) d p h
  exact ⟨o, by rw [← ho]; first | (congr 1; done) | (congr 1; omega)⟩

theorem Artist.panicIf : PanicIf Artist.read StringPanics := by
  intro d p h
  unfold Artist.read at h
  obtain ⟨-, o, ho⟩ := (PanicIf.bind Fixed.u16 fun _ =>
    PanicIf.bind Fixed.u16 fun _ =>
    PanicIf.bind Fixed.u32 fun _ =>
    PanicIf.bind_pure (OffsetContainer.panicIf 8 _)) d p h
  exact ⟨o, by rw [← ho]; first | (congr 1; done) | (congr 1; omega)⟩

theorem Track.panicIf : PanicIf Track.read StringPanics := by
  intro d p h
  unfold Track.read at h
  obtain ⟨-, o, ho⟩ := (PanicIf.bind Fixed.u16 fun _ =>
    PanicIf.bind Fixed.u16 fun _ =>
    PanicIf.bind Fixed.u32 fun _ =>
    PanicIf.bind Fixed.u32 fun _ =>
    PanicIf.bind Fixed.u32 fun _ =>
    PanicIf.bind Fixed.u32 fun _ =>
    PanicIf.bind Fixed.u32 fun _ =>
    PanicIf.bind Fixed.u16 fun _ =>
    PanicIf.bind Fixed.u16 fun _ =>
    PanicIf.bind Fixed.u32 fun _ =>
    PanicIf.bind Fixed.u32 fun _ =>
    PanicIf.bind Fixed.u32 fun _ =>
    PanicIf.bind Fixed.u32 fun _ =>
    PanicIf.bind Fixed.u32 fun _ =>
    PanicIf.bind Fixed.u32 fun _ =>
    PanicIf.bind Fixed.u32 fun _ =>
    PanicIf.bind Fixed.u32 fun _ =>
    PanicIf.bind Fixed.u32 fun _ =>
    PanicIf.bind Fixed.u32 fun _ =>
    PanicIf.bind Fixed.u32 fun _ =>
    PanicIf.bind Fixed.u32 fun _ =>
    PanicIf.bind Fixed.u16 fun _ =>
    PanicIf.bind Fixed.u16 fun _ =>
    PanicIf.bind Fixed.u16 fun _ =>
    PanicIf.bind Fixed.u16 fun _ =>
    PanicIf.bind Fixed.u16 fun _ =>
    PanicIf.bind Fixed.u16 fun _ =>
    PanicIf.bind ColorIndex.fixed fun _ =>
    PanicIf.bind Fixed.u8 fun _ =>
    PanicIf.bind FileType.fixed fun _ =>
    PanicIf.bind_pure (OffsetContainer.panicIf 92 _)) d p h
  exact ⟨o, by rw [← ho]; first | (congr 1; done) | (congr 1; omega)⟩

theorem TagOrCategory.panicIf : PanicIf TagOrCategory.read StringPanics := by
  intro d p h
  unfold TagOrCategory.read at h
  obtain ⟨-, o, ho⟩ := (PanicIf.bind Fixed.u16 fun _ =>
    PanicIf.bind Fixed.u16 fun _ =>
    PanicIf.bind Fixed.u32 fun _ =>
    PanicIf.bind Fixed.u32 fun _ =>
    PanicIf.bind Fixed.u32 fun _ =>
    PanicIf.bind Fixed.u32 fun _ =>
    PanicIf.bind Fixed.u32 fun _ =>
    PanicIf.bind Fixed.u32 fun _ =>
    PanicIf.bind_pure (OffsetContainer.panicIf 28 _)) d p h
  exact ⟨o, by rw [← ho]; first | (congr 1; done) | (congr 1; omega)⟩

theorem PlainRow.panicIf (t : PlainPageType) : PanicIf (PlainRow.read t) StringPanics := by
  cases t with
  | albums => exact PanicIf.bind_pure Album.panicIf
  | artists => exact PanicIf.bind_pure Artist.panicIf
  | artwork => refine PanicIf.bind_pure (StrOnly.panicIf ?_); unfold Artwork.read; str_fields
  | colors => refine PanicIf.bind_pure (StrOnly.panicIf ?_); unfold Color.read; str_fields
  | genres => refine PanicIf.bind_pure (StrOnly.panicIf ?_); unfold Genre.read; str_fields
  | historyPlaylists => refine PanicIf.bind_pure (StrOnly.panicIf ?_); unfold HistoryPlaylist.read; str_fields
  | historyEntries => refine PanicIf.bind_pure (StrOnly.panicIf ?_); unfold HistoryEntry.read; str_fields
  | history => refine PanicIf.bind_pure (StrOnly.panicIf ?_); unfold History.read; str_fields
  | keys => refine PanicIf.bind_pure (StrOnly.panicIf ?_); unfold Key.read; str_fields
  | labels => refine PanicIf.bind_pure (StrOnly.panicIf ?_); unfold Label.read; str_fields
  | playlistTree => refine PanicIf.bind_pure (StrOnly.panicIf ?_); unfold PlaylistTreeNode.read; str_fields
  | playlistEntries => refine PanicIf.bind_pure (StrOnly.panicIf ?_); unfold PlaylistEntry.read; str_fields
  | columns => refine PanicIf.bind_pure (StrOnly.panicIf ?_); unfold ColumnEntry.read; str_fields
  | menu => refine PanicIf.bind_pure (StrOnly.panicIf ?_); unfold Menu.read; str_fields
  | tracks => exact PanicIf.bind_pure Track.panicIf

theorem ExtRow.panicIf (t : ExtPageType) : PanicIf (ExtRow.read t) StringPanics := by
  cases t with
  | tag => exact PanicIf.bind_pure TagOrCategory.panicIf
  | trackTag => refine PanicIf.bind_pure (StrOnly.panicIf ?_); unfold TrackTag.read; str_fields

theorem Row.panicIf (t : PageType) : PanicIf (Row.read t) StringPanics := by
  cases t with
  | plain t => exact PanicIf.bind_pure (PlainRow.panicIf t)
  | ext t => exact PanicIf.bind_pure (ExtRow.panicIf t)
  | unknown c => exact (StrOnly.pure _).panicIf

/-! ## Pages -/

theorem DataPageContent.parseAtOffsets_panic {d : Bytes} {t : PageType} {base : Nat} {os : List UInt16}
    (h : parseAtOffsets t base os d base = .panic) : ∃ o ∈ os, Row.read t d (base + o.toNat) = .panic := by
  induction os with
  | nil => exact absurd h (NP.pure _ _ _)
  | cons o os ih =>
    unfold parseAtOffsets at h
    rw [bind_of_ok (Rd.seekBy_nat _ _ _)] at h
    rcases bind_eq_panic.1 h with h1 | ⟨v, p1, -, h⟩
    · exact ⟨o, List.mem_cons_self .., h1⟩
    rw [bind_of_ok (show Rd.seekTo base d p1 = .ok ((), base) from rfl)] at h
    rcases bind_eq_panic.1 h with h1 | ⟨l, p2, -, h⟩
    · obtain ⟨o', ho, h2⟩ := ih h1
      exact ⟨o', List.mem_cons_of_mem _ ho, h2⟩
    · exact absurd h (NP.pure _ _ _)

theorem DataPageContent.panic {d : Bytes} {pageSize : Nat} {hd : PageHeader} (hp : 40 ≤ pageSize) {p : Nat}
    (h : DataPageContent.read pageSize hd d p = .panic) :
    ∃ o : UInt16, Row.read hd.pageType d (p + 8 + o.toNat) = .panic := by
  unfold read at h
  rcases bind_eq_panic.1 h with h1 | ⟨x, p1, h1, h⟩
  · exact absurd h1 (DataPageHeader.np _ _)
  obtain ⟨bs, -, rfl, rfl⟩ := DataPageHeader.inv _ _ _ _ h1
  rw [DataPageHeader.enc_length, pageHeapSize_eq, if_pos hp] at h
  rw [bind_of_ok (show Rd.lift (Res.ok (pageSize - 40)) d (p + 8) = .ok (pageSize - 40, p + 8) from rfl)] at h
  rcases bind_eq_panic.1 h with h1 | ⟨gs, p2, h2, h⟩
  · refine absurd h1 (NP.restore ?_ _ _)
    exact NP.bind (NP.seekBy _) fun _ => NP.many RowGroup.np _
  obtain ⟨rfl, -⟩ := readGroups_eq_ok.1 h2
  rcases bind_eq_panic.1 h with h1 | ⟨rows, p3, -, h⟩
  · unfold readRows at h1
    rw [bind_of_ok (show Rd.pos d (p + 8) = .ok (p + 8, p + 8) from rfl)] at h1
    rcases bind_eq_panic.1 h1 with h1 | ⟨l, p2, -, h⟩
    · obtain ⟨o, -, ho⟩ := parseAtOffsets_panic h1
      exact ⟨o, ho⟩
    · exact absurd h (NP.pure _ _ _)
  · refine absurd h ?_
    exact (NP.bind (NP.require _ _) fun _ => NP.bind (NP.seekBy _) fun _ => NP.pure _) _ _

theorem Page.panic {d : Bytes} {pageSize : Nat} {db : DatabaseType} (hp : 40 ≤ pageSize) {p : Nat}
    (h : Page.read pageSize db d p = .panic) :
    ∃ hd : PageHeader, HasAt d p hd.enc ∧ hd.pageFlags.isIndexPage = false ∧
      ∃ o : UInt16, Row.read hd.pageType d (p + 40 + o.toNat) = .panic := by
  unfold read at h
  rcases bind_eq_panic.1 h with h1 | ⟨hd, p1, h1, h⟩
  · exact absurd h1 (PageHeader.np db _ _)
  obtain ⟨bs, hb, rfl, rfl⟩ := PageHeader.inv db _ _ _ _ h1
  rw [PageHeader.enc_length] at h
  rcases bind_eq_panic.1 h with h1 | ⟨_, p2, -, h⟩
  · refine ⟨hd, hb, ?_⟩
    unfold PageContent.read Rd.orElse at h1
    have hidx : ∀ q, (do Rd.require hd.pageFlags.isIndexPage; let c ← IndexPageContent.read; pure (.index c) :
        Rd PageContent) d q ≠ .panic := fun q =>
      (NP.bind (NP.require _ _) fun _ => NP.bind IndexPageContent.np fun _ => NP.pure _) _ _
    cases hr : (do Rd.require (!hd.pageFlags.isIndexPage); let c ← DataPageContent.read pageSize hd
                   pure (.data c) : Rd PageContent) d (p + 32) with
    | ok _ => rw [hr] at h1; cases h1
    | err _ => rw [hr] at h1; exact absurd h1 (hidx _)
    | panic =>
      rcases bind_eq_panic.1 hr with h2 | ⟨_, p3, h2, h3⟩
      · exact absurd h2 (NP.require _ _ _ _)
      · unfold Rd.require at h2
        split at h2
        · rename_i hf
          rw [pure_eq_ok] at h2
          obtain ⟨-, rfl⟩ := h2
          rcases bind_eq_panic.1 h3 with h4 | ⟨_, p4, -, h4⟩
          · exact ⟨by simpa using hf, DataPageContent.panic hp h4⟩
          · exact absurd h4 (NP.pure _ _ _)
        · cases h2
  · exact absurd h (NP.pure _ _ _)

end Rekordcrate
