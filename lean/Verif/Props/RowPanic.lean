import Verif.Lemmas.NoPanic
import Verif.Spec.RowPanic
import Verif.Props.DString
import Verif.Props.PageLayout

/-! # Exactly which rows and pages make the parser panic -/

namespace Rekordcrate

open Rd

/-! ## Sequences of fields -/

/-- Started `k` bytes behind `p`, the reader panics exactly if the input at `p` is as described; such inputs
are long enough for what was read before. -/
def Rd.PanicIff {α : Type} (k : Nat) (r : Rd α) (P : Bytes → Nat → Prop) : Prop :=
  ∀ d p, (r d (p + k) = .panic ↔ P d p) ∧ (P d p → p + k ≤ d.length)

/-- A field of `n` bytes that never panics, and is accepted exactly if its bytes are as described. -/
def Rd.Field {α : Type} (n : Nat) (C : Bytes → Nat → Prop) (r : Rd α) : Prop :=
  ∀ d p, r d p ≠ .panic ∧ (∀ a q, r d p = .ok (a, q) → q = p + n ∧ C d p) ∧
    (C d p → p + n ≤ d.length → ∃ a, r d p = .ok (a, p + n))

namespace Rd

variable {α β : Type}

theorem PanicIff.congr {k : Nat} {r : Rd α} {P Q : Bytes → Nat → Prop} (h : PanicIff k r P)
    (e : ∀ d p, P d p ↔ Q d p) : PanicIff k r Q := fun d p =>
  ⟨(h d p).1.trans (e d p), fun hq => (h d p).2 ((e d p).2 hq)⟩

theorem PanicIff.field {k n : Nat} {C P : Bytes → Nat → Prop} {r : Rd α} {f : α → Rd β} (h : Field n C r)
    [Nonempty α] (h' : ∀ a, PanicIff (k + n) (f a) P) :
    PanicIff k (r >>= f) (fun d p => C d (p + k) ∧ P d p) := by
  intro d p
  obtain ⟨h1, h2, h3⟩ := h d (p + k)
  have e : p + k + n = p + (k + n) := Nat.add_assoc ..
  have hb : P d p → p + (k + n) ≤ d.length := (h' (Classical.choice inferInstance) d p).2
  constructor
  · rw [bind_eq_panic]
    constructor
    · rintro (he | ⟨a, q, ha, hf⟩)
      · exact absurd he h1
      · obtain ⟨rfl, hc⟩ := h2 a q ha
        exact ⟨hc, (h' a d p).1.1 (by rw [← e]; exact hf)⟩
    · rintro ⟨hc, hp⟩
      obtain ⟨a, ha⟩ := h3 hc (by rw [e]; exact hb hp)
      exact .inr ⟨a, _, ha, by rw [e]; exact (h' a d p).1.2 hp⟩
  · rintro ⟨-, hp⟩
    have := hb hp
    omega

theorem PanicIff.plain [Nonempty α] {k n : Nat} {P : Bytes → Nat → Prop} {r : Rd α} {f : α → Rd β}
    (h : Field n (fun _ _ => True) r) (h' : ∀ a, PanicIff (k + n) (f a) P) : PanicIff k (r >>= f) P :=
  (PanicIff.field h h').congr fun d p => by rw [true_and]

theorem PanicIff.map {k : Nat} {r : Rd α} {f : α → β} {P : Bytes → Nat → Prop} (h : PanicIff k r P) :
    PanicIff k (r >>= fun a => Pure.pure (f a)) P := by
  intro d p
  refine ⟨?_, (h d p).2⟩
  rw [bind_eq_panic, ← (h d p).1]
  constructor
  · rintro (he | ⟨a, q, -, hf⟩)
    · exact he
    · exact absurd hf (NP.pure _ _ _)
  · exact .inl

theorem PanicIff.never {k : Nat} {r : Rd α} (h : NP r) : PanicIff k r (fun _ _ => False) := fun d p =>
  ⟨⟨fun he => h d _ he, False.elim⟩, False.elim⟩

theorem Field.bytes (n : Nat) : Field n (fun _ _ => True) (Rd.bytes n) := by
  intro d p
  refine ⟨NP.bytes n d p, fun a q h => ⟨(bytes_eq_ok.1 h).2.2, trivial⟩, fun _ hl => ⟨(d.drop p).take n, ?_⟩⟩
  exact bytes_eq_ok.2 ⟨by rw [List.length_take, List.length_drop]; omega, hasAt_take_drop d p n, rfl⟩

theorem Field.map {n : Nat} {C : Bytes → Nat → Prop} {r : Rd α} (h : Field n C r) (f : α → β) :
    Field n C (r >>= fun a => Pure.pure (f a)) := by
  intro d p
  obtain ⟨h1, h2, h3⟩ := h d p
  refine ⟨fun he => ?_, fun b q hb => ?_, fun hc hl => ?_⟩
  · rcases bind_eq_panic.1 he with he | ⟨a, q, -, hf⟩
    · exact h1 he
    · exact absurd hf (NP.pure _ _ _)
  · obtain ⟨a, q', ha, hf⟩ := bind_eq_ok.1 hb
    rw [pure_eq_ok] at hf
    obtain ⟨-, rfl⟩ := hf
    exact h2 a _ ha
  · obtain ⟨a, ha⟩ := h3 hc hl
    exact ⟨f a, by rw [bind_of_ok ha]; rfl⟩

theorem Field.u8 : Field 1 (fun _ _ => True) Rd.u8 := (Field.bytes 1).map _
theorem Field.u16 : Field 2 (fun _ _ => True) Rd.u16 := (Field.bytes 2).map _
theorem Field.u32 : Field 4 (fun _ _ => True) Rd.u32 := (Field.bytes 4).map _

theorem Field.magic (m : Bytes) : Field m.length (fun d p => HasAt d p m) (Rd.magic m) := by
  intro d p
  refine ⟨NP.magic m d p, fun a q h => ?_, fun h _ => ⟨(), RT.magic m d p h⟩⟩
  obtain ⟨bs, hb, rfl, rfl⟩ := Inv.magic m d p a q h
  exact ⟨rfl, hb⟩

end Rd

theorem hasAt_singleton {d : Bytes} {p : Nat} {b : UInt8} : HasAt d p [b] ↔ d[p]? = some b := by
  constructor
  · intro h
    simpa using h 0 (by simp)
  · intro h i hi
    have : i = 0 := by simpa using hi
    subst this
    simpa using h

theorem ColorIndex.field : Field 1 ColorAt ColorIndex.read := by
  intro d p
  refine ⟨ColorIndex.np d p, fun c q h => ?_, fun hc _ => ?_⟩
  · obtain ⟨bs, hb, rfl, rfl⟩ := ColorIndex.inv d p c q h
    refine ⟨rfl, c.code, ?_, by cases c <;> decide⟩
    rw [ColorIndex.enc, encU8] at hb
    exact hasAt_singleton.1 hb
  · obtain ⟨b, hb, hle⟩ := hc
    have : ∃ c : ColorIndex, c.enc = [b] := by
      have hn := b.toNat_lt
      have hx : ∀ n, n ≤ 8 → ∃ c : ColorIndex, c.enc = [UInt8.ofNat n] := by
        intro n hn
        match n, hn with
        | 0, _ => exact ⟨.none, rfl⟩
        | 1, _ => exact ⟨.pink, rfl⟩
        | 2, _ => exact ⟨.red, rfl⟩
        | 3, _ => exact ⟨.orange, rfl⟩
        | 4, _ => exact ⟨.yellow, rfl⟩
        | 5, _ => exact ⟨.green, rfl⟩
        | 6, _ => exact ⟨.aqua, rfl⟩
        | 7, _ => exact ⟨.blue, rfl⟩
        | 8, _ => exact ⟨.purple, rfl⟩
      obtain ⟨c, hc⟩ := hx b.toNat hle
      exact ⟨c, by rw [hc, UInt8.ofNat_toNat]⟩
    obtain ⟨c, hc⟩ := this
    exact ⟨c, ColorIndex.rt c d p (by rw [hc]; exact hasAt_singleton.2 hb)⟩

theorem FileType.field : Field 2 (fun _ _ => True) FileType.read := by
  intro d p
  refine ⟨FileType.np d p, fun c q h => ?_, fun _ hl => ?_⟩
  · obtain ⟨bs, hb, rfl, rfl⟩ := FileType.inv d p c q h
    exact ⟨by simp, trivial⟩
  · obtain ⟨-, -, h3⟩ := Field.u16 d p
    obtain ⟨v, hv⟩ := h3 trivial hl
    unfold FileType.read Rd.orElse
    cases hm : Rd.magicEnum ([FileType.unknown, .mp3, .m4a, .flac, .wav, .aiff].map fun t => (t.enc, t)) d p with
    | ok x =>
      obtain ⟨a, q⟩ := x
      obtain ⟨bs, hb, rfl, hi⟩ := Inv.magicEnum _ d p a q hm
      simp only [List.mem_map, Prod.mk.injEq] at hi
      obtain ⟨x, _, rfl, rfl⟩ := hi
      exact ⟨x, by simp⟩
    | err e => exact ⟨.other v, by simp only; rw [bind_of_ok hv]; rfl⟩
    | panic => exact absurd hm (NP.magicEnum _ _ _)

/-! ## Strings -/

theorem BadString.bound {d : Bytes} {p : Nat} (h : BadString d p) : p < d.length := by
  rcases h with h | ⟨b, n, h, -⟩ <;> exact (List.getElem?_eq_some_iff.1 h).1

theorem DString.panic_iff (d : Bytes) (p : Nat) : DString.read d p = .panic ↔ BadString d p :=
  string_parser_panic_partial d p

theorem DString.panicIff (k : Nat) : PanicIff k DString.read (fun d p => BadString d (p + k)) := fun d p =>
  ⟨DString.panic_iff d _, fun h => Nat.le_of_lt h.bound⟩

theorem DString.read_le {d : Bytes} {p q : Nat} {v : DString} (h : DString.read d p = .ok (v, q)) : p ≤ q :=
  (DString.strOnly d p).2 v q h

theorem OffsetContainer.readItems_panic_iff (d : Bytes) (base cur : Nat) (os : List Nat) :
    readItems d base cur os = .panic ↔ ∃ q ∈ stringPositions d base cur os, BadString d q := by
  induction os generalizing cur with
  | nil => simp [readItems, stringPositions]
  | cons o os ih =>
    rw [readItems, stringPositions]
    simp only [List.mem_cons, exists_eq_or_imp, ← DString.panic_iff]
    cases hr : DString.read d (cur + o) with
    | panic => simp
    | ok x =>
      obtain ⟨v, q⟩ := x
      simp only [reduceCtorEq, Res.isOk, if_true, false_or, DString.panic_iff, ← ih base]
      cases readItems d base base os <;> simp
    | err e =>
      simp only [reduceCtorEq, Res.isOk, false_or, DString.panic_iff]
      rw [if_neg (by simp), ← ih (cur + o)]
      cases readItems d base (cur + o) os <;> simp

theorem OffsetContainer.panic_iff {T : Type} [OffsetItems T] (offset : Nat) (size : OffsetSize) (d : Bytes)
    (p : Nat) :
    (OffsetContainer.read offset size : Rd (OffsetContainer T)) d (p + offset) = .panic ↔
      ∃ os : OffsetArray, os.sizeMatches size = true ∧ os.length = OffsetItems.count T ∧
        HasAt d (p + offset) os.enc ∧ ∃ q ∈ stringPositions d p p os.seeks, BadString d q := by
  have key : ∀ os q, OffsetArray.read (OffsetItems.count T) size d (p + offset) = .ok (os, q) →
      os.sizeMatches size = true →
      ((OffsetContainer.read offset size : Rd (OffsetContainer T)) d (p + offset) = .panic ↔
        readItems d p p os.seeks = .panic) := by
    intro os q hos hs
    unfold read
    rw [bind_of_ok (show Rd.pos d (p + offset) = .ok (p + offset, p + offset) from rfl), bind_of_ok hos,
      require_true_bind hs, calculateBase_ok (by omega), show p + offset - offset = p by omega,
      bind_of_ok (show Rd.lift (Res.ok p) d q = .ok (p, q) from rfl),
      bind_of_ok (show Rd.seekTo p d q = .ok ((), p) from rfl), bind_eq_panic]
    have e : readAll p os.seeks d p = .panic ↔ readItems d p p os.seeks = .panic := by
      unfold readAll
      cases readItems d p p os.seeks <;> simp
    rw [e]
    constructor
    · rintro (h | ⟨_, _, -, h⟩)
      · exact h
      · exact absurd h (NP.pure _ _ _)
    · exact .inl
  constructor
  · intro h
    cases hos : OffsetArray.read (OffsetItems.count T) size d (p + offset) with
    | panic => exact absurd hos (OffsetArray.read_np _ _ _ _)
    | err e =>
      unfold read at h
      rw [bind_of_ok (show Rd.pos d (p + offset) = .ok (p + offset, p + offset) from rfl), bind_of_err hos] at h
      cases h
    | ok x =>
      obtain ⟨os, q⟩ := x
      obtain ⟨bs, hb, rfl, rfl, hs, hn⟩ := OffsetArray.read_inv _ _ _ _ _ _ hos
      exact ⟨os, hs, hn, hb, (readItems_panic_iff d p p os.seeks).1 ((key os _ hos hs).1 h)⟩
  · rintro ⟨os, hs, hn, hb, hq⟩
    exact (key os _ (OffsetArray.read_rt hs hn d _ hb) hs).2 ((readItems_panic_iff d p p os.seeks).2 hq)

/-- The offset array of a row, given the subtype. -/
def BadArray (head count : Nat) (subtype : UInt16) (d : Bytes) (p : Nat) : Prop :=
  ∃ os : OffsetArray, os.sizeMatches (docWidth subtype) = true ∧ os.length = count ∧
    HasAt d (p + head) os.enc ∧ ∃ s ∈ stringPositions d p p os.seeks, BadString d s

theorem badStringBehindOffsets_iff {head count : Nat} {d : Bytes} {p : Nat} :
    BadStringBehindOffsets head count d p ↔
      ∃ s, HasAt d p (encU16 s) ∧ BadArray head count s d p := by
  constructor
  · rintro ⟨s, os, h1, h2⟩; exact ⟨s, h1, os, h2⟩
  · rintro ⟨s, h1, os, h2⟩; exact ⟨s, os, h1, h2⟩

theorem OffsetContainer.panicIff {T : Type} [OffsetItems T] (offset : Nat) (subtype : UInt16) :
    PanicIff offset (OffsetContainer.read offset (offsetSizeOf subtype) : Rd (OffsetContainer T))
      (BadArray offset (OffsetItems.count T) subtype) := by
  intro d p
  rw [offsetSizeOf_eq]
  refine ⟨OffsetContainer.panic_iff offset _ d p, ?_⟩
  rintro ⟨os, -, -, h, -⟩
  have := h.bound (by cases os <;> simp [OffsetArray.enc, encU16, leEnc])
  omega

/-- The subtype decides how the rest is read. -/
theorem Rd.PanicIff.subtype {β : Type} {f : UInt16 → Rd β} {P : UInt16 → Bytes → Nat → Prop}
    (h : ∀ s, PanicIff 2 (f s) (P s)) :
    PanicIff 0 (Rd.u16 >>= f) (fun d p => ∃ s, HasAt d p (encU16 s) ∧ P s d p) := by
  intro d p
  rw [Nat.add_zero, bind_eq_panic]
  refine ⟨⟨?_, ?_⟩, ?_⟩
  · rintro (he | ⟨a, q, ha, hf⟩)
    · exact absurd he (NP.u16 _ _)
    · obtain ⟨bs, hb, rfl, rfl⟩ := Inv.u16 _ _ _ _ ha
      rw [encU16_length] at hf
      exact ⟨a, hb, (h a d p).1.1 hf⟩
  · rintro ⟨s, hs, hp⟩
    exact .inr ⟨s, _, RT.u16 s d p hs, by rw [encU16_length]; exact (h s d p).1.2 hp⟩
  · rintro ⟨s, hs, -⟩
    have := hs.bound (by simp [encU16, leEnc])
    omega

instance : Nonempty ColorIndex := ⟨.none⟩
instance : Nonempty FileType := ⟨.unknown⟩

/-- Takes a reader apart into its fields. -/
macro "panic_fields" : tactic =>
  `(tactic| repeat first
    | with_reducible refine PanicIff.plain Field.u8 fun _ => ?_
    | with_reducible refine PanicIff.plain Field.u16 fun _ => ?_
    | with_reducible refine PanicIff.plain Field.u32 fun _ => ?_
    | with_reducible refine PanicIff.plain FileType.field fun _ => ?_)

theorem Album.panicIff : PanicIff 0 Album.read (BadStringBehindOffsets 20 1) := by
  refine (PanicIff.subtype (P := BadArray 20 1) fun s => ?_).congr fun d p => badStringBehindOffsets_iff.symm
  panic_fields
  exact PanicIff.map (OffsetContainer.panicIff 20 s)

theorem Artist.panicIff : PanicIff 0 Artist.read (BadStringBehindOffsets 8 1) := by
  refine (PanicIff.subtype (P := BadArray 8 1) fun s => ?_).congr fun d p => badStringBehindOffsets_iff.symm
  panic_fields
  exact PanicIff.map (OffsetContainer.panicIff 8 s)

theorem TagOrCategory.panicIff : PanicIff 0 TagOrCategory.read (BadStringBehindOffsets 28 2) := by
  refine (PanicIff.subtype (P := BadArray 28 2) fun s => ?_).congr fun d p => badStringBehindOffsets_iff.symm
  panic_fields
  exact PanicIff.map (OffsetContainer.panicIff 28 s)

theorem Track.panicIff :
    PanicIff 0 Track.read (fun d p => ColorAt d (p + 88) ∧ BadStringBehindOffsets 92 21 d p) := by
  refine (PanicIff.subtype (P := fun s d p => ColorAt d (p + 88) ∧ BadArray 92 21 s d p) fun s => ?_).congr
    fun d p => ?_
  · panic_fields
    refine PanicIff.field ColorIndex.field fun _ => ?_
    panic_fields
    exact PanicIff.map (OffsetContainer.panicIff 92 s)
  · rw [badStringBehindOffsets_iff]
    constructor
    · rintro ⟨s, h1, h2, h3⟩; exact ⟨h2, s, h1, h3⟩
    · rintro ⟨h2, s, h1, h3⟩; exact ⟨s, h1, h2, h3⟩

theorem Color.panicIff : PanicIff 0 Color.read (fun d p => ColorAt d (p + 5) ∧ BadString d (p + 8)) := by
  unfold Color.read
  panic_fields
  refine PanicIff.field ColorIndex.field fun _ => ?_
  panic_fields
  exact PanicIff.map (DString.panicIff 8)

/-- A string and what is behind it. -/
theorem Rd.string_bind_panic {β : Type} {f : DString → Rd β} {P : Nat → Prop} {d : Bytes}
    (h : ∀ v q, f v d q = .panic ↔ P q) (p : Nat) :
    (DString.read >>= f) d p = .panic ↔ BadString d p ∨ ∃ v q, DString.read d p = .ok (v, q) ∧ P q := by
  rw [bind_eq_panic, DString.panic_iff]
  refine or_congr Iff.rfl ⟨?_, ?_⟩
  · rintro ⟨v, q, hv, hf⟩; exact ⟨v, q, hv, (h v q).1 hf⟩
  · rintro ⟨v, q, hv, hf⟩; exact ⟨v, q, hv, (h v q).2 hf⟩

theorem DString.read_bound {d : Bytes} {p q : Nat} {v : DString} (h : DString.read d p = .ok (v, q)) :
    p ≤ d.length := by
  obtain ⟨bs, hb, -, hp⟩ := DString.read_inv _ _ _ _ h
  have := hb.bound (by cases hp <;> simp [longBytes])
  omega

theorem History.panicIff : PanicIff 0 History.read (fun d p => PlainPageType.BadRow d p .history) := by
  unfold History.read
  panic_fields
  refine PanicIff.field (n := 4) (Field.magic (encU32 0)) fun _ => ?_
  intro d p
  refine ⟨Rd.string_bind_panic (fun v q => ?_) _, ?_⟩
  · have h1 : ∀ (g : DString → Rd History) q', (∀ v, ∃ a, g v = pure a) →
        ((DString.read >>= g) d q' = .panic ↔ BadString d q') := by
      intro g q' hg
      rw [bind_eq_panic, DString.panic_iff]
      constructor
      · rintro (h | ⟨v, q, -, h⟩)
        · exact h
        · obtain ⟨a, ha⟩ := hg v
          rw [ha] at h
          exact absurd h (NP.pure _ _ _)
      · exact .inl
    rw [bind_eq_panic]
    constructor
    · rintro (h | ⟨_, q1, h2, h3⟩)
      · exact absurd h (NP.magic _ _ _)
      · obtain ⟨bs, hb, rfl, rfl⟩ := Inv.magic _ _ _ _ _ h2
        exact ⟨hb, (Rd.string_bind_panic (fun v' q' => h1 _ q' fun w => ⟨_, rfl⟩) _).1 h3⟩
    · rintro ⟨h2, h3⟩
      exact .inr ⟨(), _, RT.magic _ _ _ h2,
        (Rd.string_bind_panic (fun v' q' => h1 _ q' fun w => ⟨_, rfl⟩) _).2 h3⟩
  · rintro (h | ⟨v, q, h, -⟩)
    · exact Nat.le_of_lt h.bound
    · exact DString.read_bound h

/-- C66: the parser of a row panics exactly if the row has a string of impossible length which the parser
comes to. -/
theorem row_read_panic_iff (t : PageType) (d : Bytes) (p : Nat) : Row.read t d p = .panic ↔ t.BadRow d p := by
  have key : PanicIff 0 (Row.read t) (fun d p => t.BadRow d p) := by
    cases t with
    | plain t =>
      refine PanicIff.map ?_
      cases t with
      | albums => exact PanicIff.map Album.panicIff
      | artists => exact PanicIff.map Artist.panicIff
      | tracks => exact PanicIff.map Track.panicIff
      | colors => exact PanicIff.map Color.panicIff
      | history => exact PanicIff.map History.panicIff
      | artwork => refine PanicIff.map ?_; unfold Artwork.read; panic_fields; exact PanicIff.map (DString.panicIff 4)
      | genres => refine PanicIff.map ?_; unfold Genre.read; panic_fields; exact PanicIff.map (DString.panicIff 4)
      | historyPlaylists =>
        refine PanicIff.map ?_; unfold HistoryPlaylist.read; panic_fields; exact PanicIff.map (DString.panicIff 4)
      | labels => refine PanicIff.map ?_; unfold Label.read; panic_fields; exact PanicIff.map (DString.panicIff 4)
      | columns =>
        refine PanicIff.map ?_; unfold ColumnEntry.read; panic_fields; exact PanicIff.map (DString.panicIff 4)
      | keys => refine PanicIff.map ?_; unfold Key.read; panic_fields; exact PanicIff.map (DString.panicIff 8)
      | playlistTree =>
        refine PanicIff.map ?_; unfold PlaylistTreeNode.read; panic_fields
        exact PanicIff.map (DString.panicIff 20)
      | playlistEntries =>
        exact PanicIff.never (NP.bind (NP.bind NP.u32 fun _ => NP.bind NP.u32 fun _ =>
          NP.bind NP.u32 fun _ => NP.pure _) fun _ => NP.pure _)
      | historyEntries =>
        exact PanicIff.never (NP.bind (NP.bind NP.u32 fun _ => NP.bind NP.u32 fun _ =>
          NP.bind NP.u32 fun _ => NP.pure _) fun _ => NP.pure _)
      | menu =>
        exact PanicIff.never (NP.bind (NP.bind NP.u16 fun _ => NP.bind NP.u16 fun _ =>
          NP.bind NP.u8 fun _ => NP.bind (NP.orElse (NP.magicEnum _) (NP.bind NP.u8 fun _ => NP.pure _)) fun _ =>
            NP.bind NP.u16 fun _ => NP.pure _) fun _ => NP.pure _)
    | ext t =>
      refine PanicIff.map ?_
      cases t with
      | tag => exact PanicIff.map TagOrCategory.panicIff
      | trackTag =>
        exact PanicIff.never (NP.bind (NP.bind (NP.magic _) fun _ => NP.bind NP.u32 fun _ =>
          NP.bind NP.u32 fun _ => NP.bind NP.u32 fun _ => NP.pure _) fun _ => NP.pure _)
    | unknown c => exact PanicIff.never (NP.pure _)
  exact (key d p).1

/-! ## Pages -/

theorem RowGroup.read_iff {img : Bytes} {e q : Nat} {g : RowGroup} :
    RowGroup.read img e = .ok (g, q) ↔ 36 ≤ e ∧ q = e - 36 ∧ g.rowOffsets.length = 16 ∧
      HasAt img (e - 36) ((g.rowOffsets.flatMap encU16) ++ (encU16 g.rowPresenceFlags ++ encU16 g.unknown)) := by
  constructor
  · intro h
    obtain ⟨he, rfl, hl, -⟩ := RowGroup.read_inv h
    refine ⟨he, rfl, hl, ?_⟩
    unfold RowGroup.read at h
    rw [bind_of_ok (show Rd.seekBy (-36) img e = _ from Rd.seekBy_neg (k := 36) img he)] at h
    obtain ⟨l, p1, h1, h⟩ := bind_eq_ok.1 h
    obtain ⟨bs, hb, rfl, rfl, hll⟩ := Inv.many Inv.u16 encU16 (fun a bs h => h) 16 _ _ _ _ h1
    obtain ⟨f, p2, h2, h⟩ := bind_eq_ok.1 h
    obtain ⟨bs, hb2, rfl, rfl⟩ := Inv.u16 _ _ _ _ h2
    obtain ⟨u, p3, h3, h⟩ := bind_eq_ok.1 h
    obtain ⟨bs, hb3, rfl, rfl⟩ := Inv.u16 _ _ _ _ h3
    obtain ⟨_, p4, -, h⟩ := bind_eq_ok.1 h
    rw [pure_eq_ok] at h
    obtain ⟨rfl, -⟩ := h
    rw [HasAt.append_iff, HasAt.append_iff]
    exact ⟨hb, hb2, hb3⟩
  · rintro ⟨he, rfl, hl, h⟩
    rw [HasAt.append_iff, HasAt.append_iff, flatMap_encU16_length, hl, encU16_length] at h
    unfold RowGroup.read
    rw [bind_of_ok (show Rd.seekBy (-36) img e = _ from Rd.seekBy_neg (k := 36) img he),
      bind_of_ok (RT.many' hl (fun x _ => RT.u16 x) _ _ h.1), flatMap_encU16_length, hl,
      bind_of_ok (RT.u16 _ _ _ h.2.1), encU16_length, bind_of_ok (RT.u16 _ _ _ h.2.2), encU16_length,
      show e - 36 + 16 * 2 + 2 + 2 = e by omega,
      bind_of_ok (show Rd.seekBy (-36) img e = _ from Rd.seekBy_neg (k := 36) img he)]
    rfl

theorem RowGroup.readAll_iff {img : Bytes} {n e : Nat} {gs : List RowGroup} :
    (∃ q, Rd.many RowGroup.read n img e = .ok (gs, q)) ↔
      gs.length = n ∧ 36 * gs.length ≤ e ∧ ∀ (k : Nat) g, gs[k]? = some g →
        g.rowOffsets.length = 16 ∧ HasAt img (e - 36 * k - 36) ((g.rowOffsets.flatMap encU16) ++
          (encU16 g.rowPresenceFlags ++ encU16 g.unknown)) := by
  induction n generalizing e gs with
  | zero =>
    constructor
    · rintro ⟨q, h⟩
      rw [Rd.many, pure_eq_ok] at h
      obtain ⟨rfl, -⟩ := h
      exact ⟨rfl, Nat.zero_le _, fun k g h => by simp at h⟩
    · rintro ⟨h, -⟩
      obtain rfl := List.length_eq_zero_iff.1 h
      exact ⟨e, rfl⟩
  | succ n ih =>
    constructor
    · rintro ⟨q, h⟩
      rw [Rd.many] at h
      obtain ⟨g, p1, h1, h⟩ := bind_eq_ok.1 h
      obtain ⟨gs', p2, h2, h⟩ := bind_eq_ok.1 h
      rw [pure_eq_ok] at h
      obtain ⟨rfl, -⟩ := h
      obtain ⟨he, rfl, hl, hh⟩ := RowGroup.read_iff.1 h1
      obtain ⟨r1, r2, r3⟩ := ih.1 ⟨p2, h2⟩
      refine ⟨by rw [List.length_cons, r1], by rw [List.length_cons]; omega, ?_⟩
      intro k g' hk
      cases k with
      | zero =>
        simp only [List.getElem?_cons_zero, Option.some.injEq] at hk
        subst hk
        exact ⟨hl, hh⟩
      | succ k =>
        rw [List.getElem?_cons_succ] at hk
        have := r3 k g' hk
        rwa [show e - 36 - 36 * k - 36 = e - 36 * (k + 1) - 36 by omega] at this
    · rintro ⟨h1, h2, h3⟩
      cases gs with
      | nil => simp at h1
      | cons g gs =>
        rw [List.length_cons] at h1 h2
        obtain ⟨hl, hh⟩ := h3 0 g rfl
        obtain ⟨q, hq⟩ := (ih (e := e - 36) (gs := gs)).2 ⟨by omega, by omega, fun k g' hk => by
          have := h3 (k + 1) g' (by rw [List.getElem?_cons_succ]; exact hk)
          rwa [show e - 36 * (k + 1) - 36 = e - 36 - 36 * k - 36 by omega] at this⟩
        refine ⟨q, ?_⟩
        have h36 : 36 ≤ e := by omega
        rw [Nat.mul_zero, Nat.sub_zero] at hh
        rw [Rd.many, bind_of_ok (RowGroup.read_iff.2 ⟨h36, rfl, hl, hh⟩), bind_of_ok hq]
        rfl

theorem DataPageContent.parseAtOffsets_panic_iff {d : Bytes} {t : PageType} {base : Nat} {os : List UInt16} :
    parseAtOffsets t base os d base = .panic ↔ ∃ before o after, os = before ++ o :: after ∧
      (∀ b ∈ before, ∃ r q, Row.read t d (base + b.toNat) = .ok (r, q)) ∧
      Row.read t d (base + o.toNat) = .panic := by
  induction os with
  | nil =>
    constructor
    · intro h; exact absurd h (NP.pure _ _ _)
    · rintro ⟨before, o, after, h, -⟩; simp at h
  | cons o os ih =>
    unfold parseAtOffsets
    rw [bind_of_ok (Rd.seekBy_nat _ _ _)]
    cases hr : Row.read t d (base + o.toNat) with
    | panic =>
      rw [bind_of_panic hr]
      simp only [true_iff]
      exact ⟨[], o, os, rfl, fun b hb => (by cases hb), hr⟩
    | err e =>
      rw [bind_of_err hr]
      simp only [reduceCtorEq, false_iff]
      rintro ⟨before, o', after, h1, h2, h3⟩
      cases before with
      | nil =>
        simp only [List.nil_append, List.cons.injEq] at h1
        obtain ⟨rfl, -⟩ := h1
        rw [hr] at h3
        cases h3
      | cons b before =>
        simp only [List.cons_append, List.cons.injEq] at h1
        obtain ⟨rfl, -⟩ := h1
        obtain ⟨r, q, h4⟩ := h2 _ (List.mem_cons_self ..)
        rw [hr] at h4
        cases h4
    | ok x =>
      obtain ⟨v, q⟩ := x
      rw [bind_of_ok hr, bind_of_ok (show Rd.seekTo base d q = .ok ((), base) from rfl), bind_eq_panic, ih]
      constructor
      · rintro (⟨before, o', after, h1, h2, h3⟩ | ⟨_, _, -, h⟩)
        · refine ⟨o :: before, o', after, by rw [h1]; rfl, ?_, h3⟩
          intro b hb
          rcases List.mem_cons.1 hb with rfl | hb
          · exact ⟨v, q, hr⟩
          · exact h2 b hb
        · exact absurd h (NP.pure _ _ _)
      · rintro ⟨before, o', after, h1, h2, h3⟩
        refine .inl ?_
        cases before with
        | nil =>
          simp only [List.nil_append, List.cons.injEq] at h1
          obtain ⟨rfl, -⟩ := h1
          rw [hr] at h3
          cases h3
        | cons b before =>
          simp only [List.cons_append, List.cons.injEq] at h1
          obtain ⟨rfl, rfl⟩ := h1
          exact ⟨before, o', after, rfl, fun b hb => h2 b (List.mem_cons_of_mem _ hb), h3⟩

theorem DataPageHeader.field : Field 8 (fun _ _ => True) DataPageHeader.read := by
  intro d p
  refine ⟨DataPageHeader.np d p, fun a q h => ?_, fun _ hl => ?_⟩
  · obtain ⟨bs, hb, rfl, rfl⟩ := DataPageHeader.inv _ _ _ _ h
    exact ⟨by rw [DataPageHeader.enc_length], trivial⟩
  · obtain ⟨a, ha⟩ := (Field.u16 d p).2.2 trivial (by omega)
    obtain ⟨b, hb⟩ := (Field.u16 d (p + 2)).2.2 trivial (by omega)
    obtain ⟨c, hc⟩ := (Field.u16 d (p + 2 + 2)).2.2 trivial (by omega)
    obtain ⟨e, he⟩ := (Field.u16 d (p + 2 + 2 + 2)).2.2 trivial (by omega)
    refine ⟨⟨a, b, c, e⟩, ?_⟩
    unfold DataPageHeader.read
    rw [bind_of_ok ha, bind_of_ok hb, bind_of_ok hc, bind_of_ok he]
    rfl

theorem DataPageContent.panic_iff {d : Bytes} {pageSize : Nat} {hd : PageHeader} {p : Nat} :
    DataPageContent.read pageSize hd d p = .panic ↔ p + 8 ≤ d.length ∧ (pageSize < 40 ∨
      ∃ gs, GroupsAt d (p + (pageSize - 32)) hd.packedRowCounts.numRows.val gs ∧
        ∃ before o after, gs.flatMap RowGroup.present = before ++ o :: after ∧
          (∀ b ∈ before, ∃ r q, Row.read hd.pageType d (p + 8 + b.toNat) = .ok (r, q)) ∧
          hd.pageType.BadRow d (p + 8 + o.toNat)) := by
  unfold read
  obtain ⟨f1, f2, f3⟩ := DataPageHeader.field d p
  rw [bind_eq_panic]
  by_cases h8 : p + 8 ≤ d.length
  swap
  · refine ⟨?_, fun h => absurd h.1 h8⟩
    rintro (h | ⟨x, q, h, -⟩)
    · exact absurd h f1
    · obtain ⟨bs, hb, rfl, rfl⟩ := DataPageHeader.inv _ _ _ _ h
      have := hb.bound (by simp [DataPageHeader.enc, encU16, leEnc])
      rw [DataPageHeader.enc_length] at this
      exact absurd this h8
  obtain ⟨x, hx⟩ := f3 trivial h8
  rw [hx]
  simp only [reduceCtorEq, false_or, Res.ok.injEq, Prod.mk.injEq]
  rw [show (∃ a p', (x = a ∧ p + 8 = p') ∧
      (do
        let heap ← Rd.lift (pageHeapSize pageSize)
        let rowGroups ← readGroups heap hd.packedRowCounts.numRowGroups
        let rows ← readRows hd.pageType rowGroups
        Rd.require (rows.length == hd.packedRowCounts.numRowsValid.val)
        Rd.seekBy (heap : Nat)
        pure { header := a, rowGroups, rows } : Rd DataPageContent) d p' = .panic) ↔ _ from
    ⟨fun ⟨a, p', ⟨h1, h2⟩, h3⟩ => h1 ▸ h2 ▸ h3, fun h => ⟨x, p + 8, ⟨rfl, rfl⟩, h⟩⟩]
  rw [pageHeapSize_eq]
  by_cases h40 : 40 ≤ pageSize
  swap
  · rw [if_neg h40]
    exact ⟨fun _ => ⟨h8, .inl (by omega)⟩, fun _ => rfl⟩
  rw [if_pos h40,
    bind_of_ok (show Rd.lift (Res.ok (pageSize - 40)) d (p + 8) = .ok (pageSize - 40, p + 8) from rfl)]
  have hnp : ∀ gs, NP (readGroups gs hd.packedRowCounts.numRowGroups) := fun gs =>
    NP.restore (NP.bind (NP.seekBy _) fun _ => NP.many RowGroup.np _)
  have hgs : ∀ gs, GroupsAt d (p + (pageSize - 32)) hd.packedRowCounts.numRows.val gs ↔
      readGroups (pageSize - 40) hd.packedRowCounts.numRowGroups d (p + 8) = .ok (gs, p + 8) := by
    intro gs
    rw [readGroups_eq_ok, RowGroup.readAll_iff, PackedRowCounts.numRowGroups_eq,
      show p + 8 + (pageSize - 40) = p + (pageSize - 32) by omega]
    simp only [true_and]
    rfl
  have hrows : ∀ gs, (∀ g ∈ gs, g.rowOffsets.length = 16) →
      ((do
        let rows ← readRows hd.pageType gs
        Rd.require (rows.length == hd.packedRowCounts.numRowsValid.val)
        Rd.seekBy ((pageSize - 40 : Nat) : Nat)
        pure { header := x, rowGroups := gs, rows } : Rd DataPageContent) d (p + 8) = .panic ↔
        ∃ before o after, gs.flatMap RowGroup.present = before ++ o :: after ∧
          (∀ b ∈ before, ∃ r q, Row.read hd.pageType d (p + 8 + b.toNat) = .ok (r, q)) ∧
          hd.pageType.BadRow d (p + 8 + o.toNat)) := by
    intro gs h16
    rw [← presentRowsOffsets_flatMap h16]
    simp only [← row_read_panic_iff]
    rw [← parseAtOffsets_panic_iff, bind_eq_panic]
    unfold readRows
    rw [bind_of_ok (show Rd.pos d (p + 8) = .ok (p + 8, p + 8) from rfl), bind_eq_panic]
    constructor
    · rintro ((h | ⟨_, _, -, h⟩) | ⟨_, _, -, h⟩)
      · exact h
      · exact absurd h (NP.pure _ _ _)
      · exact absurd h ((NP.bind (NP.require _ _) fun _ => NP.bind (NP.seekBy _) fun _ => NP.pure _) _ _)
    · exact fun h => .inl (.inl h)
  rw [bind_eq_panic]
  constructor
  · rintro (h | ⟨gs, q, h1, h2⟩)
    · exact absurd h (hnp _ _ _)
    · obtain ⟨rfl, -⟩ := readGroups_eq_ok.1 h1
      have hg := (hgs gs).2 h1
      refine ⟨h8, .inr ⟨gs, hg, (hrows gs ?_).1 h2⟩⟩
      intro g hm
      obtain ⟨k, hk⟩ := List.getElem?_of_mem hm
      exact (hg.2.2 k g hk).1
  · rintro ⟨-, h | ⟨gs, hg, h⟩⟩
    · omega
    · refine .inr ⟨gs, _, (hgs gs).1 hg, (hrows gs ?_).2 h⟩
      intro g hm
      obtain ⟨k, hk⟩ := List.getElem?_of_mem hm
      exact (hg.2.2 k g hk).1

/-- C66, exact: the page parser panics exactly if there is a page header of a data page, 8 more bytes, and
either the page size is below 40, or the row groups can be read and, in the order of the groups and of the
slots in them, a row that has a string of impossible length comes after rows that can all be read. -/
theorem page_read_panic_iff (pageSize : Nat) (db : DatabaseType) (img : Bytes) (p : Nat) :
    Page.read pageSize db img p = .panic ↔ ∃ hd : PageHeader, hd.pageType.ValidFor db ∧ HasAt img p hd.enc ∧
      hd.pageFlags.isIndexPage = false ∧ p + 40 ≤ img.length ∧ (pageSize < 40 ∨
        ∃ gs, GroupsAt img (p + pageSize) hd.packedRowCounts.numRows.val gs ∧
          ∃ before o after, gs.flatMap RowGroup.present = before ++ o :: after ∧
            (∀ b ∈ before, ∃ r q, Row.read hd.pageType img (p + 40 + b.toNat) = .ok (r, q)) ∧
            hd.pageType.BadRow img (p + 40 + o.toNat)) := by
  have hcont : ∀ hd : PageHeader, PageContent.read pageSize hd img (p + 32) = .panic ↔
      hd.pageFlags.isIndexPage = false ∧ DataPageContent.read pageSize hd img (p + 32) = .panic := by
    intro hd
    unfold PageContent.read Rd.orElse
    have hidx : ∀ b q, (do Rd.require b; let c ← IndexPageContent.read; pure (.index c) :
        Rd PageContent) img q ≠ .panic := fun b q =>
      (NP.bind (NP.require _ _) fun _ => NP.bind IndexPageContent.np fun _ => NP.pure _) _ _
    cases hf : hd.pageFlags.isIndexPage with
    | true =>
      simp only [reduceCtorEq, false_and, iff_false]
      exact hidx true _
    | false =>
      rw [require_true_bind (b := !false) rfl]
      cases hr : DataPageContent.read pageSize hd img (p + 32) with
      | ok x => obtain ⟨c, q⟩ := x; rw [bind_of_ok hr]; simp [pure]
      | panic => rw [bind_of_panic hr]; simp
      | err e =>
        rw [bind_of_err hr]
        simp only [reduceCtorEq, and_false, iff_false]
        exact hidx false _
  have hpage : Page.read pageSize db img p = .panic ↔ ∃ hd : PageHeader, hd.pageType.ValidFor db ∧
      HasAt img p hd.enc ∧ PageContent.read pageSize hd img (p + 32) = .panic := by
    unfold Page.read
    rw [bind_eq_panic]
    constructor
    · rintro (h | ⟨hd, q, h1, h⟩)
      · exact absurd h (PageHeader.np db _ _)
      · obtain ⟨bs, hb, rfl, rfl⟩ := PageHeader.inv db _ _ _ _ h1
        rw [PageHeader.enc_length] at h
        refine ⟨hd, PageHeader.read_valid h1, hb, ?_⟩
        rcases bind_eq_panic.1 h with h | ⟨_, _, -, h⟩
        · exact h
        · exact absurd h (NP.pure _ _ _)
    · rintro ⟨hd, h1, h2, h3⟩
      refine .inr ⟨hd, _, PageHeader.rt db hd h1 _ _ h2, ?_⟩
      rw [PageHeader.enc_length, bind_of_panic h3]
  rw [hpage]
  refine exists_congr fun hd => and_congr Iff.rfl (and_congr Iff.rfl ?_)
  rw [hcont, DataPageContent.panic_iff, show p + 32 + 8 = p + 40 by omega]
  refine and_congr Iff.rfl (and_congr Iff.rfl ?_)
  rcases Nat.lt_or_ge pageSize 40 with h | h
  · simp [h]
  · rw [show p + 32 + (pageSize - 32) = p + pageSize by omega]

/-- C66: the page that makes the parser panic is as described. -/
example : ∃ hd : PageHeader, hd.pageType.ValidFor .plain ∧ HasAt panickingPage 0 hd.enc ∧
    hd.pageFlags.isIndexPage = false :=
  let ⟨hd, h1, h2, h3, _⟩ := (page_read_panic_iff 96 .plain panickingPage 0).1 page_read_can_panic
  ⟨hd, h1, h2, h3⟩

/-- C66: an artist with one-byte offsets whose name, at offset 10, starts with the byte 1. -/
example : BadStringBehindOffsets 8 1 [0x60, 0, 0, 0, 1, 0, 0, 0, 3, 10, 1] 0 :=
  (row_read_panic_iff (.plain .artists) _ _).1 (by decide +kernel)

/-- C66: a tag whose first string, at offset 31, cannot be read: its length reaches out of the file.  The second
string is then looked for 32 bytes behind the first one, not at its offset 32, and is found to be of impossible
length. -/
example : stringPositions ([0x80, 6] ++ List.replicate 26 0 ++ [3, 31, 32, 0xFF, 3] ++ List.replicate 30 0 ++ [1]) 0 0
      [31, 32] = [31, 63] ∧
    BadStringBehindOffsets 28 2
      ([0x80, 6] ++ List.replicate 26 0 ++ [3, 31, 32, 0xFF, 3] ++ List.replicate 30 0 ++ [1]) 0 :=
  ⟨by decide +kernel, (row_read_panic_iff (.ext .tag) _ _).1 (by decide +kernel)⟩

end Rekordcrate
