import Verif.Props.WrapRewrite
import Verif.Lemmas.Page

/-! # Lemmas on rewriting rows and pages without overflow checks

The lemmas of `Verif.Lemmas.RowBase`, `Verif.Lemmas.Rows` and `Verif.Lemmas.Page` on writing what was read, for the
functions of `Verif.Model.Wrap`. -/

set_option linter.unusedSimpArgs false
set_option linter.unusedVariables false

namespace Rekordcrate
open Rd

/-! ## Strings -/

theorem DString.length_of_encWrap {v : DString} {bs : Bytes} (h : v.encWrap = .ok bs) : bs.length = v.size := by
  cases v with
  | short c =>
    simp only [DString.encWrap, Res.ok.injEq] at h
    subst h
    simp [DString.size]; omega
  | long b =>
    unfold DString.encWrap at h
    simp only at h
    split at h <;> try cases h
    cases b <;> simp only [DString.size, LongBody.enc, encNullString, List.length_append,
      flatMap_encU16_length, encU16_length, List.length_cons, List.length_nil] <;> omega

theorem DString.readLongWrap_held : Inv DString.readLongWrap (fun v bs => ∃ b l, v = .long b ∧
    bs = [b.flags] ++ (encU16 l ++ ([0] ++ b.enc))) := by
  unfold DString.readLongWrap
  refine Inv.bind Inv.u8 ?_
  rintro f _ rfl
  refine Inv.bind (Inv.require _ _) ?_
  rintro _ _ ⟨hf, rfl⟩
  refine Inv.bind Inv.u16 ?_
  rintro l _ rfl
  refine Inv.bind (Inv.magic _) ?_
  rintro _ _ rfl
  refine (Inv.bind_pure (LongBody.read_inv _ _)).mono ?_
  rintro v bs ⟨b, rfl, rfl, rfl, h0, hl⟩
  exact ⟨b, l, rfl, rfl⟩

theorem DString.readWrap_isrc {img : Bytes} {p q : Nat} {c : Bytes}
    (h : DString.readWrap img p = .ok (.long (.isrc c), q)) :
    ∃ l, HasAt img p ([0x90] ++ (encU16 l ++ ([0] ++ (LongBody.isrc c).enc))) ∧ q = p + (c.length + 6) := by
  have hs : Inv DString.readShortWrap (fun v _ => ∃ c, v = .short c) := by
    unfold DString.readShortWrap
    refine Inv.bind Inv.u8 ?_
    rintro f _ rfl
    refine Inv.bind (Inv.require _ _) ?_
    rintro _ _ ⟨hf, rfl⟩
    refine (Inv.bind_pure (Inv.bytes _)).mono ?_
    rintro v bs ⟨c, rfl, rfl, hl⟩
    exact ⟨_, rfl⟩
  obtain ⟨bs, hb, rfl, hv⟩ := (Inv.orElse (hs.mono fun _ _ h => Or.inl h)
    (DString.readLongWrap_held.mono fun _ _ h => Or.inr h) : Inv DString.readWrap fun v bs => (∃ c, v = .short c) ∨
      ∃ b l, v = .long b ∧ bs = [b.flags] ++ (encU16 l ++ ([0] ++ b.enc))) _ _ _ _ h
  rcases hv with ⟨c, hc⟩ | ⟨b, l, hc, rfl⟩
  · cases hc
  · simp only [DString.long.injEq] at hc
    subst hc
    exact ⟨l, hb, by simp [LongBody.enc, encNullString]; omega⟩

/-- A string that was read is written back to the bytes it was read from, if its length field is exact. -/
theorem DString.readWrap_exact {img : Bytes} {p q : Nat} {v : DString} (h : DString.readWrap img p = .ok (v, q))
    (he : v.ExactAt img p) : ∃ bs, v.encWrap = .ok bs ∧ HasAt img p bs ∧ q = p + bs.length ∧
      bs.length = v.size := by
  by_cases hi : v.IsIsrc
  · match v, hi with
    | .long (.isrc c), _ =>
      obtain ⟨l, hb, rfl⟩ := DString.readWrap_isrc h
      simp only [DString.ExactAt] at he
      have hb' := hb
      rw [HasAt.append_iff, HasAt.append_iff] at hb'
      have hu := U16At.of_hasAt hb'.2.1
      simp only [List.length_singleton] at hu
      have heq : l.toNat = c.length + 6 := by
        obtain ⟨a, b, h1, h2, h3⟩ := he
        obtain ⟨a', b', h1', h2', h3'⟩ := hu
        rw [h1] at h1'; rw [h2] at h2'
        injection h1' with h1'; injection h2' with h2'
        subst h1' h2'; omega
      have hlt := l.toNat_lt
      have hlen : (LongBody.isrc c).enc.length = c.length + 2 := by simp [LongBody.enc, encNullString]
      have henc : (DString.long (.isrc c)).encWrap =
          .ok ([0x90] ++ (encU16 l ++ ([0] ++ (LongBody.isrc c).enc))) := by
        unfold DString.encWrap
        simp only
        rw [LongBody.byteCount_ok (by omega), hlen]
        have : UInt16.ofNat (addWrap16 (c.length + 2) 4) = l := by
          apply UInt16.toNat_inj.1
          rw [UInt16.toNat_ofNat']
          unfold addWrap16
          omega
        simp only
        rw [this]
        rfl
      exact ⟨_, henc, hb, by simp [LongBody.enc, encNullString]; omega, DString.length_of_encWrap henc⟩
  · obtain ⟨bs, h1, h2, h3⟩ := string_release_rewrite h hi
    exact ⟨bs, h1, h2, h3, DString.length_of_encWrap h1⟩

/-! ## Offset arrays -/

namespace OffsetContainer

variable {T : Type} [OffsetItems T]


theorem readItemsWrap_eq_ok {d : Bytes} {base cur : Nat} {os : List Nat} {vs : List DString}
    (hc : cur = base) (h : readItemsWrap d base cur os = .ok vs) :
    os.length = vs.length ∧ ∀ (i : Nat) v o, vs[i]? = some v → os[i]? = some o →
      ∃ p', DString.readWrap d (base + o) = .ok (v, p') := by
  subst hc
  induction os generalizing vs with
  | nil => simp [readItemsWrap] at h; subst h; simp
  | cons o os ih =>
    unfold readItemsWrap at h
    split at h
    · rename_i v p' hv
      split at h <;> try cases h
      rename_i vs hvs
      obtain ⟨h1, h2⟩ := ih hvs
      refine ⟨by simp [h1], ?_⟩
      intro i w o' hw ho
      cases i with
      | zero => simp at hw ho; subst hw ho; exact ⟨p', hv⟩
      | succ i => exact h2 i w o' (by simpa using hw) (by simpa using ho)
    · split at h <;> cases h
    · cases h

theorem readWrap_eq_ok {offset start : Nat} {size : OffsetSize} {d : Bytes} {c : OffsetContainer T}
    {p' : Nat} (h : (readWrap offset size : Rd (OffsetContainer T)) d start = .ok (c, p')) :
    offset ≤ start ∧ p' = start - offset ∧ ∃ a vs, c = { offsets := some a, inner := OffsetItems.fromItems vs } ∧
      a.sizeMatches size = true ∧ a.length = OffsetItems.count T ∧ vs.length = OffsetItems.count T ∧
      HasAt d start a.enc ∧
      ∀ (i : Nat) v o, vs[i]? = some v → a.seeks[i]? = some o →
        ∃ p', DString.readWrap d (start - offset + o) = .ok (v, p') := by
  unfold readWrap at h
  obtain ⟨s, p1, h1, h⟩ := bind_eq_ok.1 h
  obtain ⟨a, p2, h2, h⟩ := bind_eq_ok.1 h
  obtain ⟨_, p3, h3, h⟩ := bind_eq_ok.1 h
  obtain ⟨base, p4, h4, h⟩ := bind_eq_ok.1 h
  obtain ⟨_, p5, h5, h⟩ := bind_eq_ok.1 h
  obtain ⟨vs, p6, h6, h⟩ := bind_eq_ok.1 h
  simp only [Rd.pos, Res.ok.injEq, Prod.mk.injEq] at h1
  obtain ⟨rfl, rfl⟩ := h1
  obtain ⟨bs, hb, rfl, rfl, hs, hn⟩ := OffsetArray.read_inv _ _ _ _ _ _ h2
  by_cases ho : offset ≤ start
  · rw [calculateBase_ok ho, lift_ok] at h4
    simp only [pure, Res.ok.injEq, Prod.mk.injEq] at h4
    obtain ⟨rfl, rfl⟩ := h4
    simp only [Rd.seekTo, Res.ok.injEq, Prod.mk.injEq, true_and] at h5
    subst h5
    unfold readAllWrap at h6
    split at h6 <;> try cases h6
    rename_i hvs
    simp only [pure, Res.ok.injEq, Prod.mk.injEq] at h
    obtain ⟨rfl, rfl⟩ := h
    obtain ⟨hl, hr⟩ := readItemsWrap_eq_ok rfl hvs
    exact ⟨ho, rfl, a, _, rfl, hs, hn, by rw [← hl]; simp [hn], hb, hr⟩
  · rw [calculateBase_err (by omega)] at h4
    cases h4

/-- The bytes written for a string. -/
def _root_.Rekordcrate.DString.encBytesWrap (v : DString) : Bytes :=
  match v.encWrap with
  | .ok bs => bs
  | _ => []

theorem _root_.Rekordcrate.DString.encBytesWrap_of_ok {v : DString} {bs : Bytes} (h : v.encWrap = .ok bs) :
    v.encBytesWrap = bs := by
  unfold DString.encBytesWrap
  rw [h]

/-- The writes of the items at provided offsets. -/
def providedPatchesWrap (base : Nat) (vs : List DString) (os : List Nat) : List Patch :=
  (vs.zip os).map fun x => ⟨base + x.2, x.1.encBytesWrap⟩

theorem writeProvidedWrap_ok {base : Nat} {vs : List DString} {os : List Nat}
    (h : ∀ v ∈ vs, ∃ bs, v.encWrap = .ok bs) :
    writeProvidedWrap base (vs.zip os) base = .ok ((), base, providedPatchesWrap base vs os) := by
  induction vs generalizing os with
  | nil => rfl
  | cons v vs ih =>
    cases os with
    | nil => rfl
    | cons o os =>
      obtain ⟨bs, hb⟩ := h v (by simp)
      have hps : providedPatchesWrap base (v :: vs) (o :: os) =
          [] ++ ([⟨base + o, bs⟩] ++ ([] ++ providedPatchesWrap base vs os)) := by
        simp [providedPatchesWrap, DString.encBytesWrap_of_ok hb]
      rw [hps, List.zip_cons_cons]
      unfold writeProvidedWrap
      refine Wr.bind_of_ok (m := Wr.seekBy o) (p1 := base + o) (a := ()) ?_ ?_
      · unfold Wr.seekBy
        rw [if_pos (by omega)]
        rw [show ((base : Int) + (o : Int)).toNat = base + o by omega]
      refine Wr.bind_of_ok (Wr.emitRes_ok hb _) ?_
      refine Wr.bind_of_ok (m := Wr.seekTo base) rfl ?_
      exact ih fun v hv => h v (by simp [hv])

theorem writeWrap_provided {c : OffsetContainer T} {offset start : Nat} {size : OffsetSize}
    {a : OffsetArray} (hc : c.offsets = some a) (ho : offset ≤ start)
    (hs : a.sizeMatches size = true) (h : ∀ v ∈ OffsetItems.asItems c.inner, ∃ bs, v.encWrap = .ok bs) :
    c.writeWrap offset size start = .ok ((), start - offset,
      ⟨start, a.enc⟩ :: providedPatchesWrap (start - offset) (OffsetItems.asItems c.inner) a.seeks) := by
  have e1 : ∀ l : List Patch, ∀ x : Patch, x :: l = [] ++ ([] ++ ([] ++ ([x] ++ ([] ++ l)))) := by simp
  rw [e1]
  unfold writeWrap
  refine Wr.bind_of_ok (m := Wr.pos) rfl ?_
  refine Wr.bind_of_ok (m := Wr.lift _) (a := start - offset) (p1 := start)
    (by rw [calculateBase_ok ho]; rfl) ?_
  simp only [hc]
  refine Wr.bind_of_ok (m := Wr.lift _) (a := ()) (p1 := start) (by rw [if_pos hs]; rfl) ?_
  refine Wr.bind_of_ok (m := Wr.emit _) rfl ?_
  refine Wr.bind_of_ok (m := Wr.seekTo _) rfl ?_
  exact writeProvidedWrap_ok h

theorem contains_providedPatchesWrap {base : Nat} {vs : List DString} {os : List Nat} {img : Bytes} :
    Contains img (providedPatchesWrap base vs os) ↔ ∀ (i : Nat) v o, vs[i]? = some v → os[i]? = some o →
      HasAt img (base + o) v.encBytesWrap := by
  induction vs generalizing os with
  | nil => simp [providedPatchesWrap, Contains]
  | cons v vs ih =>
    cases os with
    | nil => simp [providedPatchesWrap, Contains]
    | cons o os =>
      show Contains img (⟨base + o, v.encBytesWrap⟩ :: providedPatchesWrap base vs os) ↔ _
      rw [Contains.cons_iff, ih]
      constructor
      · rintro ⟨h1, h2⟩ i w o' hw ho
        cases i with
        | zero => simp at hw ho; subst hw ho; exact h1
        | succ i => exact h2 i w o' (by simpa using hw) (by simpa using ho)
      · intro h
        exact ⟨h 0 v o (by simp) (by simp), fun i w o' hw ho =>
          h (i + 1) w o' (by simpa using hw) (by simpa using ho)⟩

end OffsetContainer

theorem OffsetContainer.readWrap_then_write {T : Type} [OffsetItems T] [LawfulItems T]
    {c : OffsetContainer T} {offset start : Nat} {size : OffsetSize} {img : Bytes} {q : Nat}
    (h : (OffsetContainer.readWrap offset size : Rd (OffsetContainer T)) img start = .ok (c, q))
    (he : ∀ x ∈ c.stringsAt (start - offset), x.2.ExactAt img x.1) :
    ∃ ps, c.writeWrap offset size start = .ok ((), start - offset, ps) ∧ Contains img ps := by
  obtain ⟨ho, rfl, a, vs, rfl, hs, hn, hl, ha, hr⟩ := OffsetContainer.readWrap_eq_ok h
  have hi : OffsetItems.asItems (OffsetItems.fromItems vs : T) = vs := LawfulItems.asItems_fromItems _ hl
  simp only [OffsetContainer.stringsAt, hi] at he
  have key : ∀ (i : Nat) v o, vs[i]? = some v → a.seeks[i]? = some o →
      ∃ bs, v.encWrap = .ok bs ∧ HasAt img (start - offset + o) bs := by
    intro i v o hv hoo
    obtain ⟨p', hp⟩ := hr i v o hv hoo
    have hx := he (start - offset + o, v) (by
      apply List.mem_of_getElem? (i := i)
      rw [List.getElem?_zip_eq_some]
      exact ⟨by simp [hoo], hv⟩)
    obtain ⟨bs, h1, h2, -, -⟩ := DString.readWrap_exact hp hx
    exact ⟨bs, h1, h2⟩
  have henc : ∀ v ∈ vs, ∃ bs, v.encWrap = .ok bs := by
    intro v hv
    obtain ⟨i, hi, rfl⟩ := List.mem_iff_getElem.1 hv
    have hlen : i < a.seeks.length := by simp [hn, ← hl, hi]
    obtain ⟨bs, h1, -⟩ := key i _ _ (List.getElem?_eq_getElem hi) (List.getElem?_eq_getElem hlen)
    exact ⟨bs, h1⟩
  refine ⟨_, OffsetContainer.writeWrap_provided rfl ho hs (by rw [hi]; exact henc), ?_⟩
  rw [Contains.cons_iff, OffsetContainer.contains_providedPatchesWrap, hi]
  refine ⟨ha, fun i v o hv hoo => ?_⟩
  obtain ⟨bs, h1, h2⟩ := key i v o hv hoo
  rw [DString.encBytesWrap_of_ok h1]; exact h2

section ContainerRow

variable {X T : Type} [OffsetItems T] [LawfulItems T] {rd : Rd X} {hd : Bytes}
  {mk : OffsetContainer T → X} {N : Nat} {size : OffsetSize} {c : OffsetContainer T}

theorem crow_writeWrap_ok {p p' : Nat} {ps' : List Patch} (hlen : hd.length = N)
    (h : c.writeWrap N size (p + N) = .ok ((), p', ps')) :
    (do Wr.emit hd; c.writeWrap N size : Wr Unit) p = .ok ((), p', ⟨p, hd⟩ :: ps') := by
  refine Wr.bind_of_ok (m := Wr.emit hd) (ps1 := [⟨p, hd⟩]) rfl ?_
  rw [hlen]; exact h

theorem crow_invWrap (hlen : hd.length = N) {img : Bytes} {p q : Nat} (hh : HasAt img p hd)
    (hr : (OffsetContainer.readWrap N size : Rd (OffsetContainer T)) img (p + N) = .ok (c, q))
    (he : ∀ x ∈ c.stringsAt p, x.2.ExactAt img x.1) :
    ∃ p' ps, (do Wr.emit hd; c.writeWrap N size : Wr Unit) p = .ok ((), p', ps) ∧ Contains img ps := by
  obtain ⟨ps, h1, h2⟩ := OffsetContainer.readWrap_then_write hr (by rw [Nat.add_sub_cancel]; exact he)
  exact ⟨_, _, crow_writeWrap_ok hlen h1, Contains.cons_iff.2 ⟨hh, h2⟩⟩

end ContainerRow

/-! ## Rows -/

theorem Album.head_invWrap {img : Bytes} {p q : Nat} {r : Album} (h : Album.readWrap img p = .ok (r, q)) :
    HasAt img p r.head ∧ (OffsetContainer.readWrap 20 (offsetSizeOf r.subtype) : Rd (OffsetContainer TrailingName)) img (p + 20) =
      .ok (r.offsets, q) := by
  unfold Album.readWrap at h
  obtain ⟨subtype, q0, h0, h⟩ := bind_eq_ok.1 h
  obtain ⟨indexShift, q1, h1, h⟩ := bind_eq_ok.1 h
  obtain ⟨unknown2, q2, h2, h⟩ := bind_eq_ok.1 h
  obtain ⟨artistId, q3, h3, h⟩ := bind_eq_ok.1 h
  obtain ⟨id, q4, h4, h⟩ := bind_eq_ok.1 h
  obtain ⟨unknown3, q5, h5, h⟩ := bind_eq_ok.1 h
  obtain ⟨c, qc, hcont, h⟩ := bind_eq_ok.1 h
  rw [pure_eq_ok] at h
  obtain ⟨rfl, rfl⟩ := h
  obtain ⟨_, t0, rfl, rfl⟩ := Inv.u16 _ _ _ _ h0
  obtain ⟨_, t1, rfl, rfl⟩ := Inv.u16 _ _ _ _ h1
  obtain ⟨_, t2, rfl, rfl⟩ := Inv.u32 _ _ _ _ h2
  obtain ⟨_, t3, rfl, rfl⟩ := Inv.u32 _ _ _ _ h3
  obtain ⟨_, t4, rfl, rfl⟩ := Inv.u32 _ _ _ _ h4
  obtain ⟨_, t5, rfl, rfl⟩ := Inv.u32 _ _ _ _ h5
  refine ⟨?_, hcont⟩
  simp only [Album.head, HasAt.append_iff]
  exact ⟨t0, t1, t2, t3, t4, t5⟩

theorem Artist.head_invWrap {img : Bytes} {p q : Nat} {r : Artist} (h : Artist.readWrap img p = .ok (r, q)) :
    HasAt img p r.head ∧ (OffsetContainer.readWrap 8 (offsetSizeOf r.subtype) : Rd (OffsetContainer TrailingName)) img (p + 8) =
      .ok (r.offsets, q) := by
  unfold Artist.readWrap at h
  obtain ⟨subtype, q0, h0, h⟩ := bind_eq_ok.1 h
  obtain ⟨indexShift, q1, h1, h⟩ := bind_eq_ok.1 h
  obtain ⟨id, q2, h2, h⟩ := bind_eq_ok.1 h
  obtain ⟨c, qc, hcont, h⟩ := bind_eq_ok.1 h
  rw [pure_eq_ok] at h
  obtain ⟨rfl, rfl⟩ := h
  obtain ⟨_, t0, rfl, rfl⟩ := Inv.u16 _ _ _ _ h0
  obtain ⟨_, t1, rfl, rfl⟩ := Inv.u16 _ _ _ _ h1
  obtain ⟨_, t2, rfl, rfl⟩ := Inv.u32 _ _ _ _ h2
  refine ⟨?_, hcont⟩
  simp only [Artist.head, HasAt.append_iff]
  exact ⟨t0, t1, t2⟩

theorem Track.head_invWrap {img : Bytes} {p q : Nat} {r : Track} (h : Track.readWrap img p = .ok (r, q)) :
    HasAt img p r.head ∧ (OffsetContainer.readWrap 92 (offsetSizeOf r.subtype) : Rd (OffsetContainer TrackStrings)) img (p + 92) =
      .ok (r.offsets, q) := by
  unfold Track.readWrap at h
  obtain ⟨subtype, q0, h0, h⟩ := bind_eq_ok.1 h
  obtain ⟨indexShift, q1, h1, h⟩ := bind_eq_ok.1 h
  obtain ⟨bitmask, q2, h2, h⟩ := bind_eq_ok.1 h
  obtain ⟨sampleRate, q3, h3, h⟩ := bind_eq_ok.1 h
  obtain ⟨composerId, q4, h4, h⟩ := bind_eq_ok.1 h
  obtain ⟨fileSize, q5, h5, h⟩ := bind_eq_ok.1 h
  obtain ⟨unknown2, q6, h6, h⟩ := bind_eq_ok.1 h
  obtain ⟨unknown3, q7, h7, h⟩ := bind_eq_ok.1 h
  obtain ⟨unknown4, q8, h8, h⟩ := bind_eq_ok.1 h
  obtain ⟨artworkId, q9, h9, h⟩ := bind_eq_ok.1 h
  obtain ⟨keyId, q10, h10, h⟩ := bind_eq_ok.1 h
  obtain ⟨origArtistId, q11, h11, h⟩ := bind_eq_ok.1 h
  obtain ⟨labelId, q12, h12, h⟩ := bind_eq_ok.1 h
  obtain ⟨remixerId, q13, h13, h⟩ := bind_eq_ok.1 h
  obtain ⟨bitrate, q14, h14, h⟩ := bind_eq_ok.1 h
  obtain ⟨trackNumber, q15, h15, h⟩ := bind_eq_ok.1 h
  obtain ⟨tempo, q16, h16, h⟩ := bind_eq_ok.1 h
  obtain ⟨genreId, q17, h17, h⟩ := bind_eq_ok.1 h
  obtain ⟨albumId, q18, h18, h⟩ := bind_eq_ok.1 h
  obtain ⟨artistId, q19, h19, h⟩ := bind_eq_ok.1 h
  obtain ⟨id, q20, h20, h⟩ := bind_eq_ok.1 h
  obtain ⟨discNumber, q21, h21, h⟩ := bind_eq_ok.1 h
  obtain ⟨playCount, q22, h22, h⟩ := bind_eq_ok.1 h
  obtain ⟨year, q23, h23, h⟩ := bind_eq_ok.1 h
  obtain ⟨sampleDepth, q24, h24, h⟩ := bind_eq_ok.1 h
  obtain ⟨duration, q25, h25, h⟩ := bind_eq_ok.1 h
  obtain ⟨unknown5, q26, h26, h⟩ := bind_eq_ok.1 h
  obtain ⟨color, q27, h27, h⟩ := bind_eq_ok.1 h
  obtain ⟨rating, q28, h28, h⟩ := bind_eq_ok.1 h
  obtain ⟨fileType, q29, h29, h⟩ := bind_eq_ok.1 h
  obtain ⟨c, qc, hcont, h⟩ := bind_eq_ok.1 h
  rw [pure_eq_ok] at h
  obtain ⟨rfl, rfl⟩ := h
  obtain ⟨_, t0, rfl, rfl⟩ := Inv.u16 _ _ _ _ h0
  obtain ⟨_, t1, rfl, rfl⟩ := Inv.u16 _ _ _ _ h1
  obtain ⟨_, t2, rfl, rfl⟩ := Inv.u32 _ _ _ _ h2
  obtain ⟨_, t3, rfl, rfl⟩ := Inv.u32 _ _ _ _ h3
  obtain ⟨_, t4, rfl, rfl⟩ := Inv.u32 _ _ _ _ h4
  obtain ⟨_, t5, rfl, rfl⟩ := Inv.u32 _ _ _ _ h5
  obtain ⟨_, t6, rfl, rfl⟩ := Inv.u32 _ _ _ _ h6
  obtain ⟨_, t7, rfl, rfl⟩ := Inv.u16 _ _ _ _ h7
  obtain ⟨_, t8, rfl, rfl⟩ := Inv.u16 _ _ _ _ h8
  obtain ⟨_, t9, rfl, rfl⟩ := Inv.u32 _ _ _ _ h9
  obtain ⟨_, t10, rfl, rfl⟩ := Inv.u32 _ _ _ _ h10
  obtain ⟨_, t11, rfl, rfl⟩ := Inv.u32 _ _ _ _ h11
  obtain ⟨_, t12, rfl, rfl⟩ := Inv.u32 _ _ _ _ h12
  obtain ⟨_, t13, rfl, rfl⟩ := Inv.u32 _ _ _ _ h13
  obtain ⟨_, t14, rfl, rfl⟩ := Inv.u32 _ _ _ _ h14
  obtain ⟨_, t15, rfl, rfl⟩ := Inv.u32 _ _ _ _ h15
  obtain ⟨_, t16, rfl, rfl⟩ := Inv.u32 _ _ _ _ h16
  obtain ⟨_, t17, rfl, rfl⟩ := Inv.u32 _ _ _ _ h17
  obtain ⟨_, t18, rfl, rfl⟩ := Inv.u32 _ _ _ _ h18
  obtain ⟨_, t19, rfl, rfl⟩ := Inv.u32 _ _ _ _ h19
  obtain ⟨_, t20, rfl, rfl⟩ := Inv.u32 _ _ _ _ h20
  obtain ⟨_, t21, rfl, rfl⟩ := Inv.u16 _ _ _ _ h21
  obtain ⟨_, t22, rfl, rfl⟩ := Inv.u16 _ _ _ _ h22
  obtain ⟨_, t23, rfl, rfl⟩ := Inv.u16 _ _ _ _ h23
  obtain ⟨_, t24, rfl, rfl⟩ := Inv.u16 _ _ _ _ h24
  obtain ⟨_, t25, rfl, rfl⟩ := Inv.u16 _ _ _ _ h25
  obtain ⟨_, t26, rfl, rfl⟩ := Inv.u16 _ _ _ _ h26
  obtain ⟨_, t27, rfl, rfl⟩ := ColorIndex.inv _ _ _ _ h27
  obtain ⟨_, t28, rfl, rfl⟩ := Inv.u8 _ _ _ _ h28
  obtain ⟨_, t29, rfl, rfl⟩ := FileType.inv _ _ _ _ h29
  refine ⟨?_, hcont⟩
  simp only [Track.head, HasAt.append_iff]
  exact ⟨t0, t1, t2, t3, t4, t5, t6, t7, t8, t9, t10, t11, t12, t13, t14, t15, t16, t17, t18, t19, t20, t21, t22, t23, t24, t25, t26, t27, t28, t29⟩

theorem TagOrCategory.head_invWrap {img : Bytes} {p q : Nat} {r : TagOrCategory} (h : TagOrCategory.readWrap img p = .ok (r, q)) :
    HasAt img p r.head ∧ (OffsetContainer.readWrap 28 (offsetSizeOf r.subtype) : Rd (OffsetContainer TagOrCategoryStrings)) img (p + 28) =
      .ok (r.offsets, q) := by
  unfold TagOrCategory.readWrap at h
  obtain ⟨subtype, q0, h0, h⟩ := bind_eq_ok.1 h
  obtain ⟨indexShift, q1, h1, h⟩ := bind_eq_ok.1 h
  obtain ⟨unknown1, q2, h2, h⟩ := bind_eq_ok.1 h
  obtain ⟨unknown2, q3, h3, h⟩ := bind_eq_ok.1 h
  obtain ⟨parentId, q4, h4, h⟩ := bind_eq_ok.1 h
  obtain ⟨position, q5, h5, h⟩ := bind_eq_ok.1 h
  obtain ⟨id, q6, h6, h⟩ := bind_eq_ok.1 h
  obtain ⟨rawIsCategory, q7, h7, h⟩ := bind_eq_ok.1 h
  obtain ⟨c, qc, hcont, h⟩ := bind_eq_ok.1 h
  rw [pure_eq_ok] at h
  obtain ⟨rfl, rfl⟩ := h
  obtain ⟨_, t0, rfl, rfl⟩ := Inv.u16 _ _ _ _ h0
  obtain ⟨_, t1, rfl, rfl⟩ := Inv.u16 _ _ _ _ h1
  obtain ⟨_, t2, rfl, rfl⟩ := Inv.u32 _ _ _ _ h2
  obtain ⟨_, t3, rfl, rfl⟩ := Inv.u32 _ _ _ _ h3
  obtain ⟨_, t4, rfl, rfl⟩ := Inv.u32 _ _ _ _ h4
  obtain ⟨_, t5, rfl, rfl⟩ := Inv.u32 _ _ _ _ h5
  obtain ⟨_, t6, rfl, rfl⟩ := Inv.u32 _ _ _ _ h6
  obtain ⟨_, t7, rfl, rfl⟩ := Inv.u32 _ _ _ _ h7
  refine ⟨?_, hcont⟩
  simp only [TagOrCategory.head, HasAt.append_iff]
  exact ⟨t0, t1, t2, t3, t4, t5, t6, t7⟩

theorem Artwork.invWrap {img : Bytes} {p q : Nat} {r : Artwork} (h : Artwork.readWrap img p = .ok (r, q))
    (he : ∀ x ∈ r.stringsAt p, x.2.ExactAt img x.1) : ∃ bs, r.encWrap = .ok bs ∧ HasAt img p bs := by
  unfold Artwork.readWrap at h
  obtain ⟨id, q0, h0, h⟩ := bind_eq_ok.1 h
  obtain ⟨path, q1, h1, h⟩ := bind_eq_ok.1 h
  rw [pure_eq_ok] at h
  obtain ⟨rfl, rfl⟩ := h
  obtain ⟨_, t0, rfl, rfl⟩ := Inv.u32 _ _ _ _ h0
  have x1 := he (p + 4, path) (by simp [Artwork.stringsAt])
  rw [show p + 4 = _ from (by simp only [encU8_length, encU16_length, encU32_length, ColorIndex.enc_length, FileType.enc_length,
      MenuVisibility.enc_length, List.length_append] <;> omega : _ = p + (encU32 id).length)] at x1
  obtain ⟨b_path, e_path, t1, rfl, z_path⟩ := DString.readWrap_exact h1 x1
  refine ⟨_, by simp only [Artwork.encWrap, e_path, Res.ok_bind]; rfl, ?_⟩
  simp only [HasAt.append_iff]
  exact ⟨t0, t1⟩

theorem Color.invWrap {img : Bytes} {p q : Nat} {r : Color} (h : Color.readWrap img p = .ok (r, q))
    (he : ∀ x ∈ r.stringsAt p, x.2.ExactAt img x.1) : ∃ bs, r.encWrap = .ok bs ∧ HasAt img p bs := by
  unfold Color.readWrap at h
  obtain ⟨unknown1, q0, h0, h⟩ := bind_eq_ok.1 h
  obtain ⟨unknown2, q1, h1, h⟩ := bind_eq_ok.1 h
  obtain ⟨color, q2, h2, h⟩ := bind_eq_ok.1 h
  obtain ⟨unknown3, q3, h3, h⟩ := bind_eq_ok.1 h
  obtain ⟨name, q4, h4, h⟩ := bind_eq_ok.1 h
  rw [pure_eq_ok] at h
  obtain ⟨rfl, rfl⟩ := h
  obtain ⟨_, t0, rfl, rfl⟩ := Inv.u32 _ _ _ _ h0
  obtain ⟨_, t1, rfl, rfl⟩ := Inv.u8 _ _ _ _ h1
  obtain ⟨_, t2, rfl, rfl⟩ := ColorIndex.inv _ _ _ _ h2
  obtain ⟨_, t3, rfl, rfl⟩ := Inv.u16 _ _ _ _ h3
  have x4 := he (p + 8, name) (by simp [Color.stringsAt])
  rw [show p + 8 = _ from (by simp only [encU8_length, encU16_length, encU32_length, ColorIndex.enc_length, FileType.enc_length,
      MenuVisibility.enc_length, List.length_append] <;> omega : _ = p + (encU32 unknown1).length + (encU8 unknown2).length + (color.enc).length + (encU16 unknown3).length)] at x4
  obtain ⟨b_name, e_name, t4, rfl, z_name⟩ := DString.readWrap_exact h4 x4
  refine ⟨_, by simp only [Color.encWrap, e_name, Res.ok_bind]; rfl, ?_⟩
  simp only [HasAt.append_iff]
  exact ⟨t0, t1, t2, t3, t4⟩

theorem Genre.invWrap {img : Bytes} {p q : Nat} {r : Genre} (h : Genre.readWrap img p = .ok (r, q))
    (he : ∀ x ∈ r.stringsAt p, x.2.ExactAt img x.1) : ∃ bs, r.encWrap = .ok bs ∧ HasAt img p bs := by
  unfold Genre.readWrap at h
  obtain ⟨id, q0, h0, h⟩ := bind_eq_ok.1 h
  obtain ⟨name, q1, h1, h⟩ := bind_eq_ok.1 h
  rw [pure_eq_ok] at h
  obtain ⟨rfl, rfl⟩ := h
  obtain ⟨_, t0, rfl, rfl⟩ := Inv.u32 _ _ _ _ h0
  have x1 := he (p + 4, name) (by simp [Genre.stringsAt])
  rw [show p + 4 = _ from (by simp only [encU8_length, encU16_length, encU32_length, ColorIndex.enc_length, FileType.enc_length,
      MenuVisibility.enc_length, List.length_append] <;> omega : _ = p + (encU32 id).length)] at x1
  obtain ⟨b_name, e_name, t1, rfl, z_name⟩ := DString.readWrap_exact h1 x1
  refine ⟨_, by simp only [Genre.encWrap, e_name, Res.ok_bind]; rfl, ?_⟩
  simp only [HasAt.append_iff]
  exact ⟨t0, t1⟩

theorem HistoryPlaylist.invWrap {img : Bytes} {p q : Nat} {r : HistoryPlaylist} (h : HistoryPlaylist.readWrap img p = .ok (r, q))
    (he : ∀ x ∈ r.stringsAt p, x.2.ExactAt img x.1) : ∃ bs, r.encWrap = .ok bs ∧ HasAt img p bs := by
  unfold HistoryPlaylist.readWrap at h
  obtain ⟨id, q0, h0, h⟩ := bind_eq_ok.1 h
  obtain ⟨name, q1, h1, h⟩ := bind_eq_ok.1 h
  rw [pure_eq_ok] at h
  obtain ⟨rfl, rfl⟩ := h
  obtain ⟨_, t0, rfl, rfl⟩ := Inv.u32 _ _ _ _ h0
  have x1 := he (p + 4, name) (by simp [HistoryPlaylist.stringsAt])
  rw [show p + 4 = _ from (by simp only [encU8_length, encU16_length, encU32_length, ColorIndex.enc_length, FileType.enc_length,
      MenuVisibility.enc_length, List.length_append] <;> omega : _ = p + (encU32 id).length)] at x1
  obtain ⟨b_name, e_name, t1, rfl, z_name⟩ := DString.readWrap_exact h1 x1
  refine ⟨_, by simp only [HistoryPlaylist.encWrap, e_name, Res.ok_bind]; rfl, ?_⟩
  simp only [HasAt.append_iff]
  exact ⟨t0, t1⟩

theorem History.invWrap {img : Bytes} {p q : Nat} {r : History} (h : History.readWrap img p = .ok (r, q))
    (he : ∀ x ∈ r.stringsAt p, x.2.ExactAt img x.1) : ∃ bs, r.encWrap = .ok bs ∧ HasAt img p bs := by
  unfold History.readWrap at h
  obtain ⟨subtype, q0, h0, h⟩ := bind_eq_ok.1 h
  obtain ⟨indexShift, q1, h1, h⟩ := bind_eq_ok.1 h
  obtain ⟨numTracks, q2, h2, h⟩ := bind_eq_ok.1 h
  obtain ⟨_, q3, h3, h⟩ := bind_eq_ok.1 h
  obtain ⟨date, q4, h4, h⟩ := bind_eq_ok.1 h
  obtain ⟨_, q5, h5, h⟩ := bind_eq_ok.1 h
  obtain ⟨version, q6, h6, h⟩ := bind_eq_ok.1 h
  obtain ⟨label, q7, h7, h⟩ := bind_eq_ok.1 h
  rw [pure_eq_ok] at h
  obtain ⟨rfl, rfl⟩ := h
  obtain ⟨_, t0, rfl, rfl⟩ := Inv.u16 _ _ _ _ h0
  obtain ⟨_, t1, rfl, rfl⟩ := Inv.u16 _ _ _ _ h1
  obtain ⟨_, t2, rfl, rfl⟩ := Inv.u32 _ _ _ _ h2
  obtain ⟨_, t3, rfl, rfl⟩ := (Inv.magic _) _ _ _ _ h3
  have x4 := he (p + 12, date) (by simp [History.stringsAt])
  rw [show p + 12 = _ from (by simp only [encU8_length, encU16_length, encU32_length, ColorIndex.enc_length, FileType.enc_length,
      MenuVisibility.enc_length, List.length_append] <;> omega : _ = p + (encU16 subtype).length + (encU16 indexShift).length + (encU32 numTracks).length + (encU32 0).length)] at x4
  obtain ⟨b_date, e_date, t4, rfl, z_date⟩ := DString.readWrap_exact h4 x4
  obtain ⟨_, t5, rfl, rfl⟩ := (Inv.magic _) _ _ _ _ h5
  have x6 := he (p + 14 + date.size, version) (by simp [History.stringsAt])
  rw [show p + 14 + date.size = _ from (by simp only [encU8_length, encU16_length, encU32_length, ColorIndex.enc_length, FileType.enc_length,
      MenuVisibility.enc_length, List.length_append, z_date] <;> omega : _ = p + (encU16 subtype).length + (encU16 indexShift).length + (encU32 numTracks).length + (encU32 0).length + b_date.length + (encU16 0x1E19).length)] at x6
  obtain ⟨b_version, e_version, t6, rfl, z_version⟩ := DString.readWrap_exact h6 x6
  have x7 := he (p + 14 + date.size + version.size, label) (by simp [History.stringsAt])
  rw [show p + 14 + date.size + version.size = _ from (by simp only [encU8_length, encU16_length, encU32_length, ColorIndex.enc_length, FileType.enc_length,
      MenuVisibility.enc_length, List.length_append, z_date, z_version] <;> omega : _ = p + (encU16 subtype).length + (encU16 indexShift).length + (encU32 numTracks).length + (encU32 0).length + b_date.length + (encU16 0x1E19).length + b_version.length)] at x7
  obtain ⟨b_label, e_label, t7, rfl, z_label⟩ := DString.readWrap_exact h7 x7
  refine ⟨_, by simp only [History.encWrap, e_date, e_version, e_label, Res.ok_bind]; rfl, ?_⟩
  simp only [HasAt.append_iff]
  exact ⟨t0, t1, t2, t3, t4, t5, t6, t7⟩

theorem Key.invWrap {img : Bytes} {p q : Nat} {r : Key} (h : Key.readWrap img p = .ok (r, q))
    (he : ∀ x ∈ r.stringsAt p, x.2.ExactAt img x.1) : ∃ bs, r.encWrap = .ok bs ∧ HasAt img p bs := by
  unfold Key.readWrap at h
  obtain ⟨id, q0, h0, h⟩ := bind_eq_ok.1 h
  obtain ⟨id2, q1, h1, h⟩ := bind_eq_ok.1 h
  obtain ⟨name, q2, h2, h⟩ := bind_eq_ok.1 h
  rw [pure_eq_ok] at h
  obtain ⟨rfl, rfl⟩ := h
  obtain ⟨_, t0, rfl, rfl⟩ := Inv.u32 _ _ _ _ h0
  obtain ⟨_, t1, rfl, rfl⟩ := Inv.u32 _ _ _ _ h1
  have x2 := he (p + 8, name) (by simp [Key.stringsAt])
  rw [show p + 8 = _ from (by simp only [encU8_length, encU16_length, encU32_length, ColorIndex.enc_length, FileType.enc_length,
      MenuVisibility.enc_length, List.length_append] <;> omega : _ = p + (encU32 id).length + (encU32 id2).length)] at x2
  obtain ⟨b_name, e_name, t2, rfl, z_name⟩ := DString.readWrap_exact h2 x2
  refine ⟨_, by simp only [Key.encWrap, e_name, Res.ok_bind]; rfl, ?_⟩
  simp only [HasAt.append_iff]
  exact ⟨t0, t1, t2⟩

theorem Label.invWrap {img : Bytes} {p q : Nat} {r : Label} (h : Label.readWrap img p = .ok (r, q))
    (he : ∀ x ∈ r.stringsAt p, x.2.ExactAt img x.1) : ∃ bs, r.encWrap = .ok bs ∧ HasAt img p bs := by
  unfold Label.readWrap at h
  obtain ⟨id, q0, h0, h⟩ := bind_eq_ok.1 h
  obtain ⟨name, q1, h1, h⟩ := bind_eq_ok.1 h
  rw [pure_eq_ok] at h
  obtain ⟨rfl, rfl⟩ := h
  obtain ⟨_, t0, rfl, rfl⟩ := Inv.u32 _ _ _ _ h0
  have x1 := he (p + 4, name) (by simp [Label.stringsAt])
  rw [show p + 4 = _ from (by simp only [encU8_length, encU16_length, encU32_length, ColorIndex.enc_length, FileType.enc_length,
      MenuVisibility.enc_length, List.length_append] <;> omega : _ = p + (encU32 id).length)] at x1
  obtain ⟨b_name, e_name, t1, rfl, z_name⟩ := DString.readWrap_exact h1 x1
  refine ⟨_, by simp only [Label.encWrap, e_name, Res.ok_bind]; rfl, ?_⟩
  simp only [HasAt.append_iff]
  exact ⟨t0, t1⟩

theorem PlaylistTreeNode.invWrap {img : Bytes} {p q : Nat} {r : PlaylistTreeNode} (h : PlaylistTreeNode.readWrap img p = .ok (r, q))
    (he : ∀ x ∈ r.stringsAt p, x.2.ExactAt img x.1) : ∃ bs, r.encWrap = .ok bs ∧ HasAt img p bs := by
  unfold PlaylistTreeNode.readWrap at h
  obtain ⟨parentId, q0, h0, h⟩ := bind_eq_ok.1 h
  obtain ⟨unknown, q1, h1, h⟩ := bind_eq_ok.1 h
  obtain ⟨sortOrder, q2, h2, h⟩ := bind_eq_ok.1 h
  obtain ⟨id, q3, h3, h⟩ := bind_eq_ok.1 h
  obtain ⟨nodeIsFolder, q4, h4, h⟩ := bind_eq_ok.1 h
  obtain ⟨name, q5, h5, h⟩ := bind_eq_ok.1 h
  rw [pure_eq_ok] at h
  obtain ⟨rfl, rfl⟩ := h
  obtain ⟨_, t0, rfl, rfl⟩ := Inv.u32 _ _ _ _ h0
  obtain ⟨_, t1, rfl, rfl⟩ := Inv.u32 _ _ _ _ h1
  obtain ⟨_, t2, rfl, rfl⟩ := Inv.u32 _ _ _ _ h2
  obtain ⟨_, t3, rfl, rfl⟩ := Inv.u32 _ _ _ _ h3
  obtain ⟨_, t4, rfl, rfl⟩ := Inv.u32 _ _ _ _ h4
  have x5 := he (p + 20, name) (by simp [PlaylistTreeNode.stringsAt])
  rw [show p + 20 = _ from (by simp only [encU8_length, encU16_length, encU32_length, ColorIndex.enc_length, FileType.enc_length,
      MenuVisibility.enc_length, List.length_append] <;> omega : _ = p + (encU32 parentId).length + (encU32 unknown).length + (encU32 sortOrder).length + (encU32 id).length + (encU32 nodeIsFolder).length)] at x5
  obtain ⟨b_name, e_name, t5, rfl, z_name⟩ := DString.readWrap_exact h5 x5
  refine ⟨_, by simp only [PlaylistTreeNode.encWrap, e_name, Res.ok_bind]; rfl, ?_⟩
  simp only [HasAt.append_iff]
  exact ⟨t0, t1, t2, t3, t4, t5⟩

theorem ColumnEntry.invWrap {img : Bytes} {p q : Nat} {r : ColumnEntry} (h : ColumnEntry.readWrap img p = .ok (r, q))
    (he : ∀ x ∈ r.stringsAt p, x.2.ExactAt img x.1) : ∃ bs, r.encWrap = .ok bs ∧ HasAt img p bs := by
  unfold ColumnEntry.readWrap at h
  obtain ⟨id, q0, h0, h⟩ := bind_eq_ok.1 h
  obtain ⟨unknown0, q1, h1, h⟩ := bind_eq_ok.1 h
  obtain ⟨columnName, q2, h2, h⟩ := bind_eq_ok.1 h
  rw [pure_eq_ok] at h
  obtain ⟨rfl, rfl⟩ := h
  obtain ⟨_, t0, rfl, rfl⟩ := Inv.u16 _ _ _ _ h0
  obtain ⟨_, t1, rfl, rfl⟩ := Inv.u16 _ _ _ _ h1
  have x2 := he (p + 4, columnName) (by simp [ColumnEntry.stringsAt])
  rw [show p + 4 = _ from (by simp only [encU8_length, encU16_length, encU32_length, ColorIndex.enc_length, FileType.enc_length,
      MenuVisibility.enc_length, List.length_append] <;> omega : _ = p + (encU16 id).length + (encU16 unknown0).length)] at x2
  obtain ⟨b_columnName, e_columnName, t2, rfl, z_columnName⟩ := DString.readWrap_exact h2 x2
  refine ⟨_, by simp only [ColumnEntry.encWrap, e_columnName, Res.ok_bind]; rfl, ?_⟩
  simp only [HasAt.append_iff]
  exact ⟨t0, t1, t2⟩

/-- Writing back a row that was read. -/
theorem Row.readWrap_then_write {r : Row} {t : PageType} {img : Bytes} {p q : Nat}
    (h : Row.readWrap t img p = .ok (r, q)) (he : ∀ x ∈ r.stringsAt p, x.2.ExactAt img x.1) :
    r.Fits t ∧ ∃ p' ps, r.writeWrap p = .ok ((), p', ps) ∧ Contains img ps := by
  cases t with
  | unknown c =>
    have h : (Pure.pure Row.unknown : Rd Row) img p = _ := h
    rw [pure_eq_ok] at h
    obtain ⟨rfl, rfl⟩ := h
    exact ⟨⟨c, rfl⟩, p, [], rfl, fun x hx => by simp at hx⟩
  | plain t =>
    obtain ⟨_, q1, h1, h⟩ := bind_eq_ok.1 (show (PlainRow.readWrap t >>= _ : Rd _) img p = _ from h)
    rw [pure_eq_ok] at h
    obtain ⟨rfl, rfl⟩ := h
    cases t with
    | albums =>
      obtain ⟨r, q2, h2, h⟩ := bind_eq_ok.1 (show (Album.readWrap >>= _ : Rd _) img p = _ from h1)
      rw [pure_eq_ok] at h
      obtain ⟨rfl, rfl⟩ := h
      refine ⟨rfl, ?_⟩
      obtain ⟨h3, h4⟩ := Album.head_invWrap h2
      exact crow_invWrap r.head_length h3 h4 he
    | artists =>
      obtain ⟨r, q2, h2, h⟩ := bind_eq_ok.1 (show (Artist.readWrap >>= _ : Rd _) img p = _ from h1)
      rw [pure_eq_ok] at h
      obtain ⟨rfl, rfl⟩ := h
      refine ⟨rfl, ?_⟩
      obtain ⟨h3, h4⟩ := Artist.head_invWrap h2
      exact crow_invWrap r.head_length h3 h4 he
    | artwork =>
      obtain ⟨r, q2, h2, h⟩ := bind_eq_ok.1 (show (Artwork.readWrap >>= _ : Rd _) img p = _ from h1)
      rw [pure_eq_ok] at h
      obtain ⟨rfl, rfl⟩ := h
      refine ⟨rfl, ?_⟩
      obtain ⟨bs, h3, h4⟩ := Artwork.invWrap h2 he
      exact ⟨_, _, Wr.emitRes_ok h3 p, Contains.cons_iff.2 ⟨h4, fun x hx => by simp at hx⟩⟩
    | colors =>
      obtain ⟨r, q2, h2, h⟩ := bind_eq_ok.1 (show (Color.readWrap >>= _ : Rd _) img p = _ from h1)
      rw [pure_eq_ok] at h
      obtain ⟨rfl, rfl⟩ := h
      refine ⟨rfl, ?_⟩
      obtain ⟨bs, h3, h4⟩ := Color.invWrap h2 he
      exact ⟨_, _, Wr.emitRes_ok h3 p, Contains.cons_iff.2 ⟨h4, fun x hx => by simp at hx⟩⟩
    | genres =>
      obtain ⟨r, q2, h2, h⟩ := bind_eq_ok.1 (show (Genre.readWrap >>= _ : Rd _) img p = _ from h1)
      rw [pure_eq_ok] at h
      obtain ⟨rfl, rfl⟩ := h
      refine ⟨rfl, ?_⟩
      obtain ⟨bs, h3, h4⟩ := Genre.invWrap h2 he
      exact ⟨_, _, Wr.emitRes_ok h3 p, Contains.cons_iff.2 ⟨h4, fun x hx => by simp at hx⟩⟩
    | historyPlaylists =>
      obtain ⟨r, q2, h2, h⟩ := bind_eq_ok.1 (show (HistoryPlaylist.readWrap >>= _ : Rd _) img p = _ from h1)
      rw [pure_eq_ok] at h
      obtain ⟨rfl, rfl⟩ := h
      refine ⟨rfl, ?_⟩
      obtain ⟨bs, h3, h4⟩ := HistoryPlaylist.invWrap h2 he
      exact ⟨_, _, Wr.emitRes_ok h3 p, Contains.cons_iff.2 ⟨h4, fun x hx => by simp at hx⟩⟩
    | historyEntries =>
      obtain ⟨r, q2, h2, h⟩ := bind_eq_ok.1 (show (HistoryEntry.read >>= _ : Rd _) img p = _ from h1)
      rw [pure_eq_ok] at h
      obtain ⟨rfl, rfl⟩ := h
      refine ⟨rfl, ?_⟩
      obtain ⟨bs, h3, h4⟩ := HistoryEntry.inv h2 he
      exact ⟨_, _, Wr.emitRes_ok h3 p, Contains.cons_iff.2 ⟨h4, fun x hx => by simp at hx⟩⟩
    | history =>
      obtain ⟨r, q2, h2, h⟩ := bind_eq_ok.1 (show (History.readWrap >>= _ : Rd _) img p = _ from h1)
      rw [pure_eq_ok] at h
      obtain ⟨rfl, rfl⟩ := h
      refine ⟨rfl, ?_⟩
      obtain ⟨bs, h3, h4⟩ := History.invWrap h2 he
      exact ⟨_, _, Wr.emitRes_ok h3 p, Contains.cons_iff.2 ⟨h4, fun x hx => by simp at hx⟩⟩
    | keys =>
      obtain ⟨r, q2, h2, h⟩ := bind_eq_ok.1 (show (Key.readWrap >>= _ : Rd _) img p = _ from h1)
      rw [pure_eq_ok] at h
      obtain ⟨rfl, rfl⟩ := h
      refine ⟨rfl, ?_⟩
      obtain ⟨bs, h3, h4⟩ := Key.invWrap h2 he
      exact ⟨_, _, Wr.emitRes_ok h3 p, Contains.cons_iff.2 ⟨h4, fun x hx => by simp at hx⟩⟩
    | labels =>
      obtain ⟨r, q2, h2, h⟩ := bind_eq_ok.1 (show (Label.readWrap >>= _ : Rd _) img p = _ from h1)
      rw [pure_eq_ok] at h
      obtain ⟨rfl, rfl⟩ := h
      refine ⟨rfl, ?_⟩
      obtain ⟨bs, h3, h4⟩ := Label.invWrap h2 he
      exact ⟨_, _, Wr.emitRes_ok h3 p, Contains.cons_iff.2 ⟨h4, fun x hx => by simp at hx⟩⟩
    | playlistTree =>
      obtain ⟨r, q2, h2, h⟩ := bind_eq_ok.1 (show (PlaylistTreeNode.readWrap >>= _ : Rd _) img p = _ from h1)
      rw [pure_eq_ok] at h
      obtain ⟨rfl, rfl⟩ := h
      refine ⟨rfl, ?_⟩
      obtain ⟨bs, h3, h4⟩ := PlaylistTreeNode.invWrap h2 he
      exact ⟨_, _, Wr.emitRes_ok h3 p, Contains.cons_iff.2 ⟨h4, fun x hx => by simp at hx⟩⟩
    | playlistEntries =>
      obtain ⟨r, q2, h2, h⟩ := bind_eq_ok.1 (show (PlaylistEntry.read >>= _ : Rd _) img p = _ from h1)
      rw [pure_eq_ok] at h
      obtain ⟨rfl, rfl⟩ := h
      refine ⟨rfl, ?_⟩
      obtain ⟨bs, h3, h4⟩ := PlaylistEntry.inv h2 he
      exact ⟨_, _, Wr.emitRes_ok h3 p, Contains.cons_iff.2 ⟨h4, fun x hx => by simp at hx⟩⟩
    | columns =>
      obtain ⟨r, q2, h2, h⟩ := bind_eq_ok.1 (show (ColumnEntry.readWrap >>= _ : Rd _) img p = _ from h1)
      rw [pure_eq_ok] at h
      obtain ⟨rfl, rfl⟩ := h
      refine ⟨rfl, ?_⟩
      obtain ⟨bs, h3, h4⟩ := ColumnEntry.invWrap h2 he
      exact ⟨_, _, Wr.emitRes_ok h3 p, Contains.cons_iff.2 ⟨h4, fun x hx => by simp at hx⟩⟩
    | menu =>
      obtain ⟨r, q2, h2, h⟩ := bind_eq_ok.1 (show (Menu.read >>= _ : Rd _) img p = _ from h1)
      rw [pure_eq_ok] at h
      obtain ⟨rfl, rfl⟩ := h
      refine ⟨rfl, ?_⟩
      obtain ⟨bs, h3, h4⟩ := Menu.inv h2 he
      exact ⟨_, _, Wr.emitRes_ok h3 p, Contains.cons_iff.2 ⟨h4, fun x hx => by simp at hx⟩⟩
    | tracks =>
      obtain ⟨r, q2, h2, h⟩ := bind_eq_ok.1 (show (Track.readWrap >>= _ : Rd _) img p = _ from h1)
      rw [pure_eq_ok] at h
      obtain ⟨rfl, rfl⟩ := h
      refine ⟨rfl, ?_⟩
      obtain ⟨h3, h4⟩ := Track.head_invWrap h2
      exact crow_invWrap r.head_length h3 h4 he
  | ext t =>
    obtain ⟨_, q1, h1, h⟩ := bind_eq_ok.1 (show (ExtRow.readWrap t >>= _ : Rd _) img p = _ from h)
    rw [pure_eq_ok] at h
    obtain ⟨rfl, rfl⟩ := h
    cases t with
    | tag =>
      obtain ⟨r, q2, h2, h⟩ := bind_eq_ok.1 (show (TagOrCategory.readWrap >>= _ : Rd _) img p = _ from h1)
      rw [pure_eq_ok] at h
      obtain ⟨rfl, rfl⟩ := h
      refine ⟨rfl, ?_⟩
      obtain ⟨h3, h4⟩ := TagOrCategory.head_invWrap h2
      exact crow_invWrap r.head_length h3 h4 he
    | trackTag =>
      obtain ⟨r, q2, h2, h⟩ := bind_eq_ok.1 (show (TrackTag.read >>= _ : Rd _) img p = _ from h1)
      rw [pure_eq_ok] at h
      obtain ⟨rfl, rfl⟩ := h
      refine ⟨rfl, ?_⟩
      obtain ⟨bs, h3, h4⟩ := TrackTag.inv h2 he
      exact ⟨_, _, Wr.emitRes_ok h3 p, Contains.cons_iff.2 ⟨h4, fun x hx => by simp at hx⟩⟩


/-! ## Pages -/

namespace DataPageContent

/-- The writes of rows at their offsets. -/
inductive RowsWrittenWrap (base : Nat) : RowMap → List Patch → Prop where
  | nil : RowsWrittenWrap base [] []
  | cons {o : UInt16} {r : Row} {rows : RowMap} {q : Nat} {ps1 ps2 : List Patch}
      (h : r.writeWrap (base + o.toNat) = .ok ((), q, ps1)) (t : RowsWrittenWrap base rows ps2) :
      RowsWrittenWrap base ((o, r) :: rows) (ps1 ++ ps2)

theorem writeRowAtWrap_eq_ok {base : Nat} {x : UInt16 × Row} {q : Nat} {ps : List Patch} :
    writeRowAtWrap base x base = .ok ((), q, ps) ↔
      q = base ∧ ∃ q', x.2.writeWrap (base + x.1.toNat) = .ok ((), q', ps) := by
  unfold writeRowAtWrap
  constructor
  · intro h
    obtain ⟨_, p1, ps1, ps2, h1, h2, rfl⟩ := Wr.bind_eq_ok.1 h
    rw [Wr.seekBy_nat] at h1
    simp only [Res.ok.injEq, Prod.mk.injEq] at h1
    obtain ⟨-, rfl, rfl⟩ := h1
    obtain ⟨_, p2, ps3, ps4, h3, h4, rfl⟩ := Wr.bind_eq_ok.1 h2
    rw [Wr.seekTo_def] at h4
    simp only [Res.ok.injEq, Prod.mk.injEq] at h4
    obtain ⟨-, rfl, rfl⟩ := h4
    exact ⟨rfl, p2, by simpa using h3⟩
  · rintro ⟨rfl, q', h⟩
    have := Wr.bind_of_ok (f := fun _ => do x.2.writeWrap; Wr.seekTo q) (Wr.seekBy_nat x.1.toNat q)
      (Wr.bind_of_ok (f := fun _ => Wr.seekTo q) h (Wr.seekTo_def _ _))
    simpa using this

theorem forEach_writeRowAtWrap {base : Nat} {rows : RowMap} {q : Nat} {ps : List Patch} :
    Wr.forEach (writeRowAtWrap base) rows base = .ok ((), q, ps) ↔ q = base ∧ RowsWrittenWrap base rows ps := by
  induction rows generalizing q ps with
  | nil =>
    constructor
    · intro h
      simp only [Wr.forEach, Wr.pure_def, Res.ok.injEq, Prod.mk.injEq] at h
      obtain ⟨-, rfl, rfl⟩ := h
      exact ⟨rfl, .nil⟩
    · rintro ⟨rfl, h⟩
      cases h
      rfl
  | cons x rows ih =>
    constructor
    · intro h
      obtain ⟨_, p1, ps1, ps2, h1, h2, rfl⟩ := Wr.bind_eq_ok.1 h
      obtain ⟨rfl, q', h1⟩ := writeRowAtWrap_eq_ok.1 h1
      obtain ⟨rfl, h2⟩ := ih.1 h2
      exact ⟨rfl, .cons h1 h2⟩
    · rintro ⟨rfl, h⟩
      cases h with
      | cons h t =>
        exact Wr.bind_of_ok (writeRowAtWrap_eq_ok.2 ⟨rfl, _, h⟩) (ih.2 ⟨rfl, t⟩)

theorem writeAtOffsetsWrap_eq_ok {base : Nat} {rows : RowMap} {q : Nat} {ps : List Patch} :
    writeAtOffsetsWrap rows base = .ok ((), q, ps) ↔ q = base ∧ RowsWrittenWrap base rows ps := by
  unfold writeAtOffsetsWrap
  rw [← forEach_writeRowAtWrap, Wr.bind_def, Wr.pos_def]
  simp only [List.nil_append]
  cases Wr.forEach (writeRowAtWrap base) rows base with
  | ok x => obtain ⟨⟨⟩, a, b⟩ := x; simp
  | err e => simp
  | panic => simp

theorem RowsWrittenWrap.of_contains {base : Nat} {img : Bytes} {rows : RowMap}
    (h : ∀ x ∈ rows, ∃ q ps, x.2.writeWrap (base + x.1.toNat) = .ok ((), q, ps) ∧ Contains img ps) :
    ∃ ps, RowsWrittenWrap base rows ps ∧ Contains img ps := by
  induction rows with
  | nil => exact ⟨[], .nil, Contains.nil⟩
  | cons x rows ih =>
    obtain ⟨q, ps1, h1, c1⟩ := h x (List.mem_cons_self ..)
    obtain ⟨ps2, h2, c2⟩ := ih fun y hy => h y (List.mem_cons_of_mem _ hy)
    exact ⟨ps1 ++ ps2, .cons h1 h2, Contains.append_iff.2 ⟨c1, c2⟩⟩

theorem parseAtOffsetsWrap_eq_ok {t : PageType} {base : Nat} {os : List UInt16} {img : Bytes}
    {l : List (UInt16 × Row)} {q : Nat} :
    parseAtOffsetsWrap t base os img base = .ok (l, q) ↔
      q = base ∧ l.map Prod.fst = os ∧
        ∀ x ∈ l, ∃ q', Row.readWrap t img (base + x.1.toNat) = .ok (x.2, q') := by
  induction os generalizing l q with
  | nil =>
    rw [parseAtOffsetsWrap, pure_eq_ok]
    constructor
    · rintro ⟨rfl, rfl⟩
      exact ⟨rfl, rfl, fun x hx => by cases hx⟩
    · rintro ⟨rfl, h, -⟩
      exact ⟨(List.map_eq_nil_iff.1 h).symm, rfl⟩
  | cons o os ih =>
    rw [parseAtOffsetsWrap, bind_of_ok (Rd.seekBy_nat o.toNat img base)]
    constructor
    · intro h
      obtain ⟨v, p1, h1, h⟩ := bind_eq_ok.1 h
      obtain ⟨_, p2, h2, h⟩ := bind_eq_ok.1 h
      have : p2 = base := by
        simp only [Rd.seekTo, Res.ok.injEq, Prod.mk.injEq] at h2
        exact h2.2.symm
      subst this
      obtain ⟨rest, p3, h3, h⟩ := bind_eq_ok.1 h
      rw [pure_eq_ok] at h
      obtain ⟨rfl, rfl⟩ := h
      obtain ⟨rfl, h4, h5⟩ := ih.1 h3
      refine ⟨rfl, by rw [List.map_cons, h4], ?_⟩
      intro x hx
      rcases List.mem_cons.1 hx with rfl | hx
      · exact ⟨p1, h1⟩
      · exact h5 x hx
    · rintro ⟨rfl, hm, hall⟩
      cases l with
      | nil => cases hm
      | cons x l =>
        rw [List.map_cons, List.cons.injEq] at hm
        obtain ⟨rfl, hm⟩ := hm
        obtain ⟨q', hx⟩ := hall x (List.mem_cons_self ..)
        rw [bind_of_ok hx, bind_of_ok (show Rd.seekTo q img q' = .ok ((), q) from rfl),
          bind_of_ok (ih.2 ⟨rfl, hm, fun y hy => hall y (List.mem_cons_of_mem _ hy)⟩)]
        rfl

theorem readRowsWrap_inv {t : PageType} {gs : List RowGroup} {img : Bytes} {base q : Nat} {rows : RowMap}
    (h : readRowsWrap t gs img base = .ok (rows, q)) :
    q = base ∧ rows.Sorted ∧ (∀ o, o ∈ gs.flatMap RowGroup.presentRowsOffsets ↔ ∃ x ∈ rows, x.1 = o) ∧
      ∀ x ∈ rows, ∃ q, Row.readWrap t img (base + x.1.toNat) = .ok (x.2, q) := by
  unfold readRowsWrap at h
  rw [bind_of_ok (show Rd.pos img base = .ok (base, base) from rfl)] at h
  obtain ⟨l, p1, h1, h⟩ := bind_eq_ok.1 h
  rw [pure_eq_ok] at h
  obtain ⟨rfl, rfl⟩ := h
  obtain ⟨rfl, h2, h3⟩ := parseAtOffsetsWrap_eq_ok.1 h1
  have hinj : ∀ x ∈ l, ∀ y ∈ l, x.1 = y.1 → x = y := by
    intro x hx y hy he
    obtain ⟨qx, hx⟩ := h3 x hx
    obtain ⟨qy, hy⟩ := h3 y hy
    rw [he, hy] at hx
    simp only [Res.ok.injEq, Prod.mk.injEq] at hx
    exact Prod.ext he hx.1.symm
  obtain ⟨h4, h5⟩ := RowMap.ofList_spec hinj
  refine ⟨rfl, h4, ?_, fun x hx => h3 x ((h5 x).1 hx)⟩
  intro o
  rw [← h2, List.mem_map]
  constructor
  · rintro ⟨x, hx, rfl⟩; exact ⟨x, (h5 x).2 hx, rfl⟩
  · rintro ⟨x, hx, rfl⟩; exact ⟨x, (h5 x).1 hx, rfl⟩

theorem writeWrap_ok {c : DataPageContent} (hl : ∀ g ∈ c.rowGroups, g.rowOffsets.length = 16) {pageSize p : Nat}
    {rps : List Patch} (hh : 36 * c.rowGroups.length ≤ p + 8 + pageHeapSizeWrap pageSize)
    (hr : RowsWrittenWrap (p + 8) c.rows rps) :
    c.writeWrap pageSize p = .ok ((), p + 8 + pageHeapSizeWrap pageSize,
      [⟨p, c.header.enc⟩] ++ (RowGroup.allPatches (p + 8 + pageHeapSizeWrap pageSize) c.rowGroups ++ (rps ++ []))) := by
  unfold writeWrap
  refine Wr.bind_of_ok (Wr.emit_def _ _) ?_
  rw [DataPageHeader.enc_length]
  refine Wr.bind_of_ok ((writeGroups_eq_ok hl).2 ⟨rfl, hh, rfl⟩) ?_
  refine Wr.bind_of_ok (writeAtOffsetsWrap_eq_ok.2 ⟨rfl, hr⟩) ?_
  rw [Wr.seekBy_nat]

theorem readWrap_inv {h : PageHeader} {c : DataPageContent} {pageSize p q : Nat} {img : Bytes}
    (hr : DataPageContent.readWrap pageSize h img p = .ok (c, q)) :
    q = p + 8 + pageHeapSizeWrap pageSize ∧ HasAt img p c.header.enc ∧
      36 * c.rowGroups.length ≤ p + 8 + pageHeapSizeWrap pageSize ∧
      Contains img (RowGroup.allPatches (p + 8 + pageHeapSizeWrap pageSize) c.rowGroups) ∧
      (∀ g ∈ c.rowGroups, g.rowOffsets.length = 16) ∧
      ∀ x ∈ c.rows, ∃ q, Row.readWrap h.pageType img (p + 8 + x.1.toNat) = .ok (x.2, q) := by
  unfold readWrap at hr
  obtain ⟨hd, p1, h1, hr⟩ := bind_eq_ok.1 hr
  obtain ⟨bs, hb1, rfl, rfl⟩ := DataPageHeader.inv _ _ _ _ h1
  rw [DataPageHeader.enc_length] at hr
  obtain ⟨gs, p3, h3, hr⟩ := bind_eq_ok.1 hr
  obtain ⟨rfl, q', h3⟩ := readGroups_eq_ok.1 h3
  obtain ⟨g1, g2, g3, g4, g5⟩ := RowGroup.readAll_inv h3
  obtain ⟨rows, p4, h4, hr⟩ := bind_eq_ok.1 hr
  obtain ⟨rfl, r1, r2, r3⟩ := readRowsWrap_inv h4
  obtain ⟨_, p5, h5, hr⟩ := bind_eq_ok.1 hr
  have hv : p5 = p + 8 := by
    unfold Rd.require at h5
    split at h5
    · rw [pure_eq_ok] at h5
      exact h5.2.symm
    · simp [Rd.fail] at h5
  subst hv
  rw [bind_of_ok (Rd.seekBy_nat _ _ _), pure_eq_ok] at hr
  obtain ⟨rfl, rfl⟩ := hr
  exact ⟨rfl, hb1, by simp only; omega, g5, g4, r3⟩


end DataPageContent

namespace Page

theorem writeWrap_eq_ok {pg : Page} {pageSize p q : Nat} {ps : List Patch} :
    pg.writeWrap pageSize p = .ok ((), q, ps) ↔
      ∃ ps', pg.content.writeWrap pageSize (p + 32) = .ok ((), q, ps') ∧ ps = [⟨p, pg.header.enc⟩] ++ ps' := by
  unfold writeWrap
  constructor
  · intro h
    obtain ⟨_, p1, ps1, ps2, h1, h2, rfl⟩ := Wr.bind_eq_ok.1 h
    rw [Wr.emit_def, PageHeader.enc_length] at h1
    simp only [Res.ok.injEq, Prod.mk.injEq] at h1
    obtain ⟨-, rfl, rfl⟩ := h1
    exact ⟨ps2, h2, rfl⟩
  · rintro ⟨ps', h, rfl⟩
    refine Wr.bind_of_ok (Wr.emit_def _ _) ?_
    rw [PageHeader.enc_length]
    exact h

theorem content_readWrap_inv {pageSize : Nat} {h : PageHeader} {img : Bytes} {p q : Nat} {c : PageContent}
    (hr : PageContent.readWrap pageSize h img p = .ok (c, q)) :
    (h.pageFlags.isIndexPage = false ∧ ∃ d, c = .data d ∧ DataPageContent.readWrap pageSize h img p = .ok (d, q)) ∨
    (h.pageFlags.isIndexPage = true ∧ ∃ d, c = .index d ∧ IndexPageContent.read img p = .ok (d, q)) := by
  unfold PageContent.readWrap Rd.orElse at hr
  cases hf : h.pageFlags.isIndexPage with
  | false =>
    left
    refine ⟨rfl, ?_⟩
    rw [hf] at hr
    cases hd : DataPageContent.readWrap pageSize h img p with
    | ok x =>
      obtain ⟨d, q'⟩ := x
      have : (do Rd.require (!false); let c ← DataPageContent.readWrap pageSize h; pure (.data c) : Rd PageContent)
          img p = .ok (.data d, q') := by
        rw [require_true_bind (b := !false) rfl, bind_of_ok hd]; rfl
      rw [this] at hr
      simp only [Res.ok.injEq, Prod.mk.injEq] at hr
      obtain ⟨rfl, rfl⟩ := hr
      exact ⟨d, rfl, rfl⟩
    | err e =>
      have : (do Rd.require (!false); let c ← DataPageContent.readWrap pageSize h; pure (.data c) : Rd PageContent)
          img p = .err e := by
        rw [require_true_bind (b := !false) rfl, bind_of_err hd]
      rw [this] at hr
      cases hr
    | panic =>
      have : (do Rd.require (!false); let c ← DataPageContent.readWrap pageSize h; pure (.data c) : Rd PageContent)
          img p = .panic := by
        rw [require_true_bind (b := !false) rfl, bind_of_panic hd]
      rw [this] at hr
      cases hr
  | true =>
    right
    refine ⟨rfl, ?_⟩
    rw [hf] at hr
    have hr' : (do Rd.require true; let c ← IndexPageContent.read; pure (.index c) : Rd PageContent)
        img p = .ok (c, q) := hr
    rw [require_true_bind rfl] at hr'
    obtain ⟨d, q', hd, hr'⟩ := bind_eq_ok.1 hr'
    rw [pure_eq_ok] at hr'
    obtain ⟨rfl, rfl⟩ := hr'
    exact ⟨d, rfl, hd⟩

theorem readWrap_eq_ok {pageSize : Nat} {db : DatabaseType} {img : Bytes} {p q : Nat} {pg : Page}
    (h : Page.readWrap pageSize db img p = .ok (pg, q)) :
    pg.header.pageType.ValidFor db ∧ HasAt img p pg.header.enc ∧
      PageContent.readWrap pageSize pg.header img (p + 32) = .ok (pg.content, q) := by
  unfold readWrap at h
  obtain ⟨hd, p1, h1, h⟩ := bind_eq_ok.1 h
  have hv := PageHeader.read_valid h1
  obtain ⟨bs, hb, rfl, rfl⟩ := PageHeader.inv _ _ _ _ _ h1
  rw [PageHeader.enc_length] at h
  obtain ⟨c, p2, h2, h⟩ := bind_eq_ok.1 h
  rw [pure_eq_ok] at h
  obtain ⟨rfl, rfl⟩ := h
  exact ⟨hv, hb, h2⟩

end Page

end Rekordcrate
