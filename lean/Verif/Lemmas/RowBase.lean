import Verif.Spec.Rows
import Verif.Lemmas.OffsetArray
import Verif.Lemmas.Header

/-! # Lemmas shared by all rows -/

namespace Rekordcrate
open Rd

theorem offsetSizeOf_eq (s : UInt16) : offsetSizeOf s = docWidth s := by
  unfold offsetSizeOf docWidth
  have : (s &&& 0x04 = 0) ↔ ¬ s.toNat / 4 % 2 = 1 := by
    rw [← UInt16.toNat_inj, UInt16.toNat_and]
    have h4 : (4 : UInt16).toNat = 2 ^ 2 := rfl
    have h0 : (0 : UInt16).toNat = 0 := rfl
    rw [h4, h0]
    have hb : s.toNat.testBit 2 = decide (s.toNat / 4 % 2 = 1) := by
      rw [Nat.testBit_eq_decide_div_mod_eq]
    constructor
    · intro h h1
      have := congrArg (Nat.testBit · 2) h
      simp [Nat.testBit_and, hb, h1] at this
      revert this; decide
    · intro h
      apply Nat.eq_of_testBit_eq
      intro i
      rw [Nat.testBit_and, Nat.testBit_two_pow]
      by_cases hi : 2 = i
      · subst hi; simp [hb, h]
      · simp [hi]
  by_cases h : s.toNat / 4 % 2 = 1
  · rw [if_neg (by rw [this]; simpa using h), if_pos h]
  · rw [if_pos (this.2 h), if_neg h]

/-! ## Strings -/

theorem DString.length_of_enc {v : DString} {bs : Bytes} (h : v.enc = .ok bs) : bs.length = v.size := by
  rcases DString.enc_eq_ok h with ⟨c, rfl, rfl⟩ | ⟨b, rfl, hl, rfl⟩
  · simp [DString.size]; omega
  · cases b <;> simp only [DString.size, longBytes, LongBody.enc, encNullString, List.length_append,
      flatMap_encU16_length, encU16_length, List.length_cons, List.length_nil] <;> omega

theorem DString.ParsedAs.length {v : DString} {bs : Bytes} (h : DString.ParsedAs v bs) :
    bs.length = v.size := by
  cases h <;> simp only [DString.size, longBytes, encNullString, List.length_append,
      flatMap_encU16_length, encU16_length, List.length_cons, List.length_nil] <;> omega

/-- A parsed string is written back to the bytes it was read from, if its length field is exact. -/
theorem DString.read_exact {img : Bytes} {p q : Nat} {v : DString} (h : DString.read img p = .ok (v, q))
    (he : v.ExactAt img p) : ∃ bs, v.enc = .ok bs ∧ HasAt img p bs ∧ q = p + bs.length ∧
      bs.length = v.size := by
  obtain ⟨bs, hb, rfl, hp⟩ := DString.read_inv _ _ _ _ h
  by_cases hi : ∃ c, v = .long (.isrc c)
  · obtain ⟨c, rfl⟩ := hi
    have hlen := hp.length
    cases hp with
    | isrc c len h4 hl h0 =>
      simp only [DString.ExactAt] at he
      have hb' := hb
      unfold longBytes at hb'
      rw [HasAt.append_iff, HasAt.append_iff] at hb'
      have hu := U16At.of_hasAt hb'.2.1
      rw [encU16_ofNat_of_lt hl] at hu
      simp only [List.length_singleton] at hu
      have heq : len = c.length + 6 := by
        obtain ⟨a, b, h1, h2, h3⟩ := he
        obtain ⟨a', b', h1', h2', h3'⟩ := hu
        rw [h1] at h1'; rw [h2] at h2'
        injection h1' with h1'; injection h2' with h2'
        subst h1' h2'; omega
      subst heq
      have hlen' : (LongBody.isrc c).enc.length + 4 = c.length + 6 := by
        simp [LongBody.enc, encNullString]
      refine ⟨_, ?_, hb, rfl, hlen⟩
      have := DString.enc_long (b := .isrc c) (LongBody.byteCount_ok (by omega)) (by omega)
      rw [hlen'] at this
      exact this
  · exact ⟨bs, hp.enc_eq (fun c hc => hi ⟨c, hc⟩), hb, rfl, hp.length⟩

/-- Heap size and written size of a storable string agree. -/
theorem DString.Storable.heap {v : DString} (h : v.Storable) {bs : Bytes} (he : v.enc = .ok bs) :
    v.heapBytes = .ok bs.length := by
  rcases DString.enc_eq_ok he with ⟨c, rfl, rfl⟩ | ⟨b, rfl, hl, rfl⟩
  · simp only [DString.Storable] at h
    simp only [DString.heapBytes, addU16]
    rw [if_pos (by omega)]
    simp; omega
  · rw [DString.heapBytes_long (LongBody.byteCount_ok (by omega)) hl]
    simp [longBytes]; omega

/-! ## Enums -/

@[simp] theorem MenuVisibility.enc_length (c : MenuVisibility) : c.enc.length = 1 := rfl

theorem MenuVisibility.rt {c : MenuVisibility} (h : c.Canonical) : RT MenuVisibility.read c.enc c := by
  cases c with
  | visible => exact RT.orElse_left (RT.magicEnum (by simp [MenuVisibility.enc]) (by decide))
  | hidden => exact RT.orElse_left (RT.magicEnum (by simp [MenuVisibility.enc]) (by decide))
  | unknown v =>
    have hv := h v rfl
    simp only [List.mem_cons, List.not_mem_nil, or_false, not_or] at hv
    apply RT.orElse_right
    · intro d p hd
      rw [magicEnum_of_hasAt (m := encU8 v) (by simp [MenuVisibility.enc]) hd]
      have : List.find? (fun e => e.1 == encU8 v)
          ([MenuVisibility.visible, MenuVisibility.hidden].map fun t => (t.enc, t)) = none := by
        simp only [List.map_cons, List.map_nil, MenuVisibility.enc, MenuVisibility.code, encU8]
        rw [List.find?_cons_of_neg (by simpa using fun h => hv.1 h.symm),
          List.find?_cons_of_neg (by simpa using fun h => hv.2 h.symm)]
        rfl
      rw [this]
      exact ⟨_, rfl⟩
    · exact RT.bind_pure (RT.u8 v)

theorem MenuVisibility.inv : Inv MenuVisibility.read (fun c bs => bs = c.enc) := by
  unfold MenuVisibility.read
  refine Inv.orElse ?_ ?_
  · refine (Inv.magicEnum _).mono ?_
    intro a bs h
    simp only [List.mem_map, Prod.mk.injEq] at h
    obtain ⟨t, _, rfl, rfl⟩ := h
    rfl
  · refine (Inv.bind_pure Inv.u8).mono ?_
    rintro _ _ ⟨v, rfl, rfl⟩
    rfl

theorem FileType.rt' {c : FileType} (h : c.Canonical) : RT FileType.read c.enc c := by
  apply FileType.rt
  intro v hv t ht hc
  have := h v hv
  subst hc
  simp only [FileType.known, List.mem_cons, List.not_mem_nil, or_false] at ht
  rcases ht with rfl | rfl | rfl | rfl | rfl | rfl <;> simp [FileType.code] at this

/-! ## Sums -/

theorem sumHeap_ok (l : List Nat) : sumHeap (l.map .ok) = if l.sum < 65536 then .ok l.sum else .panic := by
  induction l with
  | nil => rfl
  | cons a l ih =>
    show (sumHeap (l.map .ok) >>= fun s => addU16 a s) = _
    rw [ih, List.sum_cons]
    by_cases h : l.sum < 65536
    · rw [if_pos h]
      show addU16 a l.sum = _
      rfl
    · rw [if_neg h, if_neg (by omega)]
      rfl

theorem sumHeap_snoc_panic (l : List Nat) : sumHeap (l.map .ok ++ [.panic]) = .panic := by
  induction l with
  | nil => rfl
  | cons a l ih =>
    show (sumHeap (l.map .ok ++ [.panic]) >>= fun s => addU16 a s) = _
    rw [ih]; rfl

theorem sumHeap_snoc (l : List Nat) (n : Nat) :
    sumHeap (l.map .ok ++ [if n < 65536 then .ok n else .panic]) =
      if l.sum + n < 65536 then .ok (l.sum + n) else .panic := by
  by_cases h : n < 65536
  · rw [if_pos h]
    have := sumHeap_ok (l ++ [n])
    simpa using this
  · rw [if_neg h, sumHeap_snoc_panic, if_neg (by omega)]

/-! ## Readers that begin with known bytes -/

/-- Where the image holds `bs`, `r` goes on as `k` behind them. -/
def Rd.Pre {α : Type} (r : Rd α) (bs : Bytes) (k : Rd α) : Prop :=
  ∀ d p, HasAt d p bs → r d p = k d (p + bs.length)

theorem Rd.Pre.bind {α β : Type} {r : Rd α} {f : α → Rd β} {bs bs' : Bytes} {a : α} {k : Rd β}
    (h : RT r bs a) (h' : Pre (f a) bs' k) : Pre (r >>= f) (bs ++ bs') k := by
  intro d p hd
  rw [HasAt.append_iff] at hd
  rw [bind_of_ok (h d p hd.1), h' d _ hd.2, List.length_append, Nat.add_assoc]

theorem Rd.Pre.last {α β : Type} {r : Rd α} {f : α → Rd β} {bs : Bytes} {a : α}
    (h : RT r bs a) : Pre (r >>= f) bs (f a) := by
  intro d p hd
  rw [bind_of_ok (h d p hd)]

/-! ## Offset arrays that were read -/

theorem OffsetContainer.read_then_write {T : Type} [OffsetItems T] [LawfulItems T]
    {c : OffsetContainer T} {offset start : Nat} {size : OffsetSize} {img : Bytes} {q : Nat}
    (h : (OffsetContainer.read offset size : Rd (OffsetContainer T)) img start = .ok (c, q))
    (he : ∀ x ∈ c.stringsAt (start - offset), x.2.ExactAt img x.1) :
    ∃ ps, c.write offset size start = .ok ((), start - offset, ps) ∧ Contains img ps := by
  obtain ⟨ho, rfl, a, vs, rfl, hs, hn, hl, ha, hr⟩ := OffsetContainer.read_eq_ok h
  have hi : OffsetItems.asItems (OffsetItems.fromItems vs : T) = vs := LawfulItems.asItems_fromItems _ hl
  simp only [OffsetContainer.stringsAt, hi] at he
  have key : ∀ (i : Nat) v o, vs[i]? = some v → a.seeks[i]? = some o →
      ∃ bs, v.enc = .ok bs ∧ HasAt img (start - offset + o) bs := by
    intro i v o hv hoo
    obtain ⟨p', hp⟩ := hr i v o hv hoo
    have hx := he (start - offset + o, v) (by
      apply List.mem_of_getElem? (i := i)
      rw [List.getElem?_zip_eq_some]
      exact ⟨by simp [hoo], hv⟩)
    obtain ⟨bs, h1, h2, -, -⟩ := DString.read_exact hp hx
    exact ⟨bs, h1, h2⟩
  have henc : ∀ v ∈ vs, ∃ bs, v.enc = .ok bs := by
    intro v hv
    obtain ⟨i, hi, rfl⟩ := List.mem_iff_getElem.1 hv
    have hlen : i < a.seeks.length := by simp [hn, ← hl, hi]
    obtain ⟨bs, h1, -⟩ := key i _ _ (List.getElem?_eq_getElem hi) (List.getElem?_eq_getElem hlen)
    exact ⟨bs, h1⟩
  refine ⟨_, OffsetContainer.write_provided rfl ho hs (by rw [hi]; exact henc), ?_⟩
  rw [Contains.cons_iff, OffsetContainer.contains_providedPatches, hi]
  refine ⟨ha, fun i v o hv hoo => ?_⟩
  obtain ⟨bs, h1, h2⟩ := key i v o hv hoo
  rw [DString.encBytes_of_ok h1]; exact h2

end Rekordcrate

namespace Rekordcrate
open Rd

/-! ## Items as structures -/

theorem List.eq_map_getD {α : Type} {l : List α} {n : Nat} (d : α) (h : l.length = n) :
    l = (List.range n).map (l.getD · d) := by
  subst h
  apply List.ext_getElem?
  intro i
  by_cases hi : i < l.length
  · simp [hi]
  · simp [hi]

instance : LawfulItems TrailingName where
  length_asItems _ := rfl
  fromItems_asItems _ := rfl
  asItems_fromItems l h := by
    conv => rhs; rw [List.eq_map_getD .empty h]
    rfl

instance : LawfulItems TagOrCategoryStrings where
  length_asItems _ := rfl
  fromItems_asItems _ := rfl
  asItems_fromItems l h := by
    conv => rhs; rw [List.eq_map_getD .empty h]
    rfl

instance : LawfulItems TrackStrings where
  length_asItems _ := rfl
  fromItems_asItems _ := rfl
  asItems_fromItems l h := by
    conv => rhs; rw [List.eq_map_getD .empty h]
    rfl

/-! ## Rows with an offset array -/

section ContainerRow

variable {X T : Type} [OffsetItems T] [LawfulItems T] {rd : Rd X} {hd : Bytes}
  {mk : OffsetContainer T → X} {N : Nat} {size : OffsetSize} {c : OffsetContainer T}

theorem crow_write_eq_ok {p p' : Nat} {ps : List Patch} (hlen : hd.length = N)
    (h : (do Wr.emit hd; c.write N size : Wr Unit) p = .ok ((), p', ps)) :
    ∃ ps', c.write N size (p + N) = .ok ((), p', ps') ∧ ps = ⟨p, hd⟩ :: ps' := by
  rw [Wr.bind_eq_ok] at h
  obtain ⟨_, q, ps1, ps2, h1, h2, rfl⟩ := h
  simp only [Wr.emit, Res.ok.injEq, Prod.mk.injEq, true_and] at h1
  obtain ⟨rfl, rfl⟩ := h1
  rw [hlen] at h2
  exact ⟨ps2, h2, rfl⟩

theorem crow_write_ok {p p' : Nat} {ps' : List Patch} (hlen : hd.length = N)
    (h : c.write N size (p + N) = .ok ((), p', ps')) :
    (do Wr.emit hd; c.write N size : Wr Unit) p = .ok ((), p', ⟨p, hd⟩ :: ps') := by
  refine Wr.bind_of_ok (m := Wr.emit hd) (ps1 := [⟨p, hd⟩]) rfl ?_
  rw [hlen]; exact h

theorem crow_rt (hpre : Pre rd hd (do let c ← OffsetContainer.read N size; pure (mk c)))
    (hlen : hd.length = N) (hw : c.WellTyped) (hs : ∀ v ∈ OffsetItems.asItems c.inner, v.Storable)
    {p p' : Nat} {ps : List Patch}
    (h : (do Wr.emit hd; c.write N size : Wr Unit) p = .ok ((), p', ps)) :
    ∃ c', OffsetContainer.Resolved N size c c' ∧ ∀ img, Contains img ps → rd img p = .ok (mk c', p) := by
  obtain ⟨ps', h', rfl⟩ := crow_write_eq_ok hlen h
  obtain ⟨c', hr, hc⟩ := OffsetContainer.write_then_read hw hs h'
  refine ⟨c', hr, fun img hi => ?_⟩
  rw [Contains.cons_iff] at hi
  rw [hpre img p hi.1, hlen]
  have := hc img hi.2
  rw [Nat.add_sub_cancel] at this
  rw [bind_of_ok this]
  rfl

theorem crow_inv (hlen : hd.length = N) {img : Bytes} {p q : Nat} (hh : HasAt img p hd)
    (hr : (OffsetContainer.read N size : Rd (OffsetContainer T)) img (p + N) = .ok (c, q))
    (he : ∀ x ∈ c.stringsAt p, x.2.ExactAt img x.1) :
    ∃ p' ps, (do Wr.emit hd; c.write N size : Wr Unit) p = .ok ((), p', ps) ∧ Contains img ps := by
  obtain ⟨ps, h1, h2⟩ := OffsetContainer.read_then_write hr (by rw [Nat.add_sub_cancel]; exact he)
  exact ⟨_, _, crow_write_ok hlen h1, Contains.cons_iff.2 ⟨hh, h2⟩⟩

theorem crow_heap (hlen : hd.length = N) (h4 : 4 ∣ N) (hsz : (OffsetItems.count T + 1) * 2 < 65536)
    (hc : c.offsets = none)
    (hh : ∀ v ∈ OffsetItems.asItems c.inner, ∀ bs, v.enc = .ok bs → v.heapBytes = .ok bs.length)
    {p p' : Nat} {ps : List Patch}
    (h : (do Wr.emit hd; c.write N size : Wr Unit) p = .ok ((), p', ps)) :
    ∃ n, c.heapBytes size = (if n < 65536 then .ok n else .panic) ∧ PatchesDisjoint ps ∧
      PatchesWithin ps p (p + (N + n)) ∧ ∃ x ∈ ps, x.off + x.bytes.length = p + (N + n) := by
  obtain ⟨ps', h', rfl⟩ := crow_write_eq_ok hlen h
  obtain ⟨ho, os, e, hp, hl⟩ := OffsetContainer.write_calculated_eq_ok hc h'
  have hol : os.length = OffsetItems.count T := by
    rw [hp.length]; exact LawfulItems.length_asItems _
  rw [OffsetContainer.write_calculated hc ho hp hl hol] at h'
  simp only [Res.ok.injEq, Prod.mk.injEq, true_and] at h'
  obtain ⟨rfl, rfl⟩ := h'
  obtain ⟨hd1, hd2⟩ := OffsetContainer.write_calculated_patches (c := c) (start := p + N) hp ho hol
  rw [Nat.add_sub_cancel] at hd1 hd2 ⊢
  have hle := hp.le
  have hb : size.bytes ≤ 2 := by cases size <;> simp [OffsetSize.bytes]
  have hb2 : (OffsetItems.count T + 1) * size.bytes ≤ (OffsetItems.count T + 1) * 2 :=
    Nat.mul_le_mul_left _ hb
  have hlim : size.limit ≤ 65536 := by cases size <;> simp [OffsetSize.limit]
  refine ⟨e - N, ?_, ?_, ?_, ?_⟩
  · unfold OffsetContainer.heapBytes
    rw [hc]
    simp only [Option.isNone_none]
    rw [Nat.mod_eq_of_lt (by omega)]
    exact OffsetContainer.heapLoop_of_placed h4 hp (by omega)
      (fun o ho => by have := hl o ho; omega) hh
  · unfold PatchesDisjoint at hd1 ⊢
    rw [List.pairwise_cons]
    refine ⟨fun q hq => ?_, hd1⟩
    left
    have := hd2 q hq
    simp only; omega
  · intro q hq
    rcases List.mem_cons.1 hq with rfl | hq
    · simp only; omega
    · have := hd2 q hq; omega
  · rw [show N + (e - N) = e by omega]
    by_cases hv : OffsetItems.asItems c.inner = []
    · rw [hv] at hp
      generalize hpos : N + (OffsetItems.count T + 1) * size.bytes = pos at hp
      cases hp
      refine ⟨⟨p + N, (OffsetArray.ofNats [] size).enc⟩, by simp, ?_⟩
      rw [OffsetArray.enc_length (OffsetArray.ofNats_sizeMatches _ _), OffsetArray.ofNats_length,
        hol]
      simp only; omega
    · have key : ∀ {pos vs os e}, Placed pos vs os e → vs ≠ [] →
          ∃ x ∈ itemPatches p pos vs os, x.off + x.bytes.length = p + e := by
        intro pos vs os e h
        induction h with
        | nil => intro h; exact absurd rfl h
        | @cons pos o e v vs os bs _ _ _ henc hr ih =>
          intro _
          by_cases hvs : vs = []
          · subst hvs
            cases hr
            exact ⟨⟨p + o, bs⟩, by simp [itemPatches, henc], by simp only; omega⟩
          · obtain ⟨x, hx, hx'⟩ := ih hvs
            exact ⟨x, by simp [itemPatches, henc, hx], hx'⟩
      obtain ⟨x, hx, hx'⟩ := key hp hv
      exact ⟨x, List.mem_cons_of_mem _ (List.mem_append_left _ hx), hx'⟩

end ContainerRow

end Rekordcrate
