import Verif.Lemmas.OffsetArray
import Verif.Lemmas.RowBase
import Verif.Lemmas.Layout

/-! # Properties C25 and C26: offset arrays -/

namespace Rekordcrate
open Rd

theorem hasAt_flatMap {α : Type} {f : α → Bytes} {k : Nat} (hk : ∀ x, (f x).length = k)
    {img : Bytes} {l : List α} {p : Nat} (h : HasAt img p (l.flatMap f)) {i : Nat} {x : α}
    (hi : l[i]? = some x) : HasAt img (p + i * k) (f x) := by
  induction l generalizing p i with
  | nil => simp at hi
  | cons y l ih =>
    rw [List.flatMap_cons, HasAt.append_iff, hk] at h
    cases i with
    | zero => simp at hi; subst hi; simpa using h.1
    | succ i =>
      have := ih h.2 (i := i) (by simpa using hi)
      rw [Nat.add_mul, Nat.one_mul]
      rwa [show p + (i * k + k) = p + k + i * k by omega]

/-- The stored form of an array of offsets. -/
theorem offsets_stored {img : Bytes} {p : Nat} {a : OffsetArray} {size : OffsetSize}
    (hm : a.sizeMatches size = true) (h : HasAt img p a.enc) :
    OffsetAt img p size 3 ∧ ∀ (i o : Nat), a.seeks[i]? = some o →
      OffsetAt img (p + (i + 1) * size.bytes) size o := by
  cases a <;> cases size <;> simp [OffsetArray.sizeMatches] at hm
  · unfold OffsetArray.enc at h
    rw [HasAt.append_iff] at h
    refine ⟨⟨3, ?_, rfl⟩, fun i o hi => ?_⟩
    · have := h.1 0 (by simp)
      simpa [ByteAt] using this
    · simp only [OffsetArray.seeks, List.getElem?_map, Option.map_eq_some_iff] at hi
      obtain ⟨b, hb, rfl⟩ := hi
      refine ⟨b, ?_, rfl⟩
      have := hasAt_flatMap (k := 1) (fun _ => rfl) h.2 hb
      have := this 0 (by simp)
      simp only [List.length_singleton, OffsetSize.bytes, encU8] at this ⊢
      rw [show p + (i + 1) * 1 = p + 1 + i * 1 + 0 by omega]
      exact this
  · unfold OffsetArray.enc at h
    rw [HasAt.append_iff] at h
    refine ⟨U16At.of_hasAt h.1, fun i o hi => ?_⟩
    simp only [OffsetArray.seeks, List.getElem?_map, Option.map_eq_some_iff] at hi
    obtain ⟨b, hb, rfl⟩ := hi
    have := U16At.of_hasAt (hasAt_flatMap (k := 2) (fun _ => encU16_length _) h.2 hb)
    simp only [encU16_length, OffsetSize.bytes] at this ⊢
    rw [show p + (i + 1) * 2 = p + 2 + i * 2 by omega]
    exact this

variable {T : Type} [OffsetItems T] [LawfulItems T]

/-- C25: what is in the file after a container with calculated offsets was written at `start`, its
row starting `offset` bytes earlier. -/
theorem calculated_offsets_point_at_items {c : OffsetContainer T} {offset start p' : Nat}
    {size : OffsetSize} {ps : List Patch} (hc : c.offsets = none)
    (h : c.write offset size start = .ok ((), p', ps)) (img : Bytes) :
    ∃ os : List Nat, os.length = (OffsetItems.asItems c.inner).length ∧
      OffsetAt (applyPatches img ps) start size 3 ∧
      ∀ (i o : Nat) (v : DString), os[i]? = some o → (OffsetItems.asItems c.inner)[i]? = some v →
        OffsetAt (applyPatches img ps) (start + (i + 1) * size.bytes) size o ∧
        ∃ bs, v.enc = .ok bs ∧ HasAt (applyPatches img ps) (start - offset + o) bs := by
  obtain ⟨ho, os, e, hp, hl⟩ := OffsetContainer.write_calculated_eq_ok hc h
  have hol : os.length = OffsetItems.count T := by
    rw [hp.length]; exact LawfulItems.length_asItems _
  rw [OffsetContainer.write_calculated hc ho hp hl hol] at h
  simp only [Res.ok.injEq, Prod.mk.injEq, true_and] at h
  obtain ⟨rfl, rfl⟩ := h
  have hcon := contains_applyPatches (img := img)
    (OffsetContainer.write_calculated_patches (c := c) (start := start) hp ho hol).1
  rw [Contains.append_iff, Contains.cons_iff] at hcon
  obtain ⟨h1, h2⟩ := offsets_stored (OffsetArray.ofNats_sizeMatches os size) hcon.2.1
  rw [OffsetArray.ofNats_seeks hl] at h2
  refine ⟨os, hp.length, h1, fun i o v hoi hvi => ⟨h2 i o hoi, ?_⟩⟩
  have hx := OffsetContainer.contains_itemPatches hp hcon.1 hvi hoi
  have henc : ∀ {pos vs os e}, Placed pos vs os e → ∀ v ∈ vs, ∃ bs, v.enc = .ok bs := by
    intro pos vs os e h
    induction h with
    | nil => intro v hv; simp at hv
    | cons _ _ _ he _ ih =>
      intro v hv
      rcases List.mem_cons.1 hv with rfl | hv
      · exact ⟨_, he⟩
      · exact ih v hv
  obtain ⟨bs, hb⟩ := henc hp v (List.mem_of_getElem? hvi)
  rw [DString.encBytes_of_ok hb] at hx
  exact ⟨bs, hb, hx⟩

/-- C25: the layout itself: the items lie behind the offset array, at aligned offsets, one behind the
other, nothing overlaps and nothing outside the row is touched. -/
theorem calculated_offsets_layout {c : OffsetContainer T} {offset start p' : Nat}
    {size : OffsetSize} {ps : List Patch} (hc : c.offsets = none)
    (h : c.write offset size start = .ok ((), p', ps)) :
    ∃ os e, Placed (offset + (OffsetItems.count T + 1) * size.bytes) (OffsetItems.asItems c.inner) os e ∧
      (∀ (i o : Nat) (v : DString), os[i]? = some o → (OffsetItems.asItems c.inner)[i]? = some v →
        offset + (OffsetItems.count T + 1) * size.bytes ≤ o ∧ o < size.limit ∧ v.docAlign ∣ o) ∧
      (∀ (i j o o' : Nat) (v : DString) (bs : Bytes), i < j → os[i]? = some o → os[j]? = some o' →
        (OffsetItems.asItems c.inner)[i]? = some v → v.enc = .ok bs → o + bs.length ≤ o') ∧
      PatchesDisjoint ps ∧ PatchesWithin ps start (start - offset + e) ∧
      ((∀ v ∈ OffsetItems.asItems c.inner, v.Storable) → ∀ img,
        OffsetContainer.read offset size (applyPatches img ps) start =
          .ok ({ offsets := some (OffsetArray.ofNats os size), inner := c.inner }, start - offset)) := by
  obtain ⟨ho, os, e, hp, hl⟩ := OffsetContainer.write_calculated_eq_ok hc h
  have hol : os.length = OffsetItems.count T := by
    rw [hp.length]; exact LawfulItems.length_asItems _
  have h' := h
  rw [OffsetContainer.write_calculated hc ho hp hl hol] at h
  simp only [Res.ok.injEq, Prod.mk.injEq, true_and] at h
  obtain ⟨-, hps⟩ := h
  obtain ⟨hd, hw⟩ := OffsetContainer.write_calculated_patches (c := c) (start := start) hp ho hol
  rw [hps] at hd hw
  refine ⟨os, e, hp, ?_, ?_, hd, hw, ?_⟩
  · intro i o v hoi hvi
    refine ⟨hp.le_offset hoi, hl o (List.mem_of_getElem? hoi), ?_⟩
    have aux : ∀ {pos vs os e}, Placed pos vs os e → ∀ (i : Nat) v o, vs[i]? = some v →
        os[i]? = some o → v.docAlign ∣ o := by
      intro pos vs os e h
      induction h with
      | nil => intro i v o hv; simp at hv
      | cons _ _ hd _ _ ih =>
        intro i v o hv ho
        cases i with
        | zero => simp at hv ho; subst hv ho; exact hd
        | succ i => exact ih i v o (by simpa using hv) (by simpa using ho)
    exact aux hp i v o hvi hoi
  · intro i j o o' v bs hij hoi hoj hvi hb
    exact hp.ordered hij hvi hoi hoj hb
  · intro hs img
    have hwt : c.WellTyped := by intro a ha; rw [hc] at ha; cases ha
    obtain ⟨c', ⟨hi, hr⟩, hread⟩ := OffsetContainer.write_then_read hwt hs h'
    rw [hc] at hr
    obtain ⟨os', e', hp', _, ho'⟩ := hr
    obtain ⟨rfl, rfl⟩ := hp.unique hp'
    rw [hread _ (contains_applyPatches (img := img) hd)]
    cases c'
    simp only at hi ho'
    subst hi ho'
    rfl

/-- C25: an offset that does not fit its width makes the write fail. -/
theorem calculated_offsets_written_iff {c : OffsetContainer T} {offset start : Nat}
    {size : OffsetSize} {os : List Nat} {e : Nat} (hc : c.offsets = none) (ho : offset ≤ start)
    (hp : Placed (offset + (OffsetItems.count T + 1) * size.bytes) (OffsetItems.asItems c.inner) os e) :
    ((∀ o ∈ os, o < size.limit) → ∃ p' ps, c.write offset size start = .ok ((), p', ps)) ∧
    (¬ (∀ o ∈ os, o < size.limit) → c.write offset size start = .err .assertFail) := by
  have hol : os.length = OffsetItems.count T := by
    rw [hp.length]; exact LawfulItems.length_asItems _
  constructor
  · intro hl
    exact ⟨_, _, OffsetContainer.write_calculated hc ho hp hl hol⟩
  · intro hl
    exact OffsetContainer.write_calculated_err hc ho hp (by simpa using hl)

/-- C25: the layout exists for all strings that can be written, so the previous theorem decides every
case. -/
theorem calculated_offsets_exist (vs : List DString) (h : ∀ v ∈ vs, ∃ bs, v.enc = .ok bs) (pos : Nat) :
    ∃ os e, Placed pos vs os e := Placed.exists h pos

/-! Two strings behind a header of 28 bytes: the UTF-16 one is moved to a multiple of four. -/

example : (({ offsets := none, inner := { name := .short [65, 66], unknown := .long (.ucs2le [0xE4]) } } :
      OffsetContainer TagOrCategoryStrings).write 28 .u8 128) =
    .ok ((), 131, [⟨131, []⟩, ⟨131, [7, 65, 66]⟩, ⟨134, [0, 0]⟩, ⟨136, [0x90, 6, 0, 0, 0xE4, 0]⟩,
      ⟨128, [3, 31, 36]⟩]) := by decide +kernel

/-! A string pushed behind offset 255 is refused with 8-bit offsets and accepted with 16-bit ones. -/

private def farName : TagOrCategoryStrings :=
  { name := .long (.ascii (List.replicate 300 65)), unknown := .short [] }

example : ({ offsets := none, inner := farName } : OffsetContainer TagOrCategoryStrings).write 28 .u8 28 =
    .err .assertFail := by decide +kernel

example : ({ offsets := none, inner := farName } : OffsetContainer TagOrCategoryStrings).write 28 .u16 28 =
    .ok ((), 34, [⟨34, []⟩, ⟨34, [0x40, 0x30, 1, 0] ++ List.replicate 300 65⟩, ⟨338, []⟩, ⟨338, [3]⟩,
      ⟨28, [3, 0, 34, 0, 0x52, 1]⟩]) := by decide +kernel

/-! ## C26 -/

/-- C26: provided offsets are stored as they are and every item is written at its offset; the bytes
are these in every file that holds the writes. -/
theorem provided_offsets_written {c : OffsetContainer T} {offset start p' : Nat} {size : OffsetSize}
    {a : OffsetArray} {ps : List Patch} (hc : c.offsets = some a) (hw : c.WellTyped)
    (h : c.write offset size start = .ok ((), p', ps)) {img : Bytes} (hi : Contains img ps) :
    OffsetAt img start size 3 ∧
    ∀ (i o : Nat) (v : DString), a.seeks[i]? = some o → (OffsetItems.asItems c.inner)[i]? = some v →
      OffsetAt img (start + (i + 1) * size.bytes) size o ∧
      ∃ bs, v.enc = .ok bs ∧ HasAt img (start - offset + o) bs := by
  obtain ⟨_, henc, a', ⟨_, hr⟩, hm, hn, hcon⟩ := OffsetContainer.write_spec hw h
  rw [hc] at hr
  simp only [Option.some.injEq] at hr
  subst hr
  obtain ⟨h1, h2⟩ := hcon img hi
  obtain ⟨h3, h4⟩ := offsets_stored hm h1
  refine ⟨h3, fun i o v ho hv => ⟨h4 i o ho, ?_⟩⟩
  obtain ⟨bs, hb⟩ := henc v (List.mem_of_getElem? hv)
  have := h2 i v o hv ho
  rw [DString.encBytes_of_ok hb] at this
  exact ⟨bs, hb, this⟩

/-- C26: reading takes the offsets from the file and every item from its offset. -/
theorem offsets_read {c : OffsetContainer T} {offset start q : Nat} {size : OffsetSize} {img : Bytes}
    (h : OffsetContainer.read offset size img start = .ok (c, q)) :
    ∃ a, c.offsets = some a ∧ a.length = OffsetItems.count T ∧ OffsetAt img start size 3 ∧
      ∀ (i o : Nat), a.seeks[i]? = some o → OffsetAt img (start + (i + 1) * size.bytes) size o ∧
        ∃ v q', (OffsetItems.asItems c.inner)[i]? = some v ∧
          DString.read img (start - offset + o) = .ok (v, q') := by
  obtain ⟨_, _, a, vs, rfl, hm, hn, hl, ha, hr⟩ := OffsetContainer.read_eq_ok h
  obtain ⟨h1, h2⟩ := offsets_stored hm ha
  refine ⟨a, rfl, hn, h1, fun i o ho => ⟨h2 i o ho, ?_⟩⟩
  have hlt : i < vs.length := by
    have := (List.getElem?_eq_some_iff.1 ho).1
    rw [OffsetArray.seeks_length, hn] at this
    omega
  obtain ⟨q', hq⟩ := hr i vs[i] o (List.getElem?_eq_getElem hlt) ho
  refine ⟨vs[i], q', ?_, hq⟩
  rw [LawfulItems.asItems_fromItems _ hl]
  exact List.getElem?_eq_getElem hlt

/-- C26: offsets of the wrong width are refused, as is a row that would start before the file. -/
theorem provided_offsets_refused (c : OffsetContainer T) (offset start : Nat) (size : OffsetSize) :
    (∀ os, c.offsets = some (.u8 os) → size = .u16 → c.write offset size start = .err .assertFail) ∧
    (∀ os, c.offsets = some (.u16 os) → size = .u8 → c.write offset size start = .err .assertFail) ∧
    (start < offset → c.write offset size start = .err .assertFail ∧
      ∀ img, ∃ e, (OffsetContainer.read offset size : Rd (OffsetContainer T)) img start = .err e) := by
  refine ⟨?_, ?_, ?_⟩
  · rintro os hc rfl
    exact OffsetContainer.write_provided_mismatch hc rfl
  · rintro os hc rfl
    exact OffsetContainer.write_provided_mismatch hc rfl
  · intro h
    exact ⟨OffsetContainer.write_base_err c h, fun img => OffsetContainer.read_base_err h⟩

/-! Items may be stored in any order and with gaps. -/

example : (⟨some (.u8 [36, 31]), ⟨.short [65, 66], .short [67]⟩⟩ :
      OffsetContainer TagOrCategoryStrings).write 28 .u8 128 =
    .ok ((), 100, [⟨128, [3, 36, 31]⟩, ⟨136, [7, 65, 66]⟩, ⟨131, [5, 67]⟩]) := by decide +kernel

end Rekordcrate
