import Verif.Model.Wrap
import Verif.Lemmas.NoPanic

/-! # Lemmas on builds without overflow checks -/

namespace Rekordcrate

/-! ## Outcomes that agree unless the first is a panic -/

/-- The second outcome is the first, unless the first is a panic. -/
def Res.Agree {α : Type} (x y : Res α) : Prop := x ≠ .panic → y = x

namespace Res

variable {α β : Type}

theorem Agree.refl (x : Res α) : Agree x x := fun _ => rfl

theorem Agree.bind {x y : Res α} {f g : α → Res β} (h : Agree x y) (h' : ∀ a, x = .ok a → Agree (f a) (g a)) :
    Agree (x >>= f) (y >>= g) := by
  intro hn
  cases hx : x with
  | ok a =>
    have := h (by rw [hx]; intro hc; cases hc)
    rw [hx] at hn
    rw [this, hx]
    exact h' a hx hn
  | err e =>
    have := h (by rw [hx]; intro hc; cases hc)
    rw [this, hx]; rfl
  | panic => rw [hx] at hn; exact absurd rfl hn

/-- A checked operation, and the value it has if it succeeds. -/
theorem Agree.bind_value {x : Res α} {f : α → Res β} {v : α} {y : Res β} (h : x ≠ .panic → x = .ok v)
    (h' : Agree (f v) y) : Agree (x >>= f) y := by
  intro hn
  have hx : x = .ok v := h (by intro hc; rw [hc] at hn; exact absurd rfl hn)
  rw [hx] at hn ⊢
  exact h' hn

end Res

namespace Rd

variable {α β : Type}

/-- The second reader does what the first one does, unless that panics. -/
def Agree (r s : Rd α) : Prop := ∀ d p, r d p ≠ .panic → s d p = r d p

theorem Agree.refl (r : Rd α) : Agree r r := fun _ _ _ => rfl

theorem Agree.bind {r s : Rd α} {f g : α → Rd β} (h : Agree r s) (h' : ∀ a, Agree (f a) (g a)) :
    Agree (r >>= f) (s >>= g) := by
  intro d p hn
  cases hr : r d p with
  | panic => exact absurd (bind_of_panic hr) hn
  | err e =>
    have := h d p (by rw [hr]; intro hc; cases hc)
    rw [bind_of_err hr, bind_of_err (this.trans hr)]
  | ok x =>
    obtain ⟨a, q⟩ := x
    have := h d p (by rw [hr]; intro hc; cases hc)
    rw [bind_of_ok hr] at hn ⊢
    rw [bind_of_ok (this.trans hr)]
    exact h' a d q hn

theorem Agree.bind_value {x : Res α} {f : α → Rd β} {v : α} {s : Rd β} (h : x ≠ .panic → x = .ok v)
    (h' : Agree (f v) s) : Agree (Rd.lift x >>= f) s := by
  intro d p hn
  cases hx : x with
  | panic => rw [hx] at hn; exact absurd rfl hn
  | err e =>
    have := h (by rw [hx]; intro hc; cases hc)
    rw [hx] at this; cases this
  | ok a =>
    have := h (by rw [hx]; intro hc; cases hc)
    rw [hx] at this
    cases this
    rw [hx] at hn
    exact h' d p hn

theorem Agree.orElse {r s r' s' : Rd α} (h : Agree r r') (h' : Agree s s') :
    Agree (Rd.orElse r s) (Rd.orElse r' s') := by
  intro d p hn
  unfold Rd.orElse at hn ⊢
  cases hr : r d p with
  | panic => rw [hr] at hn; exact absurd rfl hn
  | ok x =>
    have := h d p (by rw [hr]; intro hc; cases hc)
    rw [this, hr]
  | err e =>
    have := h d p (by rw [hr]; intro hc; cases hc)
    rw [this, hr]
    rw [hr] at hn
    exact h' d p hn

theorem Agree.restore {r s : Rd α} (h : Agree r s) : Agree (Rd.restore r) (Rd.restore s) := by
  intro d p hn
  unfold Rd.restore at hn ⊢
  cases hr : r d p with
  | panic => rw [hr] at hn; exact absurd rfl hn
  | ok x => rw [h d p (by rw [hr]; intro hc; cases hc), hr]
  | err e => rw [h d p (by rw [hr]; intro hc; cases hc), hr]

theorem Agree.lift {x y : Res α} (h : Res.Agree x y) : Agree (Rd.lift x) (Rd.lift y) := by
  intro d p hn
  cases hx : x with
  | panic => rw [hx] at hn; exact absurd rfl hn
  | ok a => rw [h (by rw [hx]; intro hc; cases hc), hx]
  | err e => rw [h (by rw [hx]; intro hc; cases hc), hx]

theorem Agree.many {r s : Rd α} (h : Agree r s) (n : Nat) : Agree (Rd.many r n) (Rd.many s n) := by
  induction n with
  | zero => exact Agree.refl _
  | succ n ih => exact Agree.bind h fun _ => Agree.bind ih fun _ => Agree.refl _

end Rd

namespace Wr

variable {α β : Type}

/-- The second writer does what the first one does, unless that panics. -/
def Agree (r s : Wr α) : Prop := ∀ p, r p ≠ .panic → s p = r p

theorem Agree.refl (r : Wr α) : Agree r r := fun _ _ => rfl

theorem Agree.bind {r s : Wr α} {f g : α → Wr β} (h : Agree r s) (h' : ∀ a, Agree (f a) (g a)) :
    Agree (r >>= f) (s >>= g) := by
  intro p hn
  rw [bind_def] at hn
  rw [bind_def, bind_def]
  cases hr : r p with
  | panic => rw [hr] at hn; exact absurd rfl hn
  | err e => rw [h p (by rw [hr]; intro hc; cases hc), hr]
  | ok x =>
    obtain ⟨a, q, ps⟩ := x
    rw [h p (by rw [hr]; intro hc; cases hc), hr]
    rw [hr] at hn
    simp only at hn ⊢
    cases hf : f a q with
    | panic => rw [hf] at hn; exact absurd rfl hn
    | err e => rw [h' a q (by rw [hf]; intro hc; cases hc), hf]
    | ok y => rw [h' a q (by rw [hf]; intro hc; cases hc), hf]

theorem Agree.lift {x y : Res α} (h : Res.Agree x y) : Agree (Wr.lift x) (Wr.lift y) := by
  intro p hn
  cases hx : x with
  | panic => rw [hx] at hn; exact absurd rfl hn
  | ok a => rw [h (by rw [hx]; intro hc; cases hc), hx]
  | err e => rw [h (by rw [hx]; intro hc; cases hc), hx]

theorem Agree.emitRes {x y : Res Bytes} (h : Res.Agree x y) : Agree (Wr.emitRes x) (Wr.emitRes y) :=
  Agree.bind (Agree.lift h) fun _ => Agree.refl _

theorem Agree.bind_value {x : Res α} {f : α → Wr β} {v : α} {s : Wr β} (h : x ≠ .panic → x = .ok v)
    (h' : Agree (f v) s) : Agree (Wr.lift x >>= f) s := by
  intro p hn
  have hx : x = .ok v := h (by intro hc; rw [hc] at hn; exact absurd rfl hn)
  have he : (Wr.lift (Res.ok v) >>= f) p = f v p := by
    rw [bind_def]
    simp only [Wr.lift]
    cases hf : f v p with
    | ok y => obtain ⟨b, q, ps⟩ := y; rfl
    | err e => rfl
    | panic => rfl
  rw [hx, he] at hn
  rw [hx, he]
  exact h' p hn

theorem Agree.forEach {f g : α → Wr Unit} (h : ∀ a, Agree (f a) (g a)) (l : List α) :
    Agree (Wr.forEach f l) (Wr.forEach g l) := by
  induction l with
  | nil => exact Agree.refl _
  | cons a as ih => exact Agree.bind (h a) fun _ => ih

end Wr

/-! ## Arithmetic -/

theorem addU16_value {a b : Nat} (h : addU16 a b ≠ .panic) : addU16 a b = .ok (addWrap16 a b) := by
  unfold addU16 addWrap16 at *
  split
  · rename_i hlt; rw [Nat.mod_eq_of_lt hlt]
  · rename_i hlt; rw [if_neg hlt] at h; exact absurd rfl h

theorem subU_value64 {a b : Nat} (ha : a < 2 ^ 64) (h : subU a b ≠ .panic) : subU a b = .ok (subWrap64 a b) := by
  unfold subU subWrap64 at *
  split
  · rename_i hle
    rw [show a + 2 ^ 64 - b = (a - b) + 2 ^ 64 by omega, Nat.add_mod_right, Nat.mod_eq_of_lt (by omega)]
  · rename_i hle; rw [if_neg hle] at h; exact absurd rfl h

theorem subU_value32 {a b : Nat} (ha : a < 2 ^ 32) (h : subU a b ≠ .panic) : subU a b = .ok (subWrap32 a b) := by
  unfold subU subWrap32 at *
  split
  · rename_i hle
    rw [show a + 2 ^ 32 - b = (a - b) + 2 ^ 32 by omega, Nat.add_mod_right, Nat.mod_eq_of_lt (by omega)]
  · rename_i hle; rw [if_neg hle] at h; exact absurd rfl h

theorem subU_value16 {a b : Nat} (ha : a < 65536) (h : subU a b ≠ .panic) : subU a b = .ok (subWrap16 a b) := by
  unfold subU subWrap16 at *
  split
  · rename_i hle
    rw [show a + 65536 - b = (a - b) + 65536 by omega, Nat.add_mod_right, Nat.mod_eq_of_lt (by omega)]
  · rename_i hle; rw [if_neg hle] at h; exact absurd rfl h

theorem subWrap32_lt (a b : Nat) : subWrap32 a b < 2 ^ 32 := Nat.mod_lt _ (by decide)
theorem addWrap16_lt (a b : Nat) : addWrap16 a b < 65536 := Nat.mod_lt _ (by decide)
theorem subWrap16_lt (a b : Nat) : subWrap16 a b < 65536 := Nat.mod_lt _ (by decide)

/-! ## Strings -/

namespace DString

theorem heap_agree (s : DString) : Res.Agree s.heapBytes s.heapWrap := by
  intro hn
  cases s with
  | short bs => exact (addU16_value hn).symm
  | long b =>
    unfold heapBytes heapWrap at *
    simp only at hn ⊢
    cases hb : b.byteCount with
    | ok n => rw [hb] at hn; exact (addU16_value hn).symm
    | err e => rfl
    | panic => rfl

theorem enc_agree (s : DString) : Res.Agree s.enc s.encWrap := by
  cases s with
  | short bs => exact Res.Agree.refl _
  | long b =>
    unfold enc encWrap
    simp only
    cases b.byteCount with
    | ok n => exact Res.Agree.bind_value addU16_value (Res.Agree.refl _)
    | err e => exact Res.Agree.refl _
    | panic => exact Res.Agree.refl _

theorem readShort_agree : Rd.Agree readShort readShortWrap :=
  Rd.Agree.bind (Rd.Agree.refl _) fun header => Rd.Agree.bind (Rd.Agree.refl _) fun _ =>
    Rd.Agree.bind_value (subU_value64 (by have := header.toNat_lt; omega)) (Rd.Agree.refl _)

theorem readLong_agree : Rd.Agree readLong readLongWrap :=
  Rd.Agree.bind (Rd.Agree.refl _) fun _ => Rd.Agree.bind (Rd.Agree.refl _) fun _ =>
    Rd.Agree.bind (Rd.Agree.refl _) fun length =>
      Rd.Agree.bind_value (subU_value16 length.toNat_lt) (Rd.Agree.refl _)

theorem read_agree : Rd.Agree read readWrap := Rd.Agree.orElse readShort_agree readLong_agree

theorem readWrap_np : Rd.NP readWrap :=
  Rd.NP.orElse
    (Rd.NP.bind Rd.NP.u8 fun _ => Rd.NP.bind (Rd.NP.require _ _) fun _ => Rd.NP.bind (Rd.NP.bytes _) fun _ =>
      Rd.NP.pure _)
    (Rd.NP.bind Rd.NP.u8 fun _ => Rd.NP.bind (Rd.NP.require _ _) fun _ => Rd.NP.bind Rd.NP.u16 fun _ =>
      Rd.NP.bind (Rd.NP.magic _) fun _ => Rd.NP.bind (LongBody.read_np _ _) fun _ => Rd.NP.pure _)

end DString

/-! ## Offset arrays -/

namespace OffsetContainer

variable {T : Type} [OffsetItems T]

theorem readItems_agree (d : Bytes) (base : Nat) (os : List Nat) (cur : Nat) :
    Res.Agree (readItems d base cur os) (readItemsWrap d base cur os) := by
  induction os generalizing cur with
  | nil => exact Res.Agree.refl _
  | cons o os ih =>
    intro hn
    unfold readItems at hn ⊢
    unfold readItemsWrap
    cases hr : DString.read d (cur + o) with
    | panic => rw [hr] at hn; exact absurd rfl hn
    | ok x =>
      obtain ⟨v, q⟩ := x
      rw [DString.read_agree _ _ (by rw [hr]; intro hc; cases hc), hr]
      rw [hr] at hn
      simp only at hn ⊢
      rw [ih base (by intro hc; rw [hc] at hn; exact absurd rfl hn)]
      cases readItems d base base os <;> rfl
    | err e =>
      rw [DString.read_agree _ _ (by rw [hr]; intro hc; cases hc), hr]
      rw [hr] at hn
      simp only at hn ⊢
      rw [ih (cur + o) (by intro hc; rw [hc] at hn; exact absurd rfl hn)]
      cases readItems d base (cur + o) os <;> rfl

theorem readItemsWrap_np (d : Bytes) (base : Nat) (os : List Nat) (cur : Nat) :
    readItemsWrap d base cur os ≠ .panic := by
  induction os generalizing cur with
  | nil => intro hc; cases hc
  | cons o os ih =>
    intro hn
    unfold readItemsWrap at hn
    cases hr : DString.readWrap d (cur + o) with
    | panic => exact DString.readWrap_np _ _ hr
    | ok x =>
      obtain ⟨v, q⟩ := x
      rw [hr] at hn
      simp only at hn
      cases h : readItemsWrap d base base os with
      | panic => exact ih _ h
      | ok _ => rw [h] at hn; cases hn
      | err _ => rw [h] at hn; cases hn
    | err e =>
      rw [hr] at hn
      simp only at hn
      cases h : readItemsWrap d base (cur + o) os with
      | panic => exact ih _ h
      | ok _ => rw [h] at hn; cases hn
      | err _ => rw [h] at hn; cases hn

theorem readAll_agree (base : Nat) (os : List Nat) : Rd.Agree (readAll base os) (readAllWrap base os) := by
  intro d p hn
  unfold readAll at hn ⊢
  unfold readAllWrap
  rw [readItems_agree d base os p (by intro hc; rw [hc] at hn; exact absurd rfl hn)]
  cases readItems d base p os <;> rfl

theorem readAllWrap_np (base : Nat) (os : List Nat) : Rd.NP (readAllWrap base os) := by
  intro d p hn
  unfold readAllWrap at hn
  cases h : readItemsWrap d base p os with
  | panic => exact readItemsWrap_np _ _ _ _ h
  | ok _ => rw [h] at hn; cases hn
  | err _ => rw [h] at hn; cases hn

theorem read_agree (offset : Nat) (size : OffsetSize) :
    Rd.Agree (read offset size : Rd (OffsetContainer T)) (readWrap offset size) :=
  Rd.Agree.bind (Rd.Agree.refl _) fun _ => Rd.Agree.bind (Rd.Agree.refl _) fun _ =>
    Rd.Agree.bind (Rd.Agree.refl _) fun _ => Rd.Agree.bind (Rd.Agree.refl _) fun _ =>
    Rd.Agree.bind (Rd.Agree.refl _) fun _ => Rd.Agree.bind (readAll_agree _ _) fun _ => Rd.Agree.refl _

theorem calculateBase_np (start offset : Nat) : Rd.NP (Rd.lift (calculateBase start offset)) := by
  intro d p hn
  unfold calculateBase at hn
  split at hn <;> cases hn

theorem readWrap_np (offset : Nat) (size : OffsetSize) :
    Rd.NP (readWrap offset size : Rd (OffsetContainer T)) :=
  Rd.NP.bind Rd.NP.pos fun _ => Rd.NP.bind (OffsetArray.read_np _ _) fun _ =>
    Rd.NP.bind (Rd.NP.require _ _) fun _ => Rd.NP.bind (calculateBase_np _ _) fun _ =>
    Rd.NP.bind (Rd.NP.seekTo _) fun _ => Rd.NP.bind (readAllWrap_np _ _) fun _ => Rd.NP.pure _

theorem writeItems_agree (base : Nat) (l : List DString) :
    Wr.Agree (writeItems base l) (writeItemsWrap base l) := by
  induction l with
  | nil => exact Wr.Agree.refl _
  | cons v vs ih =>
    exact Wr.Agree.bind (Wr.Agree.refl _) fun _ => Wr.Agree.bind (Wr.Agree.refl _) fun _ =>
      Wr.Agree.bind (Wr.Agree.emitRes v.enc_agree) fun _ => Wr.Agree.bind ih fun _ => Wr.Agree.refl _

theorem writeProvided_agree (base : Nat) (l : List (DString × Nat)) :
    Wr.Agree (writeProvided base l) (writeProvidedWrap base l) := by
  induction l with
  | nil => exact Wr.Agree.refl _
  | cons x rest ih =>
    obtain ⟨v, o⟩ := x
    exact Wr.Agree.bind (Wr.Agree.refl _) fun _ => Wr.Agree.bind (Wr.Agree.emitRes v.enc_agree) fun _ =>
      Wr.Agree.bind (Wr.Agree.refl _) fun _ => ih

theorem write_agree (c : OffsetContainer T) (offset : Nat) (size : OffsetSize) :
    Wr.Agree (c.write offset size) (c.writeWrap offset size) := by
  unfold write writeWrap
  refine Wr.Agree.bind (Wr.Agree.refl _) fun _ => Wr.Agree.bind (Wr.Agree.refl _) fun _ => ?_
  cases c.offsets with
  | none =>
    exact Wr.Agree.bind (Wr.Agree.refl _) fun _ => Wr.Agree.bind (writeItems_agree _ _) fun _ => Wr.Agree.refl _
  | some offsets =>
    exact Wr.Agree.bind (Wr.Agree.refl _) fun _ => Wr.Agree.bind (Wr.Agree.refl _) fun _ =>
      Wr.Agree.bind (Wr.Agree.refl _) fun _ => writeProvided_agree _ _

theorem heapLoop_agree (calculated : Bool) (l : List DString) (total : Nat) :
    Res.Agree (heapLoop calculated total l) (heapLoopWrap calculated total l) := by
  induction l generalizing total with
  | nil => exact Res.Agree.refl _
  | cons v vs ih =>
    exact Res.Agree.bind v.heap_agree fun _ _ => Res.Agree.bind_value addU16_value (ih _)

theorem heap_agree (c : OffsetContainer T) (size : OffsetSize) : Res.Agree (c.heapBytes size) (c.heapWrap size) :=
  heapLoop_agree _ _ _

end OffsetContainer

/-! ## Rows -/

theorem sumHeap_agree {l l' : List (Res Nat)} (h : Pointwise Res.Agree l l') :
    Res.Agree (sumHeap l) (sumHeapWrap l') := by
  induction h with
  | nil => exact Res.Agree.refl _
  | cons h t ih =>
    refine Res.Agree.bind h fun a _ => Res.Agree.bind ih fun s _ => ?_
    intro hn
    exact (addU16_value hn).symm

/-- Closes goals about readers, writers and sizes that differ in their strings only. -/
macro "agree" : tactic =>
  `(tactic| repeat' first
    | with_reducible exact Rd.Agree.refl _
    | with_reducible exact Wr.Agree.refl _
    | with_reducible exact Res.Agree.refl _
    | with_reducible exact DString.read_agree
    | with_reducible exact DString.enc_agree _
    | with_reducible exact DString.heap_agree _
    | with_reducible exact OffsetContainer.read_agree _ _
    | with_reducible exact OffsetContainer.write_agree _ _ _
    | with_reducible exact OffsetContainer.heap_agree _ _
    | with_reducible exact Pointwise.nil
    | with_reducible refine Pointwise.cons ?_ ?_
    | with_reducible refine sumHeap_agree ?_
    | with_reducible refine Wr.Agree.emitRes ?_
    | with_reducible refine Rd.Agree.bind ?_ fun _ => ?_
    | with_reducible refine Wr.Agree.bind ?_ fun _ => ?_
    | with_reducible refine Res.Agree.bind ?_ fun _ _ => ?_)

/-- Closes goals about readers that are sequences of readers that never panic. -/
macro "np_wrap" : tactic =>
  `(tactic| repeat' first
    | with_reducible exact Rd.NP.pure _
    | with_reducible exact Rd.NP.u8
    | with_reducible exact Rd.NP.u16
    | with_reducible exact Rd.NP.u32
    | with_reducible exact Rd.NP.magic _
    | with_reducible exact DString.readWrap_np
    | with_reducible exact OffsetContainer.readWrap_np _ _
    | with_reducible exact ColorIndex.np
    | with_reducible exact FileType.np
    | with_reducible refine Rd.NP.bind ?_ fun _ => ?_)

theorem Album.read_agree : Rd.Agree Album.read Album.readWrap := by unfold Album.read Album.readWrap; agree
theorem Album.readWrap_np : Rd.NP Album.readWrap := by unfold Album.readWrap; np_wrap
theorem Album.write_agree (r : Album) : Wr.Agree r.write r.writeWrap := by
  unfold Album.write Album.writeWrap; agree
theorem Album.heap_agree (r : Album) : Res.Agree r.heapBytes r.heapWrap := by
  unfold Album.heapBytes Album.heapWrap; agree

theorem Artist.read_agree : Rd.Agree Artist.read Artist.readWrap := by unfold Artist.read Artist.readWrap; agree
theorem Artist.readWrap_np : Rd.NP Artist.readWrap := by unfold Artist.readWrap; np_wrap
theorem Artist.write_agree (r : Artist) : Wr.Agree r.write r.writeWrap := by
  unfold Artist.write Artist.writeWrap; agree
theorem Artist.heap_agree (r : Artist) : Res.Agree r.heapBytes r.heapWrap := by
  unfold Artist.heapBytes Artist.heapWrap; agree

theorem Artwork.read_agree : Rd.Agree Artwork.read Artwork.readWrap := by unfold Artwork.read Artwork.readWrap; agree
theorem Artwork.readWrap_np : Rd.NP Artwork.readWrap := by unfold Artwork.readWrap; np_wrap
theorem Artwork.write_agree (r : Artwork) : Wr.Agree r.write r.writeWrap := by
  unfold Artwork.write Artwork.writeWrap Artwork.enc Artwork.encWrap; agree
theorem Artwork.heap_agree (r : Artwork) : Res.Agree r.heapBytes r.heapWrap := by
  unfold Artwork.heapBytes Artwork.heapWrap; agree

theorem Color.read_agree : Rd.Agree Color.read Color.readWrap := by unfold Color.read Color.readWrap; agree
theorem Color.readWrap_np : Rd.NP Color.readWrap := by unfold Color.readWrap; np_wrap
theorem Color.write_agree (r : Color) : Wr.Agree r.write r.writeWrap := by
  unfold Color.write Color.writeWrap Color.enc Color.encWrap; agree
theorem Color.heap_agree (r : Color) : Res.Agree r.heapBytes r.heapWrap := by
  unfold Color.heapBytes Color.heapWrap; agree

theorem Genre.read_agree : Rd.Agree Genre.read Genre.readWrap := by unfold Genre.read Genre.readWrap; agree
theorem Genre.readWrap_np : Rd.NP Genre.readWrap := by unfold Genre.readWrap; np_wrap
theorem Genre.write_agree (r : Genre) : Wr.Agree r.write r.writeWrap := by
  unfold Genre.write Genre.writeWrap Genre.enc Genre.encWrap; agree
theorem Genre.heap_agree (r : Genre) : Res.Agree r.heapBytes r.heapWrap := by
  unfold Genre.heapBytes Genre.heapWrap; agree

theorem HistoryPlaylist.read_agree : Rd.Agree HistoryPlaylist.read HistoryPlaylist.readWrap := by unfold HistoryPlaylist.read HistoryPlaylist.readWrap; agree
theorem HistoryPlaylist.readWrap_np : Rd.NP HistoryPlaylist.readWrap := by unfold HistoryPlaylist.readWrap; np_wrap
theorem HistoryPlaylist.write_agree (r : HistoryPlaylist) : Wr.Agree r.write r.writeWrap := by
  unfold HistoryPlaylist.write HistoryPlaylist.writeWrap HistoryPlaylist.enc HistoryPlaylist.encWrap; agree
theorem HistoryPlaylist.heap_agree (r : HistoryPlaylist) : Res.Agree r.heapBytes r.heapWrap := by
  unfold HistoryPlaylist.heapBytes HistoryPlaylist.heapWrap; agree

theorem History.read_agree : Rd.Agree History.read History.readWrap := by unfold History.read History.readWrap; agree
theorem History.readWrap_np : Rd.NP History.readWrap := by unfold History.readWrap; np_wrap
theorem History.write_agree (r : History) : Wr.Agree r.write r.writeWrap := by
  unfold History.write History.writeWrap History.enc History.encWrap; agree
theorem History.heap_agree (r : History) : Res.Agree r.heapBytes r.heapWrap := by
  unfold History.heapBytes History.heapWrap; agree

theorem Key.read_agree : Rd.Agree Key.read Key.readWrap := by unfold Key.read Key.readWrap; agree
theorem Key.readWrap_np : Rd.NP Key.readWrap := by unfold Key.readWrap; np_wrap
theorem Key.write_agree (r : Key) : Wr.Agree r.write r.writeWrap := by
  unfold Key.write Key.writeWrap Key.enc Key.encWrap; agree
theorem Key.heap_agree (r : Key) : Res.Agree r.heapBytes r.heapWrap := by
  unfold Key.heapBytes Key.heapWrap; agree

theorem Label.read_agree : Rd.Agree Label.read Label.readWrap := by unfold Label.read Label.readWrap; agree
theorem Label.readWrap_np : Rd.NP Label.readWrap := by unfold Label.readWrap; np_wrap
theorem Label.write_agree (r : Label) : Wr.Agree r.write r.writeWrap := by
  unfold Label.write Label.writeWrap Label.enc Label.encWrap; agree
theorem Label.heap_agree (r : Label) : Res.Agree r.heapBytes r.heapWrap := by
  unfold Label.heapBytes Label.heapWrap; agree

theorem PlaylistTreeNode.read_agree : Rd.Agree PlaylistTreeNode.read PlaylistTreeNode.readWrap := by unfold PlaylistTreeNode.read PlaylistTreeNode.readWrap; agree
theorem PlaylistTreeNode.readWrap_np : Rd.NP PlaylistTreeNode.readWrap := by unfold PlaylistTreeNode.readWrap; np_wrap
theorem PlaylistTreeNode.write_agree (r : PlaylistTreeNode) : Wr.Agree r.write r.writeWrap := by
  unfold PlaylistTreeNode.write PlaylistTreeNode.writeWrap PlaylistTreeNode.enc PlaylistTreeNode.encWrap; agree
theorem PlaylistTreeNode.heap_agree (r : PlaylistTreeNode) : Res.Agree r.heapBytes r.heapWrap := by
  unfold PlaylistTreeNode.heapBytes PlaylistTreeNode.heapWrap; agree

theorem ColumnEntry.read_agree : Rd.Agree ColumnEntry.read ColumnEntry.readWrap := by unfold ColumnEntry.read ColumnEntry.readWrap; agree
theorem ColumnEntry.readWrap_np : Rd.NP ColumnEntry.readWrap := by unfold ColumnEntry.readWrap; np_wrap
theorem ColumnEntry.write_agree (r : ColumnEntry) : Wr.Agree r.write r.writeWrap := by
  unfold ColumnEntry.write ColumnEntry.writeWrap ColumnEntry.enc ColumnEntry.encWrap; agree
theorem ColumnEntry.heap_agree (r : ColumnEntry) : Res.Agree r.heapBytes r.heapWrap := by
  unfold ColumnEntry.heapBytes ColumnEntry.heapWrap; agree

theorem Track.read_agree : Rd.Agree Track.read Track.readWrap := by unfold Track.read Track.readWrap; agree
theorem Track.readWrap_np : Rd.NP Track.readWrap := by unfold Track.readWrap; np_wrap
theorem Track.write_agree (r : Track) : Wr.Agree r.write r.writeWrap := by
  unfold Track.write Track.writeWrap; agree
theorem Track.heap_agree (r : Track) : Res.Agree r.heapBytes r.heapWrap := by
  unfold Track.heapBytes Track.heapWrap; agree

theorem TagOrCategory.read_agree : Rd.Agree TagOrCategory.read TagOrCategory.readWrap := by unfold TagOrCategory.read TagOrCategory.readWrap; agree
theorem TagOrCategory.readWrap_np : Rd.NP TagOrCategory.readWrap := by unfold TagOrCategory.readWrap; np_wrap
theorem TagOrCategory.write_agree (r : TagOrCategory) : Wr.Agree r.write r.writeWrap := by
  unfold TagOrCategory.write TagOrCategory.writeWrap; agree
theorem TagOrCategory.heap_agree (r : TagOrCategory) : Res.Agree r.heapBytes r.heapWrap := by
  unfold TagOrCategory.heapBytes TagOrCategory.heapWrap; agree

theorem MenuVisibility.np : Rd.NP MenuVisibility.read :=
  Rd.NP.orElse (Rd.NP.magicEnum _) (Rd.NP.bind Rd.NP.u8 fun _ => Rd.NP.pure _)

theorem HistoryEntry.read_np : Rd.NP HistoryEntry.read := by unfold HistoryEntry.read; np_wrap
theorem PlaylistEntry.read_np : Rd.NP PlaylistEntry.read := by unfold PlaylistEntry.read; np_wrap
theorem TrackTag.read_np : Rd.NP TrackTag.read := by unfold TrackTag.read; np_wrap
theorem Menu.read_np : Rd.NP Menu.read :=
  Rd.NP.bind Rd.NP.u16 fun _ => Rd.NP.bind Rd.NP.u16 fun _ => Rd.NP.bind Rd.NP.u8 fun _ =>
    Rd.NP.bind MenuVisibility.np fun _ => Rd.NP.bind Rd.NP.u16 fun _ => Rd.NP.pure _

namespace PlainRow

theorem read_agree (t : PlainPageType) : Rd.Agree (read t) (readWrap t) := by
  cases t with
  | albums => exact Rd.Agree.bind Album.read_agree fun _ => Rd.Agree.refl _
  | artists => exact Rd.Agree.bind Artist.read_agree fun _ => Rd.Agree.refl _
  | artwork => exact Rd.Agree.bind Artwork.read_agree fun _ => Rd.Agree.refl _
  | colors => exact Rd.Agree.bind Color.read_agree fun _ => Rd.Agree.refl _
  | genres => exact Rd.Agree.bind Genre.read_agree fun _ => Rd.Agree.refl _
  | historyPlaylists => exact Rd.Agree.bind HistoryPlaylist.read_agree fun _ => Rd.Agree.refl _
  | historyEntries => exact Rd.Agree.refl _
  | history => exact Rd.Agree.bind History.read_agree fun _ => Rd.Agree.refl _
  | keys => exact Rd.Agree.bind Key.read_agree fun _ => Rd.Agree.refl _
  | labels => exact Rd.Agree.bind Label.read_agree fun _ => Rd.Agree.refl _
  | playlistTree => exact Rd.Agree.bind PlaylistTreeNode.read_agree fun _ => Rd.Agree.refl _
  | playlistEntries => exact Rd.Agree.refl _
  | columns => exact Rd.Agree.bind ColumnEntry.read_agree fun _ => Rd.Agree.refl _
  | menu => exact Rd.Agree.refl _
  | tracks => exact Rd.Agree.bind Track.read_agree fun _ => Rd.Agree.refl _

theorem readWrap_np (t : PlainPageType) : Rd.NP (readWrap t) := by
  cases t with
  | albums => exact Rd.NP.bind Album.readWrap_np fun _ => Rd.NP.pure _
  | artists => exact Rd.NP.bind Artist.readWrap_np fun _ => Rd.NP.pure _
  | artwork => exact Rd.NP.bind Artwork.readWrap_np fun _ => Rd.NP.pure _
  | colors => exact Rd.NP.bind Color.readWrap_np fun _ => Rd.NP.pure _
  | genres => exact Rd.NP.bind Genre.readWrap_np fun _ => Rd.NP.pure _
  | historyPlaylists => exact Rd.NP.bind HistoryPlaylist.readWrap_np fun _ => Rd.NP.pure _
  | historyEntries => exact Rd.NP.bind HistoryEntry.read_np fun _ => Rd.NP.pure _
  | history => exact Rd.NP.bind History.readWrap_np fun _ => Rd.NP.pure _
  | keys => exact Rd.NP.bind Key.readWrap_np fun _ => Rd.NP.pure _
  | labels => exact Rd.NP.bind Label.readWrap_np fun _ => Rd.NP.pure _
  | playlistTree => exact Rd.NP.bind PlaylistTreeNode.readWrap_np fun _ => Rd.NP.pure _
  | playlistEntries => exact Rd.NP.bind PlaylistEntry.read_np fun _ => Rd.NP.pure _
  | columns => exact Rd.NP.bind ColumnEntry.readWrap_np fun _ => Rd.NP.pure _
  | menu => exact Rd.NP.bind Menu.read_np fun _ => Rd.NP.pure _
  | tracks => exact Rd.NP.bind Track.readWrap_np fun _ => Rd.NP.pure _

theorem write_agree (r : PlainRow) : Wr.Agree r.write r.writeWrap := by
  cases r with
  | album r => exact r.write_agree
  | artist r => exact r.write_agree
  | artwork r => exact r.write_agree
  | color r => exact r.write_agree
  | genre r => exact r.write_agree
  | historyPlaylist r => exact r.write_agree
  | historyEntry r => exact Wr.Agree.refl _
  | history r => exact r.write_agree
  | key r => exact r.write_agree
  | label r => exact r.write_agree
  | playlistTreeNode r => exact r.write_agree
  | playlistEntry r => exact Wr.Agree.refl _
  | columnEntry r => exact r.write_agree
  | menu r => exact Wr.Agree.refl _
  | track r => exact r.write_agree

theorem heap_agree (r : PlainRow) : Res.Agree r.heapBytes r.heapWrap := by
  cases r with
  | album r => exact r.heap_agree
  | artist r => exact r.heap_agree
  | artwork r => exact r.heap_agree
  | color r => exact r.heap_agree
  | genre r => exact r.heap_agree
  | historyPlaylist r => exact r.heap_agree
  | historyEntry r => exact Res.Agree.refl _
  | history r => exact r.heap_agree
  | key r => exact r.heap_agree
  | label r => exact r.heap_agree
  | playlistTreeNode r => exact r.heap_agree
  | playlistEntry r => exact Res.Agree.refl _
  | columnEntry r => exact r.heap_agree
  | menu r => exact Res.Agree.refl _
  | track r => exact r.heap_agree

end PlainRow

namespace ExtRow

theorem read_agree (t : ExtPageType) : Rd.Agree (read t) (readWrap t) := by
  cases t with
  | tag => exact Rd.Agree.bind TagOrCategory.read_agree fun _ => Rd.Agree.refl _
  | trackTag => exact Rd.Agree.refl _

theorem readWrap_np (t : ExtPageType) : Rd.NP (readWrap t) := by
  cases t with
  | tag => exact Rd.NP.bind TagOrCategory.readWrap_np fun _ => Rd.NP.pure _
  | trackTag => exact Rd.NP.bind TrackTag.read_np fun _ => Rd.NP.pure _

theorem write_agree (r : ExtRow) : Wr.Agree r.write r.writeWrap := by
  cases r with
  | tag r => exact r.write_agree
  | trackTag r => exact Wr.Agree.refl _

theorem heap_agree (r : ExtRow) : Res.Agree r.heapBytes r.heapWrap := by
  cases r with
  | tag r => exact r.heap_agree
  | trackTag r => exact Res.Agree.refl _

end ExtRow

namespace Row

theorem read_agree (t : PageType) : Rd.Agree (read t) (readWrap t) := by
  cases t with
  | plain t => exact Rd.Agree.bind (PlainRow.read_agree t) fun _ => Rd.Agree.refl _
  | ext t => exact Rd.Agree.bind (ExtRow.read_agree t) fun _ => Rd.Agree.refl _
  | unknown c => exact Rd.Agree.refl _

theorem readWrap_np (t : PageType) : Rd.NP (readWrap t) := by
  cases t with
  | plain t => exact Rd.NP.bind (PlainRow.readWrap_np t) fun _ => Rd.NP.pure _
  | ext t => exact Rd.NP.bind (ExtRow.readWrap_np t) fun _ => Rd.NP.pure _
  | unknown c => exact Rd.NP.pure _

theorem write_agree (r : Row) : Wr.Agree r.write r.writeWrap := by
  cases r with
  | plain r => exact r.write_agree
  | ext r => exact r.write_agree
  | unknown => exact Wr.Agree.refl _

theorem heap_agree (r : Row) : Res.Agree r.heapBytes r.heapWrap := by
  cases r with
  | plain r => exact r.heap_agree
  | ext r => exact r.heap_agree
  | unknown => exact Res.Agree.refl _

end Row

/-! ## Pages -/

namespace IndexPageContent

theorem totalEntries_value {pageSize : Nat} (hs : pageSize < 2 ^ 32) (h : totalEntries pageSize ≠ .panic) :
    totalEntries pageSize = .ok (totalEntriesWrap pageSize) := by
  refine (?_ : Res.Agree (totalEntries pageSize) (.ok (totalEntriesWrap pageSize))) h |>.symm
  exact Res.Agree.bind_value (subU_value32 hs) (Res.Agree.bind_value (subU_value32 (subWrap32_lt _ _))
    (Res.Agree.bind_value (subU_value32 (subWrap32_lt _ _)) (Res.Agree.refl _)))

theorem write_agree (c : IndexPageContent) {pageSize : Nat} (hs : pageSize < 2 ^ 32) :
    Wr.Agree (c.write pageSize) (c.writeWrap pageSize) := by
  refine Wr.Agree.bind_value (totalEntries_value hs) (Wr.Agree.bind_value (subU_value64 ?_) (Wr.Agree.refl _))
  have := subWrap32_lt (subWrap32 (subWrap32 pageSize 32) 28) 20
  unfold totalEntriesWrap
  omega

end IndexPageContent

namespace DataPageContent

theorem pageHeapSize_value {pageSize : Nat} (hs : pageSize < 2 ^ 32) (h : pageHeapSize pageSize ≠ .panic) :
    pageHeapSize pageSize = .ok (pageHeapSizeWrap pageSize) := by
  refine (?_ : Res.Agree (pageHeapSize pageSize) (.ok (pageHeapSizeWrap pageSize))) h |>.symm
  refine Res.Agree.bind_value (subU_value32 hs) ?_
  intro hn
  exact (subU_value32 (subWrap32_lt _ _) hn).symm

theorem parseAtOffsets_agree (t : PageType) (base : Nat) (os : List UInt16) :
    Rd.Agree (parseAtOffsets t base os) (parseAtOffsetsWrap t base os) := by
  induction os with
  | nil => exact Rd.Agree.refl _
  | cons o os ih =>
    exact Rd.Agree.bind (Rd.Agree.refl _) fun _ => Rd.Agree.bind (Row.read_agree t) fun _ =>
      Rd.Agree.bind (Rd.Agree.refl _) fun _ => Rd.Agree.bind ih fun _ => Rd.Agree.refl _

theorem parseAtOffsetsWrap_np (t : PageType) (base : Nat) (os : List UInt16) :
    Rd.NP (parseAtOffsetsWrap t base os) := by
  induction os with
  | nil => exact Rd.NP.pure _
  | cons o os ih =>
    exact Rd.NP.bind (Rd.NP.seekBy _) fun _ => Rd.NP.bind (Row.readWrap_np t) fun _ =>
      Rd.NP.bind (Rd.NP.seekTo _) fun _ => Rd.NP.bind ih fun _ => Rd.NP.pure _

theorem writeAtOffsets_agree (rows : RowMap) : Wr.Agree (writeAtOffsets rows) (writeAtOffsetsWrap rows) :=
  Wr.Agree.bind (Wr.Agree.refl _) fun _ => Wr.Agree.forEach (fun x =>
    Wr.Agree.bind (Wr.Agree.refl _) fun _ => Wr.Agree.bind x.2.write_agree fun _ => Wr.Agree.refl _) _

theorem write_agree (c : DataPageContent) {pageSize : Nat} (hs : pageSize < 2 ^ 32) :
    Wr.Agree (c.write pageSize) (c.writeWrap pageSize) :=
  Wr.Agree.bind (Wr.Agree.refl _) fun _ => Wr.Agree.bind_value (pageHeapSize_value hs)
    (Wr.Agree.bind (Wr.Agree.refl _) fun _ => Wr.Agree.bind (writeAtOffsets_agree _) fun _ => Wr.Agree.refl _)

theorem read_agree {pageSize : Nat} (hs : pageSize < 2 ^ 32) (h : PageHeader) :
    Rd.Agree (read pageSize h) (readWrap pageSize h) :=
  Rd.Agree.bind (Rd.Agree.refl _) fun _ => Rd.Agree.bind_value (pageHeapSize_value hs)
    (Rd.Agree.bind (Rd.Agree.refl _) fun _ =>
      Rd.Agree.bind (Rd.Agree.bind (Rd.Agree.refl _) fun _ =>
        Rd.Agree.bind (parseAtOffsets_agree _ _ _) fun _ => Rd.Agree.refl _) fun _ => Rd.Agree.refl _)

theorem readWrap_np (pageSize : Nat) (h : PageHeader) : Rd.NP (readWrap pageSize h) :=
  Rd.NP.bind DataPageHeader.np fun _ =>
    Rd.NP.bind (Rd.NP.restore (Rd.NP.bind (Rd.NP.seekBy _) fun _ => Rd.NP.many RowGroup.np _)) fun _ =>
    Rd.NP.bind (Rd.NP.bind Rd.NP.pos fun _ => Rd.NP.bind (parseAtOffsetsWrap_np _ _ _) fun _ => Rd.NP.pure _)
      fun _ => Rd.NP.bind (Rd.NP.require _ _) fun _ => Rd.NP.bind (Rd.NP.seekBy _) fun _ => Rd.NP.pure _

end DataPageContent

namespace Page

theorem write_agree (pg : Page) {pageSize : Nat} (hs : pageSize < 2 ^ 32) :
    Wr.Agree (pg.write pageSize) (pg.writeWrap pageSize) := by
  refine Wr.Agree.bind (Wr.Agree.refl _) fun _ => ?_
  cases pg.content with
  | data c => exact c.write_agree hs
  | index c => exact c.write_agree hs

theorem read_agree {pageSize : Nat} (hs : pageSize < 2 ^ 32) (db : DatabaseType) :
    Rd.Agree (read pageSize db) (readWrap pageSize db) :=
  Rd.Agree.bind (Rd.Agree.refl _) fun h =>
    Rd.Agree.bind (Rd.Agree.orElse
      (Rd.Agree.bind (Rd.Agree.refl _) fun _ => Rd.Agree.bind (DataPageContent.read_agree hs h) fun _ =>
        Rd.Agree.refl _) (Rd.Agree.refl _)) fun _ => Rd.Agree.refl _

theorem readWrap_np (pageSize : Nat) (db : DatabaseType) : Rd.NP (readWrap pageSize db) :=
  Rd.NP.bind (PageHeader.np db) fun h =>
    Rd.NP.bind (Rd.NP.orElse
      (Rd.NP.bind (Rd.NP.require _ _) fun _ => Rd.NP.bind (DataPageContent.readWrap_np _ h) fun _ => Rd.NP.pure _)
      (Rd.NP.bind (Rd.NP.require _ _) fun _ => Rd.NP.bind IndexPageContent.np fun _ => Rd.NP.pure _))
      fun _ => Rd.NP.pure _

theorem alignUp4_value {n : Nat} (h : alignUp4 n ≠ .panic) : alignUp4 n = .ok (alignUp4Wrap n) := by
  unfold alignUp4 alignUp4Wrap at *
  split
  · rfl
  · rename_i hn
    rw [if_neg hn] at h
    exact addU16_value h

theorem allocate_agree (pg : Page) (bytes : UInt16) :
    Res.Agree (pg.allocateRow bytes) (pg.allocateRowWrap bytes) := by
  unfold allocateRow allocateRowWrap
  cases pg.content with
  | index c => exact Res.Agree.refl _
  | data dpc =>
    simp only
    refine Res.Agree.bind_value alignUp4_value (Res.Agree.bind_value addU16_value
      (Res.Agree.bind_value addU16_value ?_))
    split
    · exact Res.Agree.refl _
    · refine Res.Agree.bind_value addU16_value
        (Res.Agree.bind_value (subU_value16 (pg.header.freeSize.toNat_lt)) ?_)
      refine Res.Agree.bind (Res.Agree.refl _) fun counts _ => ?_
      cases counts.lastRowIndex with
      | none => exact Res.Agree.refl _
      | some x =>
        obtain ⟨g, s⟩ := x
        simp only
        split
        · refine Res.Agree.bind_value (v := subWrap16 pg.header.freeSize.toNat (alignUp4Wrap bytes.toNat))
            (fun _ => rfl) ?_
          cases dpc.rowGroups[g]? with
          | none => exact Res.Agree.refl _
          | some grp =>
            exact Res.Agree.bind (Res.Agree.refl _) fun _ _ =>
              Res.Agree.bind_value (subU_value16 (subWrap16_lt _ _)) (Res.Agree.refl _)
        · refine Res.Agree.bind_value (subU_value16 (subWrap16_lt _ _)) ?_
          cases (dpc.rowGroups ++ [RowGroup.empty])[g]? with
          | none => exact Res.Agree.refl _
          | some grp =>
            exact Res.Agree.bind (Res.Agree.refl _) fun _ _ =>
              Res.Agree.bind_value (subU_value16 (subWrap16_lt _ _)) (Res.Agree.refl _)

end Page

/-! ## The database -/

theorem LazyPage.write_agree (pageSize : UInt32) (l : LazyPage) :
    Wr.Agree (l.write pageSize) (l.writeWrap pageSize) := by
  cases l with
  | notLoaded => exact Wr.Agree.refl _
  | loaded pg => exact pg.write_agree pageSize.toNat_lt

theorem LazyDatabase.write_agree (c : LazyDatabase) : Wr.Agree c.write c.writeWrap :=
  Wr.Agree.bind (Wr.Agree.refl _) fun _ => Wr.Agree.bind (Wr.Agree.refl _) fun _ =>
    Wr.Agree.forEach (LazyPage.write_agree _) _

theorem readPage_agree (io : Bytes) (i : PageIndex) (pageSize : UInt32) (db : DatabaseType) :
    Res.Agree (readPage io i pageSize db) (readPageWrap io i pageSize db) :=
  Res.Agree.bind (Res.Agree.refl _) fun off _ =>
    Res.Agree.bind (Page.read_agree pageSize.toNat_lt db io off) fun _ _ => Res.Agree.refl _

end Rekordcrate
