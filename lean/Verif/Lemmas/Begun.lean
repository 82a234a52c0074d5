import Verif.Spec.FailedFlush
import Verif.Lemmas.Flush

/-! # Helper lemmas about writers that fail -/

namespace Rekordcrate

namespace Tw

variable {α β : Type}

theorem bind_def (m : Tw α) (f : α → Tw β) (p : Nat) : (m >>= f) p =
    match (m p).2 with
    | .ok (a, q) => ((m p).1 ++ (f a q).1, (f a q).2)
    | .err e => ((m p).1, .err e)
    | .panic => ((m p).1, .panic) := rfl

/-- The serialiser without the writes of failures. -/
def forget (t : Tw α) : Wr α := fun p =>
  match (t p).2 with
  | .ok (a, q) => .ok (a, q, (t p).1)
  | .err e => .err e
  | .panic => .panic

@[simp] theorem forget_pure (a : α) : (pure a : Tw α).forget = (pure a : Wr α) := rfl

@[simp] theorem forget_bind (m : Tw α) (f : α → Tw β) :
    (m >>= f).forget = m.forget >>= fun a => (f a).forget := by
  funext p
  rw [Wr.bind_def]
  simp only [forget, bind_def]
  cases (m p).2 with
  | ok x =>
    obtain ⟨a, q⟩ := x
    simp only
    cases (f a q).2 <;> rfl
  | err e => rfl
  | panic => rfl

@[simp] theorem forget_orBegun (w : Wr α) (b : Nat → List Patch) : (orBegun w b).forget = w := by
  funext p
  simp only [forget, orBegun]
  cases w p <;> rfl

@[simp] theorem forget_step (w : Wr α) : (step w).forget = w := forget_orBegun _ _

@[simp] theorem forget_restore (t : Tw α) : (restore t).forget = Wr.restore t.forget := by
  funext p
  simp only [forget, restore, Wr.restore]
  cases (t p).2 <;> rfl

@[simp] theorem forget_forEach (f : α → Tw Unit) (l : List α) :
    (forEach f l).forget = Wr.forEach (fun a => (f a).forget) l := by
  induction l with
  | nil => rfl
  | cons a l ih => simp only [forEach, Wr.forEach, forget_bind, ih]

theorem eq_ok_of_forget {t : Tw α} {p q : Nat} {a : α} {ps : List Patch} (h : t.forget p = .ok (a, q, ps)) :
    t p = (ps, .ok (a, q)) := by
  unfold forget at h
  revert h
  cases ht : t p with
  | mk x y =>
    cases y with
    | ok z =>
      obtain ⟨b, c⟩ := z
      simp only [Res.ok.injEq, Prod.mk.injEq]
      rintro ⟨rfl, rfl, rfl⟩
      exact ⟨rfl, rfl, rfl⟩
    | err e => simp
    | panic => simp

end Tw

/-! ## Forgetting gives the serialisers of the model -/

@[simp] theorem DString.forget_writeT (v : DString) : v.writeT.forget = Wr.emitRes v.enc := Tw.forget_orBegun _ _

namespace OffsetContainer

variable {T : Type} [OffsetItems T]

@[simp] theorem forget_writeItemsT (base : Nat) (l : List DString) :
    (writeItemsT base l).forget = writeItems base l := by
  induction l with
  | nil => rfl
  | cons v l ih => simp only [writeItemsT, writeItems, Tw.forget_bind, Tw.forget_step, Tw.forget_pure, ih,
      DString.forget_writeT]

@[simp] theorem forget_writeProvidedT (base : Nat) (l : List (DString × Nat)) :
    (writeProvidedT base l).forget = writeProvided base l := by
  induction l with
  | nil => rfl
  | cons x l ih =>
    obtain ⟨v, o⟩ := x
    simp only [writeProvidedT, writeProvided, Tw.forget_bind, Tw.forget_step, ih, DString.forget_writeT]

@[simp] theorem forget_writeT (c : OffsetContainer T) (offset : Nat) (size : OffsetSize) :
    (c.writeT offset size).forget = c.write offset size := by
  unfold writeT write
  cases c.offsets <;> simp only [Tw.forget_bind, Tw.forget_step, forget_writeItemsT, forget_writeProvidedT]

end OffsetContainer

@[simp] theorem PlainRow.forget_writeT (r : PlainRow) : r.writeT.forget = r.write := by
  cases r <;> simp only [writeT, write, Album.write, Artist.write, Track.write, Tw.forget_bind, Tw.forget_step,
    Tw.forget_orBegun, OffsetContainer.forget_writeT]

@[simp] theorem Row.forget_writeT (r : Row) : r.writeT.forget = r.write := by
  cases r with
  | plain r => exact r.forget_writeT
  | ext r =>
    cases r <;> simp only [writeT, write, ExtRow.write, TagOrCategory.write, Tw.forget_bind, Tw.forget_step,
      OffsetContainer.forget_writeT]
  | unknown => exact Tw.forget_step _

namespace DataPageContent

@[simp] theorem forget_writeRowAtT (base : Nat) (x : UInt16 × Row) :
    (writeRowAtT base x).forget = writeRowAt base x := by
  simp only [writeRowAtT, writeRowAt, Tw.forget_bind, Tw.forget_step, Row.forget_writeT]

@[simp] theorem forget_writeAtOffsetsT (rows : RowMap) : (writeAtOffsetsT rows).forget = writeAtOffsets rows := by
  simp only [writeAtOffsetsT, writeAtOffsets, Tw.forget_bind, Tw.forget_step, Tw.forget_forEach,
    forget_writeRowAtT]

@[simp] theorem forget_writeGroupsT (heap : Nat) (gs : List RowGroup) :
    (writeGroupsT heap gs).forget = writeGroups heap gs := by
  simp only [writeGroupsT, writeGroups, Tw.forget_restore, Tw.forget_bind, Tw.forget_step, Tw.forget_forEach]

@[simp] theorem forget_writeT (c : DataPageContent) (pageSize : Nat) :
    (c.writeT pageSize).forget = c.write pageSize := by
  simp only [writeT, write, Tw.forget_bind, Tw.forget_step, forget_writeGroupsT, forget_writeAtOffsetsT]

end DataPageContent

@[simp] theorem PageContent.forget_writeT (pageSize : Nat) (c : PageContent) :
    (c.writeT pageSize).forget = c.write pageSize := by
  cases c <;> simp only [writeT, write, DataPageContent.forget_writeT, Tw.forget_orBegun]

@[simp] theorem Page.forget_writeT (pg : Page) (pageSize : Nat) : (pg.writeT pageSize).forget = pg.write pageSize := by
  simp only [writeT, write, Tw.forget_bind, Tw.forget_step, PageContent.forget_writeT]

@[simp] theorem LazyPage.forget_writeT (pageSize : UInt32) (l : LazyPage) :
    (l.writeT pageSize).forget = l.write pageSize := by
  cases l <;> simp only [writeT, write, Tw.forget_step, Page.forget_writeT]

theorem LazyDatabase.forget_writeT (c : LazyDatabase) : c.writeT.forget = c.write := by
  simp only [writeT, write, Tw.forget_bind, Tw.forget_step, Tw.forget_forEach, LazyPage.forget_writeT]

/-! ## Where failed writers write -/

/-- Nothing is written in front of `b`, and the position is not left in front of `b`. -/
def Tw.UpAt {α : Type} (b : Nat) (t : Tw α) (p : Nat) : Prop :=
  (∀ x ∈ (t p).1, b ≤ x.off) ∧ ∀ a q, (t p).2 = .ok (a, q) → b ≤ q

namespace Tw

variable {α β : Type} {b p : Nat}

theorem UpAt.pure (h : b ≤ p) (a : α) : UpAt b (pure a : Tw α) p := by
  constructor
  · intro x hx
    cases hx
  · intro a' q hq
    injection hq with hq
    injection hq with h1 h2
    omega

theorem UpAt.bind {m : Tw α} {f : α → Tw β} (h1 : UpAt b m p)
    (h2 : ∀ a q, (m p).2 = .ok (a, q) → b ≤ q → UpAt b (f a) q) : UpAt b (m >>= f) p := by
  unfold UpAt
  rw [bind_def]
  cases hm : (m p).2 with
  | ok x =>
    obtain ⟨a, q⟩ := x
    have h := h2 a q hm (h1.2 a q hm)
    refine ⟨fun x hx => ?_, h.2⟩
    rcases List.mem_append.1 hx with hx | hx
    · exact h1.1 x hx
    · exact h.1 x hx
  | err e => exact ⟨h1.1, fun a q h => by cases h⟩
  | panic => exact ⟨h1.1, fun a q h => by cases h⟩

theorem UpAt.orBegun {w : Wr α} {f : Nat → List Patch} (h1 : ∀ x ∈ f p, b ≤ x.off)
    (h2 : ∀ a q ps, w p = .ok (a, q, ps) → b ≤ q ∧ ∀ x ∈ ps, b ≤ x.off) : UpAt b (orBegun w f) p := by
  unfold UpAt Tw.orBegun
  cases hw : w p with
  | ok x =>
    obtain ⟨a, q, ps⟩ := x
    refine ⟨(h2 a q ps hw).2, fun a' q' h => ?_⟩
    injection h with h
    injection h with h3 h4
    have := (h2 a q ps hw).1
    omega
  | err e => exact ⟨h1, fun a q h => by cases h⟩
  | panic => exact ⟨h1, fun a q h => by cases h⟩

theorem UpAt.step {w : Wr α} (h2 : ∀ a q ps, w p = .ok (a, q, ps) → b ≤ q ∧ ∀ x ∈ ps, b ≤ x.off) :
    UpAt b (step w) p := UpAt.orBegun (fun x hx => by cases hx) h2

theorem UpAt.pos (h : b ≤ p) : UpAt b (Tw.step Wr.pos) p := UpAt.step fun a q ps hw => by
  rw [Wr.pos_def] at hw
  simp only [Res.ok.injEq, Prod.mk.injEq] at hw
  obtain ⟨-, e1, e2⟩ := hw
  exact ⟨by omega, fun x hx => by rw [← e2] at hx; cases hx⟩

theorem UpAt.lift (h : b ≤ p) (r : Res α) : UpAt b (Tw.step (Wr.lift r)) p := UpAt.step fun a q ps hw => by
  cases r with
  | ok a' =>
    simp only [Wr.lift, Res.ok.injEq, Prod.mk.injEq] at hw
    obtain ⟨-, e1, e2⟩ := hw
    exact ⟨by omega, fun x hx => by rw [← e2] at hx; cases hx⟩
  | err e => simp [Wr.lift] at hw
  | panic => simp [Wr.lift] at hw

theorem UpAt.emit (h : b ≤ p) (bs : Bytes) : UpAt b (Tw.step (Wr.emit bs)) p := UpAt.step fun a q ps hw => by
  rw [Wr.emit_def] at hw
  simp only [Res.ok.injEq, Prod.mk.injEq] at hw
  obtain ⟨-, e1, e2⟩ := hw
  refine ⟨by omega, fun x hx => ?_⟩
  rw [← e2, List.mem_singleton] at hx
  subst hx
  exact h

theorem UpAt.seekBy (h : b ≤ p) (n : Nat) : UpAt b (Tw.step (Wr.seekBy (n : Nat))) p := UpAt.step fun a q ps hw => by
  rw [Wr.seekBy_nat] at hw
  simp only [Res.ok.injEq, Prod.mk.injEq] at hw
  obtain ⟨-, e1, e2⟩ := hw
  exact ⟨by omega, fun x hx => by rw [← e2] at hx; cases hx⟩

theorem UpAt.seekTo {n : Nat} (h : b ≤ n) : UpAt b (Tw.step (Wr.seekTo n)) p := UpAt.step fun a q ps hw => by
  rw [Wr.seekTo_def] at hw
  simp only [Res.ok.injEq, Prod.mk.injEq] at hw
  obtain ⟨-, e1, e2⟩ := hw
  exact ⟨by omega, fun x hx => by rw [← e2] at hx; cases hx⟩

theorem UpAt.forEach {f : α → Tw Unit} {l : List α} (h : ∀ a ∈ l, ∀ q, b ≤ q → UpAt b (f a) q) (hp : b ≤ p) :
    UpAt b (forEach f l) p := by
  induction l generalizing p with
  | nil => exact UpAt.pure hp ()
  | cons a l ih =>
    exact UpAt.bind (h a (List.mem_cons_self ..) p hp)
      fun _ q _ hq => ih (fun a' ha => h a' (List.mem_cons_of_mem _ ha)) hq

theorem step_ok {w : Wr α} {a : α} {q : Nat} (h : (step w p).2 = .ok (a, q)) : ∃ ps, w p = .ok (a, q, ps) := by
  unfold step orBegun at h
  cases hw : w p with
  | ok x =>
    obtain ⟨a', q', ps⟩ := x
    rw [hw] at h
    injection h with h
    injection h with h1 h2
    subst h1
    subst h2
    exact ⟨ps, rfl⟩
  | err e => rw [hw] at h; cases h
  | panic => rw [hw] at h; cases h

end Tw

theorem DString.begun_off (v : DString) (p : Nat) : ∀ x ∈ v.begun p, p ≤ x.off := by
  intro x hx
  cases v with
  | short => cases hx
  | long b =>
    rw [begun, List.mem_singleton] at hx
    subst hx
    exact Nat.le_refl _

theorem begunParts_off (l : List (Bytes × DString)) (p : Nat) : ∀ x ∈ begunParts l p, p ≤ x.off := by
  induction l generalizing p with
  | nil => intro x hx; cases hx
  | cons y l ih =>
    obtain ⟨hd, v⟩ := y
    intro x hx
    rw [begunParts, List.mem_cons] at hx
    rcases hx with rfl | hx
    · exact Nat.le_refl _
    · revert hx
      cases v.enc with
      | ok bs =>
        intro hx
        rcases List.mem_cons.1 hx with rfl | hx
        · exact Nat.le_add_right _ _
        · have := ih _ x hx
          omega
      | err e =>
        intro hx
        have := v.begun_off _ x hx
        omega
      | panic =>
        intro hx
        have := v.begun_off _ x hx
        omega

open Tw

theorem UpAt.emitRes {b p : Nat} (h : b ≤ p) {r : Res Bytes} {f : Nat → List Patch} (hf : ∀ x ∈ f p, b ≤ x.off) :
    UpAt b (Tw.orBegun (Wr.emitRes r) f) p :=
  Tw.UpAt.orBegun hf fun a q ps hw => by
    obtain ⟨bs, -, e1, e2⟩ := Wr.emitRes_eq_ok hw
    refine ⟨by omega, fun x hx => ?_⟩
    rw [e2, List.mem_singleton] at hx
    subst hx
    exact h

theorem DString.upAt {b p : Nat} (h : b ≤ p) (v : DString) : UpAt b v.writeT p :=
  UpAt.emitRes h fun x hx => Nat.le_trans h (v.begun_off p x hx)

namespace OffsetContainer

variable {T : Type} [OffsetItems T]

theorem writeItemsT_upAt {b p : Nat} (h : b ≤ p) (base : Nat) (l : List DString) :
    UpAt b (writeItemsT base l) p := by
  induction l generalizing p with
  | nil => exact UpAt.pure h _
  | cons v l ih =>
    exact UpAt.bind (UpAt.pos h) fun _ _ _ h => UpAt.bind (UpAt.emit h _) fun _ _ _ h =>
      UpAt.bind (v.upAt h) fun _ _ _ h => UpAt.bind (ih h) fun _ _ _ h => UpAt.pure h _

theorem writeProvidedT_upAt {b p base : Nat} (h : b ≤ p) (hb : b ≤ base) (l : List (DString × Nat)) :
    UpAt b (writeProvidedT base l) p := by
  induction l generalizing p with
  | nil => exact UpAt.pure h _
  | cons x l ih =>
    obtain ⟨v, o⟩ := x
    exact UpAt.bind (UpAt.seekBy h o) fun _ _ _ h => UpAt.bind (v.upAt h) fun _ _ _ _ =>
      UpAt.bind (UpAt.seekTo hb) fun _ _ _ h => ih h

theorem upAt {b p offset : Nat} (h : b + offset ≤ p) (c : OffsetContainer T) (size : OffsetSize) :
    UpAt b (c.writeT offset size) p := by
  have hp : b ≤ p := by omega
  unfold writeT
  refine UpAt.bind (UpAt.pos hp) fun start q hq h1 => ?_
  obtain ⟨ps, hq⟩ := Tw.step_ok hq
  rw [Wr.pos_def] at hq
  simp only [Res.ok.injEq, Prod.mk.injEq] at hq
  obtain ⟨e1, e2, -⟩ := hq
  refine UpAt.bind (UpAt.lift h1 _) fun base q' hq' h2 => ?_
  obtain ⟨ps', hq'⟩ := Tw.step_ok hq'
  unfold calculateBase at hq'
  rw [if_pos (by omega)] at hq'
  simp only [Wr.lift, Res.ok.injEq, Prod.mk.injEq] at hq'
  have hbase : b ≤ base := by omega
  cases c.offsets with
  | none =>
    exact UpAt.bind (UpAt.seekBy h2 _) fun _ _ _ h => UpAt.bind (writeItemsT_upAt h _ _) fun _ _ _ h =>
      UpAt.bind (UpAt.lift h _) fun _ _ _ h => UpAt.bind (UpAt.seekTo (by omega)) fun _ _ _ h => UpAt.emit h _
  | some o =>
    exact UpAt.bind (UpAt.lift h2 _) fun _ _ _ h => UpAt.bind (UpAt.emit h _) fun _ _ _ h =>
      UpAt.bind (UpAt.seekTo hbase) fun _ _ _ h => writeProvidedT_upAt h hbase _

end OffsetContainer

theorem headed_upAt {b p n : Nat} {T : Type} [OffsetItems T] (h : b ≤ p) {hd : Bytes} (hn : hd.length = n)
    (c : OffsetContainer T) (size : OffsetSize) :
    UpAt b (do Tw.step (Wr.emit hd); c.writeT n size) p := by
  refine UpAt.bind (UpAt.emit h _) fun _ q hq _ => c.upAt ?_ size
  obtain ⟨ps, hq⟩ := Tw.step_ok hq
  rw [Wr.emit_def] at hq
  simp only [Res.ok.injEq, Prod.mk.injEq] at hq
  omega

theorem emitted_upAt {b p : Nat} (h : b ≤ p) (r : Res Bytes) : UpAt b (Tw.step (Wr.emitRes r)) p :=
  UpAt.emitRes h fun x hx => by cases hx

theorem parts_upAt {b p : Nat} (h : b ≤ p) (r : Res Bytes) (l : List (Bytes × DString)) :
    UpAt b (Tw.orBegun (Wr.emitRes r) (begunParts l)) p :=
  UpAt.emitRes h fun x hx => Nat.le_trans h (begunParts_off l p x hx)

theorem Row.upAt {b p : Nat} (h : b ≤ p) (r : Row) : UpAt b r.writeT p := by
  cases r with
  | plain r =>
    cases r with
    | album r => exact headed_upAt h (by simp [Album.head]) _ _
    | artist r => exact headed_upAt h (by simp [Artist.head]) _ _
    | track r => exact headed_upAt h (by simp [Track.head]) _ _
    | artwork r => exact parts_upAt h _ _
    | color r => exact parts_upAt h _ _
    | genre r => exact parts_upAt h _ _
    | historyPlaylist r => exact parts_upAt h _ _
    | historyEntry r => exact parts_upAt h _ _
    | history r => exact parts_upAt h _ _
    | key r => exact parts_upAt h _ _
    | label r => exact parts_upAt h _ _
    | playlistTreeNode r => exact parts_upAt h _ _
    | playlistEntry r => exact parts_upAt h _ _
    | columnEntry r => exact parts_upAt h _ _
    | menu r => exact parts_upAt h _ _
  | ext r =>
    cases r with
    | tag r => exact headed_upAt h (by simp [TagOrCategory.head]) _ _
    | trackTag r => exact emitted_upAt h _
  | unknown =>
    refine UpAt.step fun a q ps hw => ?_
    simp only [Row.write, Wr.pure_def, Res.ok.injEq, Prod.mk.injEq] at hw
    obtain ⟨-, e1, e2⟩ := hw
    exact ⟨by omega, fun x hx => by rw [← e2] at hx; cases hx⟩

/-! ## Pages -/

theorem RowGroup.allPatches_off {gs : List RowGroup} {e : Nat} (he : 36 * gs.length ≤ e) :
    ∀ x ∈ allPatches e gs, e ≤ x.off + 36 * gs.length := by
  induction gs generalizing e with
  | nil => intro x hx; cases hx
  | cons g gs ih =>
    rw [List.length_cons] at he ⊢
    intro x hx
    have hs := g.slotsUsed_eq
    rcases List.mem_append.1 hx with hx | hx
    · simp only [patches, List.mem_cons, List.not_mem_nil, or_false] at hx
      rcases hx with rfl | rfl | rfl
      · show e ≤ (e - 4 - 2 * g.slotsUsed) + 36 * (gs.length + 1)
        omega
      · show e ≤ (e - 4) + 36 * (gs.length + 1)
        omega
      · show e ≤ (e - 2) + 36 * (gs.length + 1)
        omega
    · have := ih (by omega) x hx
      omega

/-- A page whose row groups have room in the page writes nothing in front of the page. -/
theorem Page.upAt {pg : Page} {size p : Nat}
    (hg : ∀ c, pg.content = .data c → (∀ g ∈ c.rowGroups, g.rowOffsets.length = 16) ∧ 36 * c.rowGroups.length ≤ size) :
    ∀ x ∈ (pg.writeT size p).1, p ≤ x.off := by
  suffices h : UpAt p (pg.writeT size) p from h.1
  unfold Page.writeT
  refine UpAt.bind (UpAt.emit (Nat.le_refl _) _) fun _ q hq hpq => ?_
  obtain ⟨ps, hq⟩ := Tw.step_ok hq
  rw [Wr.emit_def, PageHeader.enc_length] at hq
  simp only [Res.ok.injEq, Prod.mk.injEq] at hq
  obtain ⟨-, rfl, -⟩ := hq
  cases hc : pg.content with
  | index c =>
    refine UpAt.orBegun (fun x hx => ?_) fun a q ps hw => ?_
    · simp only [List.mem_cons, List.not_mem_nil, or_false] at hx
      rcases hx with rfl | rfl
      · exact hpq
      · exact Nat.le_trans hpq (Nat.le_add_right _ _)
    · obtain ⟨-, -, e1, e2⟩ := IndexPageContent.write_eq_ok.1 hw
      refine ⟨by omega, fun x hx => ?_⟩
      rw [e2] at hx
      simp only [List.mem_cons, List.not_mem_nil, or_false] at hx
      rcases hx with rfl | rfl | rfl | rfl
      all_goals simp only; omega
  | data c =>
    obtain ⟨hl, hr⟩ := hg c hc
    refine UpAt.bind (UpAt.emit hpq _) fun _ q hq hpq => ?_
    obtain ⟨ps, hq⟩ := Tw.step_ok hq
    rw [Wr.emit_def, DataPageHeader.enc_length] at hq
    simp only [Res.ok.injEq, Prod.mk.injEq] at hq
    obtain ⟨-, rfl, -⟩ := hq
    rw [DataPageContent.pageHeapSize_eq]
    refine UpAt.bind (UpAt.lift hpq _) fun heap q hq hpq => ?_
    obtain ⟨ps, hq⟩ := Tw.step_ok hq
    by_cases h40 : 40 ≤ size
    · rw [if_pos h40] at hq
      simp only [Wr.lift, Res.ok.injEq, Prod.mk.injEq] at hq
      obtain ⟨rfl, rfl, -⟩ := hq
      have e1 : p + 32 + 8 + (size - 40) = p + size := by omega
      have hw : DataPageContent.writeGroupsT (size - 40) c.rowGroups (p + 32 + 8) =
          (RowGroup.allPatches (p + size) c.rowGroups, .ok ((), p + 32 + 8)) :=
        eq_ok_of_forget (by
          rw [DataPageContent.forget_writeGroupsT, DataPageContent.writeGroups_eq_ok hl]
          exact ⟨rfl, by omega, by rw [e1]⟩)
      refine UpAt.bind ⟨?_, ?_⟩ fun _ q _ hq => ?_
      · rw [hw]
        intro x hx
        have := RowGroup.allPatches_off (show 36 * c.rowGroups.length ≤ p + size by omega) x hx
        omega
      · rw [hw]
        intro a q h
        simp only [Res.ok.injEq, Prod.mk.injEq] at h
        omega
      · refine UpAt.bind ?_ fun _ _ _ h => UpAt.seekBy h _
        refine UpAt.bind (UpAt.pos hq) fun base q' h1 h2 => UpAt.forEach (fun x _ r hr => ?_) h2
        have hbase : p ≤ base := by
          obtain ⟨ps, h1⟩ := Tw.step_ok h1
          rw [Wr.pos_def] at h1
          simp only [Res.ok.injEq, Prod.mk.injEq] at h1
          omega
        exact UpAt.bind (UpAt.seekBy hr _) fun _ _ _ h => UpAt.bind (x.2.upAt h) fun _ _ _ _ => UpAt.seekTo hbase
    · rw [if_neg h40] at hq
      simp [Wr.lift] at hq

/-! ## The first page that fails -/

/-- If the pages cannot be written, there is a first page that cannot be written. -/
theorem pages_fail {size : UInt32} {l : List LazyPage} {p : Nat}
    (hadv : ∀ pg, LazyPage.loaded pg ∈ l → ∀ p q ps, pg.write size.toNat p = .ok ((), q, ps) → q = p + size.toNat)
    (h : ∀ q ps, Wr.forEach (LazyPage.write size) l p ≠ .ok ((), q, ps)) :
    ∃ k pg ps, l[k]? = some (.loaded pg) ∧
      (∀ q ps, pg.write size.toNat (p + k * size.toNat) ≠ .ok ((), q, ps)) ∧
      PagesWritten size.toNat p (l.take k) ps ∧
      (Tw.forEach (LazyPage.writeT size) l p).1 = ps ++ (pg.writeT size.toNat (p + k * size.toNat)).1 := by
  induction l generalizing p with
  | nil => exact absurd rfl (h p [])
  | cons x l ih =>
    have hl : ∀ {p' : Nat} {a : List Patch}, LazyPage.write size x p = .ok ((), p', a) →
        ∀ q ps, Wr.forEach (LazyPage.write size) l p' ≠ .ok ((), q, ps) := fun hx q ps hq =>
      h q _ (Wr.bind_of_ok hx hq)
    have hT : ∀ {p' : Nat} {a : List Patch}, LazyPage.write size x p = .ok ((), p', a) →
        (Tw.forEach (LazyPage.writeT size) (x :: l) p).1 = a ++ (Tw.forEach (LazyPage.writeT size) l p').1 := by
      intro p' a hx
      have := eq_ok_of_forget (t := x.writeT size) (by rw [LazyPage.forget_writeT]; exact hx)
      show ((x.writeT size >>= fun _ => Tw.forEach (LazyPage.writeT size) l) p).1 = _
      rw [bind_def, this]
    have e1 : ∀ k, p + size.toNat + k * size.toNat = p + (k + 1) * size.toNat := fun k => by
      rw [Nat.add_mul]; omega
    cases x with
    | notLoaded =>
      have hx : LazyPage.write size .notLoaded p = .ok ((), p + size.toNat, []) := Wr.seekBy_nat _ _
      obtain ⟨k, pg, ps, h1, h2, h3, h4⟩ := ih (fun pg hpg => hadv pg (List.mem_cons_of_mem _ hpg)) (hl hx)
      rw [e1] at h2 h4
      refine ⟨k + 1, pg, ps, by simpa using h1, h2, by simpa using PagesWritten.skip h3, ?_⟩
      rw [hT hx, h4]
      rfl
    | loaded pg =>
      cases hw : pg.write size.toNat p with
      | ok y =>
        obtain ⟨⟨⟩, q, a⟩ := y
        have hq := hadv pg (List.mem_cons_self ..) p q a hw
        subst hq
        obtain ⟨k, pg', ps, h1, h2, h3, h4⟩ := ih (fun pg hpg => hadv pg (List.mem_cons_of_mem _ hpg)) (hl hw)
        rw [e1] at h2 h4
        refine ⟨k + 1, pg', a ++ ps, by simpa using h1, h2, by simpa using PagesWritten.page hw h3, ?_⟩
        rw [hT hw, h4, List.append_assoc]
      | err e =>
        refine ⟨0, pg, [], rfl, ?_, .nil, ?_⟩
        · rw [Nat.zero_mul]
          intro q ps h'
          rw [Nat.add_zero, hw] at h'
          cases h'
        · have hf : (pg.writeT size.toNat).forget p = .err e := by rw [Page.forget_writeT]; exact hw
          rw [Nat.zero_mul, Nat.add_zero, List.nil_append]
          show ((pg.writeT size.toNat >>= fun _ => Tw.forEach (LazyPage.writeT size) l) p).1 = _
          rw [bind_def]
          unfold forget at hf
          revert hf
          cases (pg.writeT size.toNat p).2 with
          | ok z => intro hf; cases hf
          | err e => intro; rfl
          | panic => intro; rfl
      | panic =>
        refine ⟨0, pg, [], rfl, ?_, .nil, ?_⟩
        · rw [Nat.zero_mul]
          intro q ps h'
          rw [Nat.add_zero, hw] at h'
          cases h'
        · have hf : (pg.writeT size.toNat).forget p = .panic := by rw [Page.forget_writeT]; exact hw
          rw [Nat.zero_mul, Nat.add_zero, List.nil_append]
          show ((pg.writeT size.toNat >>= fun _ => Tw.forEach (LazyPage.writeT size) l) p).1 = _
          rw [bind_def]
          unfold forget at hf
          revert hf
          cases (pg.writeT size.toNat p).2 with
          | ok z => intro hf; cases hf
          | err e => intro; rfl
          | panic => intro; rfl

/-! ## How far failed writers write -/

/-- Nothing is written behind `e`. -/
def Tw.DownAt {α : Type} (e : Nat) (t : Tw α) (p : Nat) : Prop := ∀ x ∈ (t p).1, x.off + x.bytes.length ≤ e

namespace Tw

variable {α β : Type} {e p : Nat}

theorem DownAt.bind {m : Tw α} {f : α → Tw β} (h1 : DownAt e m p)
    (h2 : ∀ a q, (m p).2 = .ok (a, q) → DownAt e (f a) q) : DownAt e (m >>= f) p := by
  unfold DownAt
  rw [bind_def]
  cases hm : (m p).2 with
  | ok x =>
    obtain ⟨a, q⟩ := x
    have h := h2 a q hm
    intro x hx
    rcases List.mem_append.1 hx with hx | hx
    · exact h1 x hx
    · exact h x hx
  | err e => exact h1
  | panic => exact h1

theorem DownAt.orBegun {w : Wr α} {f : Nat → List Patch} (h1 : ∀ x ∈ f p, x.off + x.bytes.length ≤ e)
    (h2 : ∀ a q ps, w p = .ok (a, q, ps) → ∀ x ∈ ps, x.off + x.bytes.length ≤ e) : DownAt e (orBegun w f) p := by
  unfold DownAt Tw.orBegun
  cases hw : w p with
  | ok x =>
    obtain ⟨a, q, ps⟩ := x
    exact h2 a q ps hw
  | err e => exact h1
  | panic => exact h1

theorem DownAt.step {w : Wr α} (h2 : ∀ a q ps, w p = .ok (a, q, ps) → ∀ x ∈ ps, x.off + x.bytes.length ≤ e) :
    DownAt e (step w) p := DownAt.orBegun (fun x hx => by cases hx) h2

theorem DownAt.emit {bs : Bytes} (h : p + bs.length ≤ e) : DownAt e (Tw.step (Wr.emit bs)) p :=
  DownAt.step fun a q ps hw x hx => by
    rw [Wr.emit_def] at hw
    simp only [Res.ok.injEq, Prod.mk.injEq] at hw
    rw [← hw.2.2, List.mem_singleton] at hx
    subst hx
    exact h

theorem DownAt.pos : DownAt e (Tw.step Wr.pos) p := DownAt.step fun a q ps hw x hx => by
  rw [Wr.pos_def] at hw
  simp only [Res.ok.injEq, Prod.mk.injEq] at hw
  rw [← hw.2.2] at hx
  cases hx

theorem DownAt.lift (r : Res α) : DownAt e (Tw.step (Wr.lift r)) p := DownAt.step fun a q ps hw x hx => by
  cases r with
  | ok a' =>
    simp only [Wr.lift, Res.ok.injEq, Prod.mk.injEq] at hw
    rw [← hw.2.2] at hx
    cases hx
  | err e => simp [Wr.lift] at hw
  | panic => simp [Wr.lift] at hw

theorem DownAt.seekBy (n : Nat) : DownAt e (Tw.step (Wr.seekBy (n : Nat))) p := DownAt.step fun a q ps hw x hx => by
  rw [Wr.seekBy_nat] at hw
  simp only [Res.ok.injEq, Prod.mk.injEq] at hw
  rw [← hw.2.2] at hx
  cases hx

theorem DownAt.seekTo (n : Nat) : DownAt e (Tw.step (Wr.seekTo n)) p := DownAt.step fun a q ps hw x hx => by
  rw [Wr.seekTo_def] at hw
  simp only [Res.ok.injEq, Prod.mk.injEq] at hw
  rw [← hw.2.2] at hx
  cases hx

theorem DownAt.pure (a : α) : DownAt e (pure a : Tw α) p := fun x hx => by cases hx

theorem step_emit_ok {bs : Bytes} {a : Unit} {q : Nat} (h : (step (Wr.emit bs) p).2 = .ok (a, q)) :
    q = p + bs.length := by
  obtain ⟨ps, h⟩ := step_ok h
  rw [Wr.emit_def] at h
  simp only [Res.ok.injEq, Prod.mk.injEq] at h
  exact h.2.1.symm

theorem step_seekBy_ok {n : Nat} {a : Unit} {q : Nat} (h : (step (Wr.seekBy (n : Nat)) p).2 = .ok (a, q)) :
    q = p + n := by
  obtain ⟨ps, h⟩ := step_ok h
  rw [Wr.seekBy_nat] at h
  simp only [Res.ok.injEq, Prod.mk.injEq] at h
  exact h.2.1.symm

theorem step_pos_ok {a q : Nat} (h : (step Wr.pos p).2 = .ok (a, q)) : a = p ∧ q = p := by
  obtain ⟨ps, h⟩ := step_ok h
  rw [Wr.pos_def] at h
  simp only [Res.ok.injEq, Prod.mk.injEq] at h
  exact ⟨h.1.symm, h.2.1.symm⟩

theorem step_lift_ok {r : Res α} {a : α} {q : Nat} (h : (step (Wr.lift r) p).2 = .ok (a, q)) :
    r = .ok a ∧ q = p := by
  obtain ⟨ps, h⟩ := step_ok h
  cases r with
  | ok a' =>
    simp only [Wr.lift, Res.ok.injEq, Prod.mk.injEq] at h
    exact ⟨by rw [h.1], h.2.1.symm⟩
  | err e => simp [Wr.lift] at h
  | panic => simp [Wr.lift] at h

end Tw

theorem DataPageContent.writeRowAtT_end {base p q : Nat} {x : UInt16 × Row} {a : Unit}
    (h : (writeRowAtT base x p).2 = .ok (a, q)) : q = base := by
  have : (writeRowAt base x p) = .ok (a, q, (writeRowAtT base x p).1) := by
    rw [← forget_writeRowAtT]
    unfold Tw.forget
    rw [h]
  unfold writeRowAt at this
  obtain ⟨_, p1, ps1, ps2, -, h2, -⟩ := Wr.bind_eq_ok.1 this
  obtain ⟨_, p2, ps3, ps4, -, h4, -⟩ := Wr.bind_eq_ok.1 h2
  rw [Wr.seekTo_def] at h4
  simp only [Res.ok.injEq, Prod.mk.injEq] at h4
  exact h4.2.1.symm

theorem RowGroup.allPatches_end {gs : List RowGroup} (hl : ∀ g ∈ gs, g.rowOffsets.length = 16) {e : Nat}
    (he : 36 * gs.length ≤ e) : ∀ x ∈ allPatches e gs, x.off + x.bytes.length ≤ e := by
  induction gs generalizing e with
  | nil => intro x hx; cases hx
  | cons g gs ih =>
    rw [List.length_cons] at he
    intro x hx
    have hs := g.slotsUsed_eq
    have hlen : ((g.rowOffsets.drop (16 - g.slotsUsed)).flatMap encU16).length = 2 * g.slotsUsed := by
      rw [flatMap_encU16_length, List.length_drop, hl g (List.mem_cons_self ..)]; omega
    rcases List.mem_append.1 hx with hx | hx
    · simp only [patches, List.mem_cons, List.not_mem_nil, or_false] at hx
      rcases hx with rfl | rfl | rfl
      · show (e - 4 - 2 * g.slotsUsed) + ((g.rowOffsets.drop (16 - g.slotsUsed)).flatMap encU16).length ≤ e
        omega
      · show e - 4 + (encU16 g.rowPresenceFlags).length ≤ e
        rw [encU16_length]; omega
      · show e - 2 + (encU16 g.unknown).length ≤ e
        rw [encU16_length]; omega
    · have := ih (fun g hg => hl g (List.mem_cons_of_mem _ hg)) (by omega) x hx
      omega

/-- A page whose rows stay in the page writes nothing behind the page. -/
theorem Page.downAt {pg : Page} {size p : Nat} (h40 : 40 ≤ size) (hi : pg.Within size) (hg : pg.Framed size) :
    ∀ x ∈ (pg.writeT size p).1, x.off + x.bytes.length ≤ p + size := by
  suffices h : DownAt (p + size) (pg.writeT size) p from h
  unfold Page.writeT
  refine DownAt.bind (DownAt.emit (by rw [PageHeader.enc_length]; omega)) fun _ q hq => ?_
  have hq := step_emit_ok hq
  rw [PageHeader.enc_length] at hq
  subst hq
  unfold Page.Within at hi
  unfold Page.Framed at hg
  revert hi hg
  cases pg.content with
  | index c =>
    intro hi hg
    simp only at hi hg
    have hfl := IndexEntry.flatMap_length c.entries
    refine DownAt.orBegun (fun x hx => ?_) fun a q ps hw => ?_
    · simp only [List.mem_cons, List.not_mem_nil, or_false] at hx
      rcases hx with rfl | rfl
      · show p + 32 + c.header.enc.length ≤ p + size
        rw [IndexPageHeader.enc_length]; omega
      · show p + 32 + c.header.enc.length + (c.entries.flatMap IndexEntry.enc).length ≤ p + size
        rw [IndexPageHeader.enc_length]; omega
    · obtain ⟨b1, b2, b3, e2⟩ := IndexPageContent.write_eq_ok.1 hw
      intro x hx
      rw [e2] at hx
      simp only [List.mem_cons, List.not_mem_nil, or_false] at hx
      rcases hx with rfl | rfl | rfl | rfl
      · show p + 32 + c.header.enc.length ≤ p + size
        rw [IndexPageHeader.enc_length]; omega
      · show p + 32 + 28 + (c.entries.flatMap IndexEntry.enc).length ≤ p + size
        omega
      · simp only [IndexEntry.flatMap_length, List.length_replicate]
        omega
      · simp only [List.length_replicate]
        omega
  | data c =>
    intro hi hg
    obtain ⟨hl, hr⟩ := hg
    simp only at hi
    refine DownAt.bind (DownAt.emit (by rw [DataPageHeader.enc_length]; omega)) fun _ q hq => ?_
    have hq := step_emit_ok hq
    rw [DataPageHeader.enc_length] at hq
    subst hq
    rw [DataPageContent.pageHeapSize_eq, if_pos h40]
    refine DownAt.bind (DownAt.lift _) fun heap q hq => ?_
    obtain ⟨e0, rfl⟩ := step_lift_ok hq
    injection e0 with e0
    subst e0
    have e1 : p + 32 + 8 + (size - 40) = p + size := by omega
    have hw : DataPageContent.writeGroupsT (size - 40) c.rowGroups (p + 32 + 8) =
        (RowGroup.allPatches (p + size) c.rowGroups, .ok ((), p + 32 + 8)) :=
      eq_ok_of_forget (by
        rw [DataPageContent.forget_writeGroupsT, DataPageContent.writeGroups_eq_ok hl]
        exact ⟨rfl, by omega, by rw [e1]⟩)
    refine DownAt.bind ?_ fun _ q hq => ?_
    · unfold DownAt
      rw [hw]
      exact RowGroup.allPatches_end hl (by omega)
    · rw [hw] at hq
      simp only [Res.ok.injEq, Prod.mk.injEq] at hq
      obtain ⟨-, rfl⟩ := hq
      refine DownAt.bind ?_ fun _ _ _ => DownAt.seekBy _
      refine DownAt.bind DownAt.pos fun base q' h1 => ?_
      obtain ⟨rfl, rfl⟩ := step_pos_ok h1
      have loop : ∀ rows : RowMap, (∀ x ∈ rows, ∃ n, x.2.Within n ∧ 40 + x.1.toNat + n ≤ size) →
          DownAt (p + size) (Tw.forEach (DataPageContent.writeRowAtT (p + 32 + 8)) rows) (p + 32 + 8) := by
        intro rows
        induction rows with
        | nil => intro _; exact DownAt.pure _
        | cons x rows ih =>
          intro hx
          refine DownAt.bind ?_ fun _ q hq => ?_
          · refine DownAt.bind (DownAt.seekBy _) fun _ q hq => ?_
            have hq := step_seekBy_ok hq
            subst hq
            refine DownAt.bind (fun y hy => ?_) fun _ _ _ => DownAt.seekTo _
            obtain ⟨n, hn, hle⟩ := hx x (List.mem_cons_self ..)
            have := hn _ y hy
            omega
          · have hq := DataPageContent.writeRowAtT_end hq
            subst hq
            exact ih fun y hy => hx y (List.mem_cons_of_mem _ hy)
      exact loop c.rows hi

/-! ## Rows with offsets that are calculated -/

theorem DString.downAt {v : DString} {p e : Nat} (h : p + v.room ≤ e + 3) : DownAt e v.writeT p := by
  unfold DString.room at h
  refine DownAt.orBegun (fun x hx => ?_) fun a q ps hw x hx => ?_
  · cases v with
    | short c => cases hx
    | long b =>
      rw [DString.begun, List.mem_singleton] at hx
      subst hx
      show p + 1 ≤ e
      revert h
      split <;> intro h <;> omega
  · obtain ⟨bs, hb, -, e2⟩ := Wr.emitRes_eq_ok hw
    rw [e2, List.mem_singleton] at hx
    subst hx
    rw [hb] at h
    simp only at h
    show p + bs.length ≤ e
    omega

theorem DString.writeT_end {v : DString} {p q : Nat} {a : Unit} (h : (v.writeT p).2 = .ok (a, q)) :
    q + 4 ≤ p + v.room := by
  have : Wr.emitRes v.enc p = .ok (a, q, (v.writeT p).1) := by
    rw [← DString.forget_writeT]
    unfold Tw.forget
    rw [h]
  obtain ⟨bs, hb, e1, -⟩ := Wr.emitRes_eq_ok this
  unfold DString.room
  rw [hb]
  simp only
  omega

namespace OffsetContainer

variable {T : Type} [OffsetItems T]

theorem writeItemsT_down {base : Nat} {l : List DString} {p e : Nat} (hp : base ≤ p)
    (h : p + (l.map DString.room).sum ≤ e) :
    DownAt e (writeItemsT base l) p ∧
      ∀ os q, (writeItemsT base l p).2 = .ok (os, q) → os.length = l.length := by
  induction l generalizing p with
  | nil =>
    refine ⟨DownAt.pure _, fun os q hq => ?_⟩
    injection hq with hq
    injection hq with h1 h2
    rw [← h1]
    rfl
  | cons v l ih =>
    rw [List.map_cons, List.sum_cons] at h
    have hal : v.alignment ≤ 4 ∧ 0 < v.alignment := by
      unfold DString.alignment
      split <;> omega
    have hspec := alignedOffset_spec (p - base) v.alignment hal.2
    have hroom : 4 ≤ v.room := by
      unfold DString.room
      split <;> omega
    have key : ∀ a1 q1, (Tw.step Wr.pos p).2 = .ok (a1, q1) → ∀ a2 q2,
        (Tw.step (Wr.emit (List.replicate (alignedOffset (a1 - base) v.alignment - (a1 - base)) 0)) q1).2 = .ok (a2, q2) →
        p ≤ q2 ∧ q2 ≤ p + 3 := by
      intro a1 q1 h1 a2 q2 h2
      obtain ⟨rfl, rfl⟩ := step_pos_ok h1
      have := step_emit_ok h2
      rw [List.length_replicate] at this
      omega
    constructor
    · refine DownAt.bind DownAt.pos fun a1 q1 h1 => ?_
      refine DownAt.bind ?_ fun a2 q2 h2 => ?_
      · obtain ⟨rfl, rfl⟩ := step_pos_ok h1
        refine DownAt.emit ?_
        rw [List.length_replicate]
        omega
      · have hk := key a1 q1 h1 a2 q2 h2
        refine DownAt.bind (DString.downAt (by omega)) fun a3 q3 h3 => ?_
        have h3' := DString.writeT_end h3
        have hup := (v.upAt hk.1).2 a3 q3 h3
        exact DownAt.bind (ih (by omega) (by omega)).1 fun _ _ _ => DownAt.pure _
    · intro os q hq
      unfold writeItemsT at hq
      have bo : ∀ {α β : Type} {m : Tw α} {f : α → Tw β} {p q : Nat} {b : β}, ((m >>= f) p).2 = .ok (b, q) →
          ∃ a q', (m p).2 = .ok (a, q') ∧ (f a q').2 = .ok (b, q) := by
        intro α β m f p q b h
        rw [bind_def] at h
        cases hm : (m p).2 with
        | ok x =>
          obtain ⟨a, q'⟩ := x
          rw [hm] at h
          exact ⟨a, q', rfl, h⟩
        | err e => rw [hm] at h; cases h
        | panic => rw [hm] at h; cases h
      obtain ⟨a1, q1, h1, hq⟩ := bo hq
      obtain ⟨a2, q2, h2, hq⟩ := bo hq
      obtain ⟨a3, q3, h3, hq⟩ := bo hq
      obtain ⟨os', q4, h4, hq⟩ := bo hq
      have hk := key a1 q1 h1 a2 q2 h2
      have h3' := DString.writeT_end h3
      have hup := (v.upAt hk.1).2 a3 q3 h3
      have hl := (ih (p := q3) (by omega) (by omega)).2 os' q4 h4
      injection hq with hq
      injection hq with e1 e2
      rw [← e1, List.length_cons, List.length_cons, hl]

theorem downAt [LawfulItems T] {c : OffsetContainer T} (hc : c.offsets = none) {p offset e : Nat} {size : OffsetSize}
    (hp : offset ≤ p)
    (h : p + (OffsetItems.count T + 1) * size.bytes + ((OffsetItems.asItems c.inner).map DString.room).sum ≤ e) :
    DownAt e (c.writeT offset size) p := by
  unfold writeT
  refine DownAt.bind DownAt.pos fun a1 q1 h1 => ?_
  obtain ⟨rfl, rfl⟩ := step_pos_ok h1
  refine DownAt.bind (DownAt.lift _) fun base q2 h2 => ?_
  obtain ⟨hb, rfl⟩ := step_lift_ok h2
  unfold calculateBase at hb
  rw [if_pos hp] at hb
  injection hb with hb
  rw [hc]
  simp only
  refine DownAt.bind (DownAt.seekBy _) fun _ q3 h3 => ?_
  have h3 := step_seekBy_ok h3
  have hw := writeItemsT_down (base := base) (l := OffsetItems.asItems c.inner) (p := q3) (e := e) (by omega) (by omega)
  refine DownAt.bind hw.1 fun raw q4 h4 => ?_
  have hlen := hw.2 raw q4 h4
  refine DownAt.bind (DownAt.lift _) fun o q5 h5 => ?_
  obtain ⟨hn, -⟩ := step_lift_ok h5
  refine DownAt.bind (DownAt.seekTo _) fun _ q6 h6 => ?_
  obtain ⟨ps, h6⟩ := step_ok h6
  rw [Wr.seekTo_def] at h6
  simp only [Res.ok.injEq, Prod.mk.injEq] at h6
  have hh := OffsetArray.new_eq_ok hn
  refine DownAt.emit ?_
  have hl := OffsetArray.enc_length (OffsetArray.ofNats_sizeMatches raw size)
  rw [OffsetArray.ofNats_length, hlen, LawfulItems.length_asItems] at hl
  rw [hh.2, hl]
  omega

end OffsetContainer

/-- A row with an offset array that is calculated stays within the bytes its parts take. -/
theorem headed_within {n : Nat} {T : Type} [OffsetItems T] [LawfulItems T] {hd : Bytes} (hn : hd.length = n)
    {c : OffsetContainer T} (hc : c.offsets = none) (size : OffsetSize) (p : Nat) :
    ∀ x ∈ ((do Tw.step (Wr.emit hd); c.writeT n size : Tw Unit) p).1, x.off + x.bytes.length ≤
      p + (n + (OffsetItems.count T + 1) * size.bytes + ((OffsetItems.asItems c.inner).map DString.room).sum) := by
  suffices h : DownAt (p + (n + (OffsetItems.count T + 1) * size.bytes +
      ((OffsetItems.asItems c.inner).map DString.room).sum)) (do Tw.step (Wr.emit hd); c.writeT n size : Tw Unit) p from h
  refine DownAt.bind (DownAt.emit (by omega)) fun _ q hq => ?_
  have hq := step_emit_ok hq
  exact OffsetContainer.downAt hc (by omega) (by omega)

end Rekordcrate
