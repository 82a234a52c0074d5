import Verif.Model.WrapAnlz
import Verif.Lemmas.Wrap
import Verif.Lemmas.AnlzSection

/-! # Lemmas on analysis files in builds without overflow checks -/

namespace Rekordcrate.Anlz
open Rd

/-! ## Readers that never panic and never go back -/

/-- The reader never panics, and it never goes back. -/
def Steady {α : Type} (r : Rd α) : Prop := NP r ∧ ∀ d p a q, r d p = .ok (a, q) → p ≤ q

namespace Steady

variable {α β : Type}

theorem of_inv {r : Rd α} {P : α → Bytes → Prop} (h : NP r) (h' : Inv r P) : Steady r :=
  ⟨h, fun d p a q hq => by obtain ⟨bs, -, rfl, -⟩ := h' d p a q hq; omega⟩

theorem pure (a : α) : Steady (Pure.pure a : Rd α) :=
  ⟨NP.pure a, fun d p b q h => by rw [pure_eq_ok] at h; omega⟩

theorem bind {r : Rd α} {f : α → Rd β} (h : Steady r) (h' : ∀ a, Steady (f a)) : Steady (r >>= f) :=
  ⟨NP.bind h.1 fun a => (h' a).1, fun d p b q he => by
    obtain ⟨a, p', h1, h2⟩ := bind_eq_ok.1 he
    exact Nat.le_trans (h.2 _ _ _ _ h1) ((h' a).2 _ _ _ _ h2)⟩

theorem orElse {r s : Rd α} (h : Steady r) (h' : Steady s) : Steady (Rd.orElse r s) :=
  ⟨NP.orElse h.1 h'.1, fun d p a q he => by
    unfold Rd.orElse at he
    cases hr : r d p with
    | ok x =>
      rw [hr] at he
      injection he with he
      subst he
      exact h.2 _ _ _ _ hr
    | err e => rw [hr] at he; exact h'.2 _ _ _ _ he
    | panic => rw [hr] at he; cases he⟩

theorem require (b : Bool) (e : Err) : Steady (Rd.require b e) :=
  ⟨NP.require b e, fun d p a q h => by
    unfold Rd.require at h
    split at h
    · rw [pure_eq_ok] at h; omega
    · cases h⟩

theorem many {r : Rd α} (h : Steady r) (n : Nat) : Steady (Rd.many r n) := by
  induction n with
  | zero => exact Steady.pure _
  | succ n ih => exact Steady.bind h fun _ => Steady.bind ih fun _ => Steady.pure _

theorem restore {r : Rd α} (h : NP r) : Steady (Rd.restore r) :=
  ⟨NP.restore h, fun d p a q he => by
    unfold Rd.restore at he
    cases hr : r d p with
    | ok x => rw [hr] at he; simp only [Res.ok.injEq, Prod.mk.injEq] at he; omega
    | err e => rw [hr] at he; cases he
    | panic => rw [hr] at he; cases he⟩

theorem bytes (n : Nat) : Steady (Rd.bytes n) := of_inv (NP.bytes n) (Inv.bytes n)
theorem u8 : Steady Rd.u8 := of_inv NP.u8 Inv.u8
theorem u16be : Steady Rd.u16be := of_inv NP.u16be Inv.u16be
theorem u32be : Steady Rd.u32be := of_inv NP.u32be Inv.u32be

end Steady

/-! ## Arithmetic -/

theorem mulU32_value {a b : Nat} (h : mulU32 a b ≠ .panic) : mulU32 a b = .ok (mulWrap32 a b) := by
  unfold mulU32 mulWrap32 at *
  split
  · rename_i hlt; rw [Nat.mod_eq_of_lt hlt]
  · rename_i hlt; rw [if_neg hlt] at h; exact absurd rfl h

theorem Header.remainingSize_value {h : Header} (hn : h.remainingSize ≠ .panic) :
    h.remainingSize = .ok h.remainingSizeWrap := subU_value32 h.size.toNat_lt hn

theorem Header.contentSize_value {h : Header} (hn : h.contentSize ≠ .panic) :
    h.contentSize = .ok h.contentSizeWrap := subU_value32 h.totalSize.toNat_lt hn

/-- The length of wide strings with their terminator. -/
theorem unitsLen_value {m : Nat}
    (hn : (if m % 2 ^ 32 + 1 < 2 ^ 32 then
      (if (m % 2 ^ 32 + 1) * 2 < 2 ^ 32 then Res.ok ((m % 2 ^ 32 + 1) * 2) else .panic) else .panic) ≠ .panic) :
    (if m % 2 ^ 32 + 1 < 2 ^ 32 then
      (if (m % 2 ^ 32 + 1) * 2 < 2 ^ 32 then Res.ok ((m % 2 ^ 32 + 1) * 2) else .panic) else .panic) =
    .ok (mulWrap32 (addWrap32 (m % 2 ^ 32) 1) 2) := by
  unfold mulWrap32 addWrap32
  split at hn
  · rename_i h1
    rw [if_pos h1]
    split at hn
    · rename_i h2
      rw [if_pos h2, Nat.mod_eq_of_lt h1, Nat.mod_eq_of_lt h2]
    · exact absurd rfl hn
  · exact absurd rfl hn

theorem WideString.byteLen_value {s : WideString} (hn : s.byteLen ≠ .panic) : s.byteLen = .ok s.byteLenWrap := by
  unfold byteLen byteLenWrap at *
  split
  · rfl
  · rename_i he
    rw [if_neg he] at hn
    exact unitsLen_value hn

theorem Path.lenPath_value {c : Path} (hn : c.lenPath ≠ .panic) : c.lenPath = .ok c.lenPathWrap :=
  unitsLen_value hn

theorem ExtendedCue.trailingLen_value {h : Header} {s : WideString} (hn : trailingLen h s ≠ .panic) :
    trailingLen h s = .ok (trailingLenWrap h s) := by
  refine (?_ : Res.Agree (trailingLen h s) (.ok (trailingLenWrap h s))) hn |>.symm
  refine Res.Agree.bind_value WideString.byteLen_value ?_
  intro hn
  split at hn
  · rename_i hlt
    rw [if_pos hlt]
    unfold trailingLenWrap addWrap32
    rw [Nat.mod_eq_of_lt hlt]
  · exact absurd rfl hn

theorem SongStructureData.getKey_value {n : UInt16} {bs : Bytes} (hn : getKey n bs ≠ .panic) :
    getKey n bs = .ok (getKeyWrap n bs) := by
  refine (?_ : Res.Agree (getKey n bs) (.ok (getKeyWrap n bs))) hn |>.symm
  clear hn
  induction bs with
  | nil => exact Res.Agree.refl _
  | cons x xs ih =>
    unfold getKey
    refine Res.Agree.bind_value (v := UInt8.ofNat (addWrap16 x.toNat n.toNat % 256)) ?_ ?_
    · intro hn
      refine (?_ : Res.Agree (keyByteOf n x) (.ok (UInt8.ofNat (addWrap16 x.toNat n.toNat % 256)))) hn |>.symm
      exact Res.Agree.bind_value addU16_value (Res.Agree.refl _)
    · exact Res.Agree.bind_value (fun h => (ih h).symm) (Res.Agree.refl _)

/-! ## Reading -/

theorem ExtendedCue.read_agree : Rd.Agree ExtendedCue.read ExtendedCue.readWrap := by
  unfold ExtendedCue.read ExtendedCue.readWrap
  repeat refine Rd.Agree.bind (Rd.Agree.refl _) fun _ => ?_
  exact Rd.Agree.bind_value ExtendedCue.trailingLen_value (Rd.Agree.refl _)

theorem ExtendedCueList.read_agree : Rd.Agree ExtendedCueList.read ExtendedCueList.readWrap := by
  unfold ExtendedCueList.read ExtendedCueList.readWrap
  iterate 4 refine Rd.Agree.bind (Rd.Agree.refl _) fun _ => ?_
  exact Rd.Agree.bind (Rd.Agree.many ExtendedCue.read_agree _) fun _ => Rd.Agree.refl _

theorem Path.read_agree (h : Header) : Rd.Agree (Path.read h) (Path.readWrap h) :=
  Rd.Agree.bind (Rd.Agree.refl _) fun _ => Rd.Agree.bind_value Header.contentSize_value
    (Rd.Agree.bind (Rd.Agree.refl _) fun _ => Rd.Agree.bind (Rd.Agree.refl _) fun _ =>
      Rd.Agree.bind_value Header.contentSize_value (Rd.Agree.bind (Rd.Agree.refl _) fun _ =>
        Rd.Agree.bind_value Path.lenPath_value (Rd.Agree.refl _)))

theorem Vbr.read_agree (h : Header) : Rd.Agree (Vbr.read h) (Vbr.readWrap h) :=
  Rd.Agree.bind (Rd.Agree.refl _) fun _ => Rd.Agree.bind_value Header.contentSize_value (Rd.Agree.refl _)

theorem WaveformPreview.read_agree (h : Header) : Rd.Agree (WaveformPreview.read h) (WaveformPreview.readWrap h) :=
  Rd.Agree.bind (Rd.Agree.refl _) fun _ => Rd.Agree.bind_value Header.contentSize_value (Rd.Agree.refl _)

theorem TinyWaveformPreview.read_agree (h : Header) :
    Rd.Agree (TinyWaveformPreview.read h) (TinyWaveformPreview.readWrap h) :=
  Rd.Agree.bind (Rd.Agree.refl _) fun _ => Rd.Agree.bind_value Header.contentSize_value (Rd.Agree.refl _)

theorem readEntryLens_agree (h : Header) (e : UInt32) : Rd.Agree (readEntryLens h e) (readEntryLensWrap h e) :=
  Rd.Agree.bind (Rd.Agree.refl _) fun _ => Rd.Agree.bind (Rd.Agree.refl _) fun _ =>
    Rd.Agree.bind (Rd.Agree.refl _) fun _ => Rd.Agree.bind_value mulU32_value
      (Rd.Agree.bind_value Header.contentSize_value (Rd.Agree.refl _))

theorem WaveformDetail.read_agree (h : Header) : Rd.Agree (WaveformDetail.read h) (WaveformDetail.readWrap h) :=
  Rd.Agree.bind (readEntryLens_agree _ _) fun _ => Rd.Agree.refl _

theorem WaveformColorPreview.read_agree (h : Header) :
    Rd.Agree (WaveformColorPreview.read h) (WaveformColorPreview.readWrap h) :=
  Rd.Agree.bind (readEntryLens_agree _ _) fun _ => Rd.Agree.refl _

theorem WaveformColorDetail.read_agree (h : Header) :
    Rd.Agree (WaveformColorDetail.read h) (WaveformColorDetail.readWrap h) :=
  Rd.Agree.bind (readEntryLens_agree _ _) fun _ => Rd.Agree.refl _

theorem Waveform3BandPreview.read_agree (h : Header) :
    Rd.Agree (Waveform3BandPreview.read h) (Waveform3BandPreview.readWrap h) :=
  Rd.Agree.bind (readEntryLens_agree _ _) fun _ => Rd.Agree.refl _

theorem Waveform3BandDetail.read_agree (h : Header) :
    Rd.Agree (Waveform3BandDetail.read h) (Waveform3BandDetail.readWrap h) :=
  Rd.Agree.bind (readEntryLens_agree _ _) fun _ => Rd.Agree.refl _

theorem SongStructureData.checkIfEncrypted_agree (m : Bytes) (n : UInt16) :
    Res.Agree (checkIfEncrypted m n) (checkIfEncryptedWrap m n) :=
  Res.Agree.bind_value getKey_value (by
    intro _
    unfold checkIfEncryptedWrap
    simp only
    cases Mood.read (List.zipWith (fun a b => a ^^^ b) m (getKeyWrap n (keyData.take 2))) 0 <;> rfl)

theorem SongStructureData.readEncrypted_agree (b : Bool) (n : UInt16) :
    Rd.Agree (readEncrypted b n) (readEncryptedWrap b n) := by
  intro d p hn
  unfold readEncrypted at hn ⊢
  unfold readEncryptedWrap
  cases b with
  | false => rfl
  | true =>
    simp only [if_true] at hn ⊢
    rw [getKey_value (by intro hc; rw [hc] at hn; exact absurd rfl hn)]

theorem SongStructure.read_agree (h : Header) : Rd.Agree (SongStructure.read h) (SongStructure.readWrap h) :=
  Rd.Agree.bind (Rd.Agree.refl _) fun _ => Rd.Agree.bind (Rd.Agree.refl _) fun _ =>
    Rd.Agree.bind (Rd.Agree.refl _) fun _ => Rd.Agree.bind_value mulU32_value
      (Rd.Agree.bind_value Header.contentSize_value (Rd.Agree.bind (Rd.Agree.refl _) fun _ =>
        Rd.Agree.bind (Rd.Agree.restore (Rd.Agree.bind (Rd.Agree.refl _) fun _ =>
          Rd.Agree.lift (SongStructureData.checkIfEncrypted_agree _ _))) fun _ =>
        Rd.Agree.bind (SongStructureData.readEncrypted_agree _ _) fun _ => Rd.Agree.refl _))

theorem Unknown.read_agree (h : Header) : Rd.Agree (Unknown.read h) (Unknown.readWrap h) :=
  Rd.Agree.bind_value Header.remainingSize_value (Rd.Agree.bind (Rd.Agree.refl _) fun _ =>
    Rd.Agree.bind_value Header.contentSize_value (Rd.Agree.refl _))

theorem variant_agree {α : Type} {r s : Rd α} (g : Bool) (f : α → Content) (h : Rd.Agree r s) :
    Rd.Agree (Content.variant g r f) (Content.variant g s f) :=
  Rd.Agree.bind (Rd.Agree.refl _) fun _ => Rd.Agree.bind h fun _ => Rd.Agree.refl _

theorem Content.read_agree (h : Header) : Rd.Agree (Content.read h) (Content.readWrap h) :=
  (Rd.Agree.refl _).orElse <| (Rd.Agree.refl _).orElse <|
    (variant_agree _ _ ExtendedCueList.read_agree).orElse <| (variant_agree _ _ (Path.read_agree h)).orElse <|
    (variant_agree _ _ (Vbr.read_agree h)).orElse <| (variant_agree _ _ (WaveformPreview.read_agree h)).orElse <|
    (variant_agree _ _ (TinyWaveformPreview.read_agree h)).orElse <|
    (variant_agree _ _ (WaveformDetail.read_agree h)).orElse <|
    (variant_agree _ _ (WaveformColorPreview.read_agree h)).orElse <|
    (variant_agree _ _ (WaveformColorDetail.read_agree h)).orElse <|
    (variant_agree _ _ (Waveform3BandPreview.read_agree h)).orElse <|
    (variant_agree _ _ (Waveform3BandDetail.read_agree h)).orElse <|
    (variant_agree _ _ (SongStructure.read_agree h)).orElse <| variant_agree _ _ (Unknown.read_agree h)

theorem AnlzSection.read_agree : Rd.Agree AnlzSection.read AnlzSection.readWrap :=
  Rd.Agree.bind (Rd.Agree.refl _) fun h => Rd.Agree.bind (Content.read_agree h) fun _ => Rd.Agree.refl _

/-! ## No panics, no way back -/

theorem Header.steady : Steady Header.read := .of_inv Header.np Header.inv

theorem ExtendedCue.steady : Steady ExtendedCue.readWrap := by
  unfold ExtendedCue.readWrap
  repeat' first
    | with_reducible exact Steady.pure _
    | with_reducible exact Steady.u8
    | with_reducible exact Steady.u16be
    | with_reducible exact Steady.u32be
    | with_reducible exact Steady.bytes _
    | with_reducible exact Header.steady
    | with_reducible exact Steady.of_inv CueType.np CueType.inv
    | with_reducible exact Steady.of_inv ColorIndex.np ColorIndex.inv
    | with_reducible exact Steady.of_inv WideString.np WideString.inv
    | with_reducible refine Steady.bind ?_ fun _ => ?_

theorem ExtendedCueList.steady : Steady ExtendedCueList.readWrap :=
  Steady.bind (.of_inv CueListType.np CueListType.inv) fun _ => Steady.bind .u16be fun _ => Steady.bind .u16be fun _ =>
    Steady.bind (.require _ _) fun _ => Steady.bind (ExtendedCue.steady.many _) fun _ => .pure _

theorem Path.steady (h : Header) : Steady (Path.readWrap h) :=
  Steady.bind .u32be fun _ => Steady.bind (.require _ _) fun _ =>
    Steady.bind (.of_inv readWideUnits_np readWideUnits_inv) fun _ => Steady.bind (.require _ _) fun _ =>
    Steady.bind (.require _ _) fun _ => .pure _

theorem Vbr.steady (h : Header) : Steady (Vbr.readWrap h) :=
  Steady.bind .u32be fun _ => Steady.bind (.bytes _) fun _ => .pure _

theorem WaveformPreview.steady (h : Header) : Steady (WaveformPreview.readWrap h) :=
  Steady.bind .u32be fun _ => Steady.bind (.require _ _) fun _ => Steady.bind .u32be fun _ =>
    Steady.bind (Steady.many (.of_inv WaveformPreviewColumn.np WaveformPreviewColumn.inv) _) fun _ => .pure _

theorem TinyWaveformPreview.steady (h : Header) : Steady (TinyWaveformPreview.readWrap h) :=
  Steady.bind .u32be fun _ => Steady.bind (.require _ _) fun _ => Steady.bind .u32be fun _ =>
    Steady.bind (Steady.many (.of_inv TinyWaveformPreviewColumn.np TinyWaveformPreviewColumn.inv) _) fun _ =>
    .pure _

theorem readEntryLens_steady (h : Header) (e : UInt32) : Steady (readEntryLensWrap h e) :=
  Steady.bind .u32be fun _ => Steady.bind (.require _ _) fun _ => Steady.bind .u32be fun _ =>
    Steady.bind (.require _ _) fun _ => .pure _

theorem WaveformDetail.steady (h : Header) : Steady (WaveformDetail.readWrap h) :=
  Steady.bind (readEntryLens_steady _ _) fun _ => Steady.bind .u32be fun _ => Steady.bind (.require _ _) fun _ =>
    Steady.bind (Steady.many (.of_inv WaveformPreviewColumn.np WaveformPreviewColumn.inv) _) fun _ => .pure _

theorem WaveformColorPreview.steady (h : Header) : Steady (WaveformColorPreview.readWrap h) :=
  Steady.bind (readEntryLens_steady _ _) fun _ => Steady.bind .u32be fun _ =>
    Steady.bind (Steady.many (.of_inv WaveformColorPreviewColumn.np WaveformColorPreviewColumn.inv) _) fun _ =>
    .pure _

theorem WaveformColorDetail.steady (h : Header) : Steady (WaveformColorDetail.readWrap h) :=
  Steady.bind (readEntryLens_steady _ _) fun _ => Steady.bind .u32be fun _ =>
    Steady.bind (Steady.many (.of_inv WaveformColorDetailColumn.np WaveformColorDetailColumn.inv) _) fun _ =>
    .pure _

theorem Waveform3BandPreview.steady (h : Header) : Steady (Waveform3BandPreview.readWrap h) :=
  Steady.bind (readEntryLens_steady _ _) fun _ =>
    Steady.bind (Steady.many (.of_inv Waveform3BandPreviewColumn.np Waveform3BandPreviewColumn.inv) _) fun _ =>
    .pure _

theorem Waveform3BandDetail.steady (h : Header) : Steady (Waveform3BandDetail.readWrap h) :=
  Steady.bind (readEntryLens_steady _ _) fun _ => Steady.bind .u32be fun _ => Steady.bind (.require _ _) fun _ =>
    Steady.bind (Steady.many (.of_inv Waveform3BandDetailColumn.np Waveform3BandDetailColumn.inv) _) fun _ =>
    .pure _

theorem SongStructureData.steady (b : Bool) (n : UInt16) : Steady (readEncryptedWrap b n) := by
  have hs : Steady (SongStructureData.read n) := .of_inv (SongStructureData.np n) (SongStructureData.inv n)
  constructor
  · intro d p
    unfold readEncryptedWrap
    split
    · exact hs.1 _ _
    · exact hs.1 _ _
  · intro d p a q h
    unfold readEncryptedWrap at h
    split at h
    · exact hs.2 _ _ _ _ h
    · exact hs.2 _ _ _ _ h

theorem SongStructure.steady (h : Header) : Steady (SongStructure.readWrap h) :=
  Steady.bind .u32be fun _ => Steady.bind (.require _ _) fun _ => Steady.bind .u16be fun _ =>
    Steady.bind (.require _ _) fun _ => Steady.bind (Steady.restore (NP.bind (NP.bytes _) fun m => by
      intro d p hc
      unfold SongStructureData.checkIfEncryptedWrap at hc
      split at hc
      · cases hc
      · cases hc
      · rename_i hm; exact Mood.np _ _ hm)) fun _ =>
    Steady.bind (SongStructureData.steady _ _) fun _ => .pure _

theorem Unknown.steady (h : Header) : Steady (Unknown.readWrap h) :=
  Steady.bind (.bytes _) fun _ => Steady.bind (.bytes _) fun _ => .pure _

theorem variant_steady {α : Type} {r : Rd α} (g : Bool) (f : α → Content) (h : Steady r) :
    Steady (Content.variant g r f) :=
  Steady.bind (.require _ _) fun _ => Steady.bind h fun _ => .pure _

theorem Content.steady (h : Header) : Steady (Content.readWrap h) :=
  (variant_steady _ _ (.of_inv BeatGrid.np BeatGrid.inv)).orElse <|
    (variant_steady _ _ (.of_inv CueList.np CueList.inv)).orElse <|
    (variant_steady _ _ ExtendedCueList.steady).orElse <| (variant_steady _ _ (Path.steady h)).orElse <|
    (variant_steady _ _ (Vbr.steady h)).orElse <| (variant_steady _ _ (WaveformPreview.steady h)).orElse <|
    (variant_steady _ _ (TinyWaveformPreview.steady h)).orElse <|
    (variant_steady _ _ (WaveformDetail.steady h)).orElse <|
    (variant_steady _ _ (WaveformColorPreview.steady h)).orElse <|
    (variant_steady _ _ (WaveformColorDetail.steady h)).orElse <|
    (variant_steady _ _ (Waveform3BandPreview.steady h)).orElse <|
    (variant_steady _ _ (Waveform3BandDetail.steady h)).orElse <|
    (variant_steady _ _ (SongStructure.steady h)).orElse <| variant_steady _ _ (Unknown.steady h)

theorem AnlzSection.readWrap_np : NP AnlzSection.readWrap :=
  NP.bind Header.np fun h => NP.bind (Content.steady h).1 fun _ => NP.pure _

/-- Every section that is read takes at least the 12 bytes of its header. -/
theorem AnlzSection.readWrap_progress {d : Bytes} {p : Nat} {s : AnlzSection} {q : Nat}
    (h : AnlzSection.readWrap d p = .ok (s, q)) : p + 12 ≤ q := by
  obtain ⟨hd, p1, h1, h⟩ := bind_eq_ok.1 h
  obtain ⟨c, p2, h2, h⟩ := bind_eq_ok.1 h
  rw [pure_eq_ok] at h
  obtain ⟨bs, -, rfl, rfl, -⟩ := Header.inv _ _ _ _ h1
  have := (Content.steady hd).2 _ _ _ _ h2
  rw [Header.enc_length] at this
  omega

/-! ## Writing -/

theorem WideString.enc_agree (s : WideString) : Res.Agree s.enc (.ok s.encWrap) := by
  refine Res.Agree.bind_value byteLen_value ?_
  unfold encWrap
  split
  · exact Res.Agree.refl _
  · exact Res.Agree.refl _

theorem Res.Agree.value {α : Type} {x : Res α} {v : α} (h : Res.Agree x (.ok v)) (hn : x ≠ .panic) : x = .ok v :=
  (h hn).symm

theorem ExtendedCue.enc_agree (c : ExtendedCue) : Res.Agree c.enc (.ok c.encWrap) :=
  Res.Agree.bind_value (Res.Agree.value (WideString.enc_agree _)) (Res.Agree.refl _)

theorem encAll_agree {α : Type} {f : α → Res Bytes} {g : α → Bytes} (h : ∀ a, Res.Agree (f a) (.ok (g a)))
    (l : List α) : Res.Agree (encAll f l) (.ok (l.flatMap g)) := by
  induction l with
  | nil => exact Res.Agree.refl _
  | cons a as ih =>
    refine Res.Agree.bind_value (Res.Agree.value (h a)) (Res.Agree.bind_value (Res.Agree.value ih) ?_)
    rw [List.flatMap_cons]
    exact Res.Agree.refl _

theorem ExtendedCueList.enc_agree (c : ExtendedCueList) : Res.Agree c.enc (.ok c.encWrap) :=
  Res.Agree.bind_value (Res.Agree.value (encAll_agree ExtendedCue.enc_agree _)) (Res.Agree.refl _)

theorem Path.enc_agree (c : Path) : Res.Agree c.enc (.ok c.encWrap) :=
  Res.Agree.bind_value Path.lenPath_value (Res.Agree.refl _)

theorem SongStructureData.encEncrypted_agree (c : SongStructureData) (b : Bool) (n : UInt16) :
    Res.Agree (c.encEncrypted b n) (.ok (c.encEncryptedWrap b n)) := by
  unfold encEncrypted encEncryptedWrap
  cases b with
  | false => exact Res.Agree.refl _
  | true => exact Res.Agree.bind_value getKey_value (Res.Agree.refl _)

theorem SongStructure.enc_agree (c : SongStructure) : Res.Agree c.enc (.ok c.encWrap) :=
  Res.Agree.bind_value (Res.Agree.value (SongStructureData.encEncrypted_agree _ _ _)) (Res.Agree.refl _)

theorem Content.enc_agree (c : Content) : Res.Agree c.enc (.ok c.encWrap) := by
  cases c with
  | extendedCueList c => exact c.enc_agree
  | path c => exact c.enc_agree
  | songStructure c => exact c.enc_agree
  | _ => exact Res.Agree.refl _

theorem AnlzSection.enc_agree (s : AnlzSection) : Res.Agree s.enc (.ok s.encWrap) :=
  Res.Agree.bind_value (Res.Agree.value s.content.enc_agree) (Res.Agree.refl _)

end Rekordcrate.Anlz
