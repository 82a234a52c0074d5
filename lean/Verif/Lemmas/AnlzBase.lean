import Verif.Spec.Anlz
import Verif.Lemmas.Header
import Verif.Lemmas.Text
import Verif.Lemmas.Xor

/-! # Lemmas on the parts of analysis sections -/

namespace Rekordcrate.Anlz
open Rd

/-! ## Kinds and headers -/

theorem Kind.enc_length (k : Kind) : k.enc.length = 4 := by cases k <;> rfl

theorem Kind.named_length : ∀ e ∈ Kind.named, e.1.length = 4 := by decide

theorem Kind.rt {k : Kind} (h : k.Proper) : RT Kind.read k.enc k := by
  unfold Kind.read
  by_cases hu : k.isUnknown = true
  · refine RT.orElse_right ?_ ?_
    · intro d p hd
      refine ⟨.noVariant, ?_⟩
      rw [magicEnum_of_hasAt (fun e he => by rw [Kind.named_length e he, Kind.enc_length]) hd]
      have : Kind.named.find? (fun e => e.1 == k.enc) = none := by
        rw [List.find?_eq_none]
        intro e he hc
        exact h hu (List.mem_map.2 ⟨e, he, by simpa using hc⟩)
      rw [this]
    · cases k <;> simp only [Kind.isUnknown, Bool.false_eq_true] at hu
      exact RT.bind (bs := [_]) (RT.u8 _) (RT.bind (bs := [_]) (RT.u8 _) (RT.bind (bs := [_]) (RT.u8 _)
        (RT.bind_pure (bs := [_]) (RT.u8 _))))
  · refine RT.orElse_left (RT.magicEnum (fun e he => by rw [Kind.named_length e he, Kind.enc_length]) ?_)
    cases k <;> first | decide | (simp [Kind.isUnknown] at hu)

theorem Kind.inv : Inv Kind.read (fun k bs => bs = k.enc ∧ k.Proper) := by
  intro d p k q h
  unfold Kind.read Rd.orElse at h
  split at h
  · rename_i r hr
    injection h with h
    subst h
    obtain ⟨bs, hb, hq, hm⟩ := Inv.magicEnum _ _ _ _ _ hr
    have key : ∀ e ∈ Kind.named, e.1 = e.2.enc ∧ e.2.isUnknown = false := by decide
    obtain ⟨h1, h2⟩ := key _ hm
    exact ⟨bs, hb, hq, h1, fun hu => by rw [h2] at hu; cases hu⟩
  · cases h
  · rename_i e he
    obtain ⟨a, q0, h0, h⟩ := bind_eq_ok.1 h
    obtain ⟨b, q1, h1, h⟩ := bind_eq_ok.1 h
    obtain ⟨c, q2, h2, h⟩ := bind_eq_ok.1 h
    obtain ⟨f, q3, h3, h⟩ := bind_eq_ok.1 h
    rw [pure_eq_ok] at h
    obtain ⟨rfl, rfl⟩ := h
    obtain ⟨_, t0, rfl, rfl⟩ := Inv.u8 _ _ _ _ h0
    obtain ⟨_, t1, rfl, rfl⟩ := Inv.u8 _ _ _ _ h1
    obtain ⟨_, t2, rfl, rfl⟩ := Inv.u8 _ _ _ _ h2
    obtain ⟨_, t3, rfl, rfl⟩ := Inv.u8 _ _ _ _ h3
    have hb : HasAt d p [a, b, c, f] := by
      rw [show [a, b, c, f] = encU8 a ++ (encU8 b ++ (encU8 c ++ encU8 f)) from rfl]
      simp only [HasAt.append_iff]
      exact ⟨t0, t1, t2, t3⟩
    refine ⟨_, hb, rfl, rfl, fun _ hm => ?_⟩
    rw [magicEnum_of_hasAt (fun e he => by rw [Kind.named_length e he]; rfl) hb] at he
    obtain ⟨e', he', hee⟩ := List.mem_map.1 hm
    cases hf : Kind.named.find? (fun e => e.1 == [a, b, c, f]) with
    | some x => rw [hf] at he; cases he
    | none =>
      rw [List.find?_eq_none] at hf
      exact hf _ he' (by rw [hee]; simp [Kind.enc])

theorem Kind.np : NP Kind.read :=
  NP.orElse (NP.magicEnum _) (NP.bind NP.u8 fun _ => NP.bind NP.u8 fun _ => NP.bind NP.u8 fun _ =>
    NP.bind NP.u8 fun _ => NP.pure _)

theorem Header.enc_length (h : Header) : h.enc.length = 12 := by
  simp [Header.enc, Kind.enc_length]

theorem Header.rt {h : Header} (hk : h.kind.Proper) : RT Header.read h.enc h :=
  RT.bind (Kind.rt hk) (RT.bind (RT.u32be _) (RT.bind_pure (RT.u32be _)))

theorem Header.inv : Inv Header.read (fun h bs => bs = h.enc ∧ h.kind.Proper) := by
  unfold Header.read
  refine Inv.bind Kind.inv ?_
  rintro k _ ⟨rfl, hk⟩
  refine Inv.bind Inv.u32be ?_
  rintro s _ rfl
  refine Inv.bind Inv.u32be ?_
  rintro t _ rfl
  refine (Inv.pure _).mono ?_
  rintro _ _ ⟨rfl, rfl⟩
  simp [Header.enc, hk]

theorem Header.np : NP Header.read :=
  NP.bind Kind.np fun _ => NP.bind NP.u32be fun _ => NP.bind NP.u32be fun _ => NP.pure _

/-! ## Enums with numbers -/

theorem CueListType.rt (t : CueListType) : RT CueListType.read t.enc t := by
  intro d p h
  unfold CueListType.read
  rw [bind_of_ok (RT.u32be _ d p h)]
  cases t <;> rfl

theorem CueListType.inv : Inv CueListType.read (fun t bs => bs = t.enc) := by
  unfold CueListType.read
  refine Inv.bind Inv.u32be ?_
  rintro v _ rfl
  split
  · rename_i h; subst h
    refine (Inv.pure _).mono ?_
    rintro _ _ ⟨rfl, rfl⟩; simp [CueListType.enc, CueListType.code]
  · split
    · rename_i h; subst h
      refine (Inv.pure _).mono ?_
      rintro _ _ ⟨rfl, rfl⟩; simp [CueListType.enc, CueListType.code]
    · exact Inv.fail _ _

theorem CueListType.np : NP CueListType.read := by
  refine NP.bind NP.u32be fun v => ?_
  repeat' split
  · exact NP.pure _
  · exact NP.pure _
  · exact NP.fail _

theorem CueType.rt (t : CueType) : RT CueType.read t.enc t := by
  intro d p h
  unfold CueType.read
  rw [bind_of_ok (RT.u8 _ d p h)]
  cases t <;> rfl

theorem CueType.inv : Inv CueType.read (fun t bs => bs = t.enc) := by
  unfold CueType.read
  refine Inv.bind Inv.u8 ?_
  rintro v _ rfl
  split
  · rename_i h; subst h
    refine (Inv.pure _).mono ?_
    rintro _ _ ⟨rfl, rfl⟩; simp [CueType.enc, CueType.code]
  · split
    · rename_i h; subst h
      refine (Inv.pure _).mono ?_
      rintro _ _ ⟨rfl, rfl⟩; simp [CueType.enc, CueType.code]
    · exact Inv.fail _ _

theorem CueType.np : NP CueType.read := by
  refine NP.bind NP.u8 fun v => ?_
  repeat' split
  · exact NP.pure _
  · exact NP.pure _
  · exact NP.fail _

theorem Mood.rt (t : Mood) : RT Mood.read t.enc t := by
  intro d p h
  unfold Mood.read
  rw [bind_of_ok (RT.u16be _ d p h)]
  cases t <;> rfl

theorem Mood.inv : Inv Mood.read (fun t bs => bs = t.enc) := by
  unfold Mood.read
  refine Inv.bind Inv.u16be ?_
  rintro v _ rfl
  split
  · rename_i h; subst h
    refine (Inv.pure _).mono ?_
    rintro _ _ ⟨rfl, rfl⟩; simp [Mood.enc, Mood.code]
  · split
    · rename_i h; subst h
      refine (Inv.pure _).mono ?_
      rintro _ _ ⟨rfl, rfl⟩; simp [Mood.enc, Mood.code]
    · split
      · rename_i h; subst h
        refine (Inv.pure _).mono ?_
        rintro _ _ ⟨rfl, rfl⟩; simp [Mood.enc, Mood.code]
      · exact Inv.fail _ _

theorem Mood.np : NP Mood.read := by
  refine NP.bind NP.u16be fun v => ?_
  repeat' split
  · exact NP.pure _
  · exact NP.pure _
  · exact NP.pure _
  · exact NP.fail _

theorem Bank.rt (t : Bank) : RT Bank.read t.enc t := by
  intro d p h
  unfold Bank.read
  rw [bind_of_ok (RT.u8 _ d p h)]
  cases t <;> rfl

theorem Bank.inv : Inv Bank.read (fun t bs => bs = t.enc) := by
  unfold Bank.read
  refine Inv.bind Inv.u8 ?_
  rintro v _ rfl
  split
  · rename_i b hb
    have := List.find?_some hb
    refine (Inv.pure _).mono ?_
    rintro _ _ ⟨rfl, rfl⟩
    simp only [decide_eq_true_eq] at this
    simp [Bank.enc, this]
  · exact Inv.fail _ _

theorem Bank.np : NP Bank.read := by
  refine NP.bind NP.u8 fun v => ?_
  split
  · exact NP.pure _
  · exact NP.fail _

@[simp] theorem CueListType.enc_length (t : CueListType) : t.enc.length = 4 := by simp [CueListType.enc]
@[simp] theorem CueType.enc_length (t : CueType) : t.enc.length = 1 := by simp [CueType.enc]
@[simp] theorem Mood.enc_length (t : Mood) : t.enc.length = 2 := by simp [Mood.enc]
@[simp] theorem Bank.enc_length (t : Bank) : t.enc.length = 1 := by simp [Bank.enc]
attribute [simp] Kind.enc_length Header.enc_length

/-! ## Fixed records -/

/-- Closes round trips of the fixed parts. -/
macro "rt_prim" : tactic => `(tactic| first
  | with_reducible exact RT.u32be _
  | with_reducible exact RT.u16be _
  | with_reducible exact RT.u8 _
  | with_reducible exact CueType.rt _
  | with_reducible exact CueListType.rt _
  | with_reducible exact Mood.rt _
  | with_reducible exact Bank.rt _
  | with_reducible exact ColorIndex.rt _)

macro "rt_run" : tactic => `(tactic|
  repeat (first | refine RT.bind (by rt_prim) ?_ | exact RT.bind_pure (by rt_prim)))

macro "inv_prim" : tactic => `(tactic| first
  | with_reducible exact Inv.u32be
  | with_reducible exact Inv.u16be
  | with_reducible exact Inv.u8
  | with_reducible exact CueType.inv
  | with_reducible exact CueListType.inv
  | with_reducible exact Mood.inv
  | with_reducible exact Bank.inv
  | with_reducible exact ColorIndex.inv)

macro "inv_run" : tactic => `(tactic|
  (repeat (refine Inv.bind (by inv_prim) ?_; intro _ _ h; subst h)))

macro "np_run" : tactic => `(tactic|
  repeat (first
    | exact NP.pure _
    | refine NP.bind NP.u32be fun _ => ?_
    | refine NP.bind NP.u16be fun _ => ?_
    | refine NP.bind NP.u8 fun _ => ?_
    | refine NP.bind CueType.np fun _ => ?_
    | refine NP.bind CueListType.np fun _ => ?_
    | refine NP.bind Mood.np fun _ => ?_
    | refine NP.bind Bank.np fun _ => ?_
    | refine NP.bind Header.np fun _ => ?_
    | refine NP.bind ColorIndex.np fun _ => ?_))

theorem Beat.rt (b : Beat) : RT Beat.read b.enc b := by
  unfold Beat.read Beat.enc
  rt_run

theorem Beat.inv : Inv Beat.read (fun b bs => bs = b.enc) := by
  unfold Beat.read
  inv_run
  refine (Inv.pure _).mono ?_
  rintro _ _ ⟨rfl, rfl⟩
  simp [Beat.enc]

theorem Beat.np : NP Beat.read := by
  unfold Beat.read
  np_run

@[simp] theorem Beat.enc_length (b : Beat) : b.enc.length = 8 := by simp [Beat.enc]

theorem Cue.rt {c : Cue} (h : c.header.kind.Proper) : RT Cue.read c.enc c := by
  unfold Cue.read Cue.enc
  refine RT.bind (Header.rt h) ?_
  rt_run

theorem Cue.inv : Inv Cue.read (fun c bs => bs = c.enc ∧ c.header.kind.Proper) := by
  unfold Cue.read
  refine Inv.bind Header.inv ?_
  rintro h _ ⟨rfl, hk⟩
  inv_run
  refine (Inv.pure _).mono ?_
  rintro _ _ ⟨rfl, rfl⟩
  simp [Cue.enc, hk]

theorem Cue.np : NP Cue.read := by
  unfold Cue.read
  np_run

@[simp] theorem Cue.enc_length (c : Cue) : c.enc.length = 56 := by simp [Cue.enc]

theorem WaveformColorPreviewColumn.rt (c : WaveformColorPreviewColumn) :
    RT WaveformColorPreviewColumn.read c.enc c := by
  unfold WaveformColorPreviewColumn.read WaveformColorPreviewColumn.enc
  rt_run

theorem WaveformColorPreviewColumn.inv : Inv WaveformColorPreviewColumn.read (fun c bs => bs = c.enc) := by
  unfold WaveformColorPreviewColumn.read
  inv_run
  refine (Inv.pure _).mono ?_
  rintro _ _ ⟨rfl, rfl⟩
  simp [WaveformColorPreviewColumn.enc]

theorem WaveformColorPreviewColumn.np : NP WaveformColorPreviewColumn.read := by
  unfold WaveformColorPreviewColumn.read
  np_run

@[simp] theorem WaveformColorPreviewColumn.enc_length (c : WaveformColorPreviewColumn) : c.enc.length = 6 := by
  simp [WaveformColorPreviewColumn.enc]

theorem Waveform3BandPreviewColumn.rt (c : Waveform3BandPreviewColumn) :
    RT Waveform3BandPreviewColumn.read c.enc c := by
  unfold Waveform3BandPreviewColumn.read Waveform3BandPreviewColumn.enc
  rt_run

theorem Waveform3BandPreviewColumn.inv : Inv Waveform3BandPreviewColumn.read (fun c bs => bs = c.enc) := by
  unfold Waveform3BandPreviewColumn.read
  inv_run
  refine (Inv.pure _).mono ?_
  rintro _ _ ⟨rfl, rfl⟩
  simp [Waveform3BandPreviewColumn.enc]

theorem Waveform3BandPreviewColumn.np : NP Waveform3BandPreviewColumn.read := by
  unfold Waveform3BandPreviewColumn.read
  np_run

@[simp] theorem Waveform3BandPreviewColumn.enc_length (c : Waveform3BandPreviewColumn) : c.enc.length = 3 := by
  simp [Waveform3BandPreviewColumn.enc]

theorem Waveform3BandDetailColumn.rt (c : Waveform3BandDetailColumn) :
    RT Waveform3BandDetailColumn.read c.enc c := by
  unfold Waveform3BandDetailColumn.read Waveform3BandDetailColumn.enc
  rt_run

theorem Waveform3BandDetailColumn.inv : Inv Waveform3BandDetailColumn.read (fun c bs => bs = c.enc) := by
  unfold Waveform3BandDetailColumn.read
  inv_run
  refine (Inv.pure _).mono ?_
  rintro _ _ ⟨rfl, rfl⟩
  simp [Waveform3BandDetailColumn.enc]

theorem Waveform3BandDetailColumn.np : NP Waveform3BandDetailColumn.read := by
  unfold Waveform3BandDetailColumn.read
  np_run

@[simp] theorem Waveform3BandDetailColumn.enc_length (c : Waveform3BandDetailColumn) : c.enc.length = 3 := by
  simp [Waveform3BandDetailColumn.enc]

theorem Phrase.rt (c : Phrase) : RT Phrase.read c.enc c := by
  unfold Phrase.read Phrase.enc
  rt_run

theorem Phrase.inv : Inv Phrase.read (fun c bs => bs = c.enc) := by
  unfold Phrase.read
  inv_run
  refine (Inv.pure _).mono ?_
  rintro _ _ ⟨rfl, rfl⟩
  simp [Phrase.enc]

theorem Phrase.np : NP Phrase.read := by
  unfold Phrase.read
  np_run

@[simp] theorem Phrase.enc_length (c : Phrase) : c.enc.length = 24 := by simp [Phrase.enc]

/-! ## Bit fields -/

theorem WaveformPreviewColumn.enc_length (c : WaveformPreviewColumn) : c.enc.length = 1 := by
  simp [WaveformPreviewColumn.enc]

theorem WaveformPreviewColumn.rt (c : WaveformPreviewColumn) : RT WaveformPreviewColumn.read c.enc c := by
  intro d p h
  unfold WaveformPreviewColumn.read
  rw [bind_of_ok (RT.bytes' (c.enc_length) d p h)]
  have h1 := c.height.isLt
  have h2 := c.whiteness.isLt
  have key : ofRaw (leDec c.enc) = c := by
    unfold WaveformPreviewColumn.enc
    rw [leDec_leEnc]
    have hp : packLSB [(5, c.height.val), (3, c.whiteness.val)] < 256 := by
      simp only [packLSB]; omega
    rw [Nat.mod_eq_of_lt (by simpa using hp)]
    have := unpackLSB_packLSB [(5, c.height.val), (3, c.whiteness.val)] (by simp)
    simp only [List.map_cons, List.map_nil] at this
    unfold ofRaw
    rw [this]
    simp only
    obtain ⟨a, b⟩ := c
    congr 1
    · exact Fin.ext (Nat.mod_eq_of_lt h1)
    · exact Fin.ext (Nat.mod_eq_of_lt h2)
  rw [key, pure_def]

theorem WaveformPreviewColumn.inv : Inv WaveformPreviewColumn.read (fun c bs => bs = c.enc) := by
  unfold WaveformPreviewColumn.read
  refine Inv.bind (Inv.bytes 1) ?_
  rintro _ bs ⟨rfl, hl⟩
  refine (Inv.pure _).mono ?_
  rintro _ _ ⟨rfl, rfl⟩
  rw [List.append_nil]
  have hlt := leDec_lt bs
  have he := leEnc_leDec bs
  rw [hl] at hlt he
  unfold WaveformPreviewColumn.enc
  conv => lhs; rw [← he]
  congr 1
  simp only [WaveformPreviewColumn.ofRaw, unpackLSB, packLSB, Fin.ofNat]
  omega

theorem WaveformPreviewColumn.np : NP WaveformPreviewColumn.read := NP.bind (NP.bytes 1) fun _ => NP.pure _

theorem TinyWaveformPreviewColumn.enc_length (c : TinyWaveformPreviewColumn) : c.enc.length = 1 := by
  simp [TinyWaveformPreviewColumn.enc]

theorem TinyWaveformPreviewColumn.rt (c : TinyWaveformPreviewColumn) :
    RT TinyWaveformPreviewColumn.read c.enc c := by
  intro d p h
  unfold TinyWaveformPreviewColumn.read
  rw [bind_of_ok (RT.bytes' (c.enc_length) d p h)]
  have h1 := c.unused.isLt
  have h2 := c.height.isLt
  have key : ofRaw (leDec c.enc) = c := by
    unfold TinyWaveformPreviewColumn.enc
    rw [leDec_leEnc]
    have hp : packLSB [(4, c.unused.val), (4, c.height.val)] < 256 := by
      simp only [packLSB]; omega
    rw [Nat.mod_eq_of_lt (by simpa using hp)]
    have := unpackLSB_packLSB [(4, c.unused.val), (4, c.height.val)] (by simp)
    simp only [List.map_cons, List.map_nil] at this
    unfold ofRaw
    rw [this]
    simp only
    obtain ⟨a, b⟩ := c
    congr 1
    · exact Fin.ext (Nat.mod_eq_of_lt h1)
    · exact Fin.ext (Nat.mod_eq_of_lt h2)
  rw [key, pure_def]

theorem TinyWaveformPreviewColumn.inv : Inv TinyWaveformPreviewColumn.read (fun c bs => bs = c.enc) := by
  unfold TinyWaveformPreviewColumn.read
  refine Inv.bind (Inv.bytes 1) ?_
  rintro _ bs ⟨rfl, hl⟩
  refine (Inv.pure _).mono ?_
  rintro _ _ ⟨rfl, rfl⟩
  rw [List.append_nil]
  have hlt := leDec_lt bs
  have he := leEnc_leDec bs
  rw [hl] at hlt he
  unfold TinyWaveformPreviewColumn.enc
  conv => lhs; rw [← he]
  congr 1
  simp only [TinyWaveformPreviewColumn.ofRaw, unpackLSB, packLSB, Fin.ofNat]
  omega

theorem TinyWaveformPreviewColumn.np : NP TinyWaveformPreviewColumn.read :=
  NP.bind (NP.bytes 1) fun _ => NP.pure _

theorem WaveformColorDetailColumn.enc_length (c : WaveformColorDetailColumn) : c.enc.length = 2 := by
  simp [WaveformColorDetailColumn.enc]

theorem WaveformColorDetailColumn.rt (c : WaveformColorDetailColumn) :
    RT WaveformColorDetailColumn.read c.enc c := by
  intro d p h
  unfold WaveformColorDetailColumn.read
  rw [bind_of_ok (RT.bytes' (c.enc_length) d p h)]
  have h1 := c.red.isLt
  have h2 := c.green.isLt
  have h3 := c.blue.isLt
  have h4 := c.height.isLt
  have h5 := c.unknown.isLt
  have key : ofRaw (leDec c.enc) = c := by
    unfold WaveformColorDetailColumn.enc
    rw [leDec_leEnc]
    have hp : packLSB [(3, c.red.val), (3, c.green.val), (3, c.blue.val), (5, c.height.val), (2, c.unknown.val)]
        < 65536 := by
      simp only [packLSB]; omega
    rw [Nat.mod_eq_of_lt (by simpa using hp)]
    have := unpackLSB_packLSB
      [(3, c.red.val), (3, c.green.val), (3, c.blue.val), (5, c.height.val), (2, c.unknown.val)] (by simp)
    simp only [List.map_cons, List.map_nil] at this
    unfold ofRaw
    rw [this]
    simp only
    obtain ⟨a, b, x, y, z⟩ := c
    congr 1
    · exact Fin.ext (Nat.mod_eq_of_lt h1)
    · exact Fin.ext (Nat.mod_eq_of_lt h2)
    · exact Fin.ext (Nat.mod_eq_of_lt h3)
    · exact Fin.ext (Nat.mod_eq_of_lt h4)
    · exact Fin.ext (Nat.mod_eq_of_lt h5)
  rw [key, pure_def]

theorem WaveformColorDetailColumn.inv : Inv WaveformColorDetailColumn.read (fun c bs => bs = c.enc) := by
  unfold WaveformColorDetailColumn.read
  refine Inv.bind (Inv.bytes 2) ?_
  rintro _ bs ⟨rfl, hl⟩
  refine (Inv.pure _).mono ?_
  rintro _ _ ⟨rfl, rfl⟩
  rw [List.append_nil]
  have hlt := leDec_lt bs
  have he := leEnc_leDec bs
  rw [hl] at hlt he
  unfold WaveformColorDetailColumn.enc
  conv => lhs; rw [← he]
  congr 1
  simp only [WaveformColorDetailColumn.ofRaw, unpackLSB, packLSB, Fin.ofNat]
  omega

theorem WaveformColorDetailColumn.np : NP WaveformColorDetailColumn.read :=
  NP.bind (NP.bytes 2) fun _ => NP.pure _

attribute [simp] WaveformPreviewColumn.enc_length TinyWaveformPreviewColumn.enc_length
  WaveformColorDetailColumn.enc_length

end Rekordcrate.Anlz
