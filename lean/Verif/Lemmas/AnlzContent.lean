import Verif.Lemmas.Anlz

/-! # Lemmas on the waveform, song structure and unknown sections, and on sections -/

namespace Rekordcrate.Anlz
open Rd

/-! ## VBR and unknown data -/

theorem Vbr.rt {h : Header} {c : Vbr} (hs : h.totalSize.toNat = h.size.toNat + c.unknown2.length) :
    RT (Vbr.read h) c.enc c := by
  unfold Vbr.read Vbr.enc
  rt_run
  exact RT.compute (Header.contentSize_eq.2 hs) (RT.bind_pure (RT.bytes _))

theorem Vbr.inv (h : Header) : Inv (Vbr.read h) (fun c bs => bs = c.enc ∧
    h.totalSize.toNat = h.size.toNat + c.unknown2.length) := by
  unfold Vbr.read
  refine Inv.bind Inv.u32be ?_
  rintro a _ rfl
  refine Inv.compute fun n hn => ?_
  refine Inv.bind (Inv.bytes _) ?_
  rintro _ bs ⟨rfl, hl⟩
  refine (Inv.pure _).mono ?_
  rintro _ _ ⟨rfl, rfl⟩
  have := Header.contentSize_eq.1 hn
  refine ⟨by simp [Vbr.enc], by simp only; omega⟩

theorem Unknown.rt {h : Header} {c : Unknown} (h1 : h.size.toNat = 12 + c.headerData.length)
    (h2 : h.totalSize.toNat = h.size.toNat + c.contentData.length) : RT (Unknown.read h) c.enc c := by
  unfold Unknown.read Unknown.enc
  refine RT.compute (Header.remainingSize_eq.2 h1) (RT.bind (RT.bytes _) ?_)
  exact RT.compute (Header.contentSize_eq.2 h2) (RT.bind_pure (RT.bytes _))

theorem Unknown.inv (h : Header) : Inv (Unknown.read h) (fun c bs => bs = c.enc ∧
    h.size.toNat = 12 + c.headerData.length ∧ h.totalSize.toNat = h.size.toNat + c.contentData.length) := by
  unfold Unknown.read
  refine Inv.compute fun m hm => ?_
  refine Inv.bind (Inv.bytes _) ?_
  rintro _ as ⟨rfl, hl'⟩
  refine Inv.compute fun n hn => ?_
  refine Inv.bind (Inv.bytes _) ?_
  rintro _ bs ⟨rfl, hl⟩
  refine (Inv.pure _).mono ?_
  rintro _ _ ⟨rfl, rfl⟩
  have := Header.contentSize_eq.1 hn
  have := Header.remainingSize_eq.1 hm
  refine ⟨by simp [Unknown.enc], by simp only; omega, by simp only; omega⟩

/-! ## Waveforms -/

theorem WaveformPreview.rt {h : Header} {c : WaveformPreview}
    (hs : h.totalSize.toNat = h.size.toNat + c.data.length) : RT (WaveformPreview.read h) c.enc c := by
  have hlt : c.data.length < 2 ^ 32 := by have := h.totalSize.toNat_lt; omega
  unfold WaveformPreview.read WaveformPreview.enc
  refine RT.bind (RT.u32be _) ?_
  refine RT.compute (Header.contentSize_eq.2 hs) (RT.check (by rw [toNat_ofNat32 hlt]; exact beq_self_eq_true _) ?_)
  exact RT.bind (RT.u32be _) (RT.bind_pure (RT.many' (toNat_ofNat32 hlt).symm fun a _ => a.rt))

theorem WaveformPreview.inv (h : Header) : Inv (WaveformPreview.read h) (fun c bs => bs = c.enc ∧
    h.totalSize.toNat = h.size.toNat + c.data.length) := by
  unfold WaveformPreview.read
  refine Inv.bind Inv.u32be ?_
  rintro len _ rfl
  refine Inv.compute fun n hn => Inv.check fun hc => ?_
  refine Inv.bind Inv.u32be ?_
  rintro u _ rfl
  refine Inv.bind (Inv.many WaveformPreviewColumn.inv WaveformPreviewColumn.enc (fun _ _ h => h) _) ?_
  rintro bs _ ⟨rfl, hl⟩
  refine (Inv.pure _).mono ?_
  rintro _ _ ⟨rfl, rfl⟩
  have := Header.contentSize_eq.1 hn
  simp only [beq_iff_eq] at hc
  refine ⟨by simp [WaveformPreview.enc, hl], by simp only; omega⟩

theorem TinyWaveformPreview.rt {h : Header} {c : TinyWaveformPreview}
    (hs : h.totalSize.toNat = h.size.toNat + c.data.length) : RT (TinyWaveformPreview.read h) c.enc c := by
  have hlt : c.data.length < 2 ^ 32 := by have := h.totalSize.toNat_lt; omega
  unfold TinyWaveformPreview.read TinyWaveformPreview.enc
  refine RT.bind (RT.u32be _) ?_
  refine RT.compute (Header.contentSize_eq.2 hs) (RT.check (by rw [toNat_ofNat32 hlt]; exact beq_self_eq_true _) ?_)
  exact RT.bind (RT.u32be _) (RT.bind_pure (RT.many' (toNat_ofNat32 hlt).symm fun a _ => a.rt))

theorem TinyWaveformPreview.inv (h : Header) : Inv (TinyWaveformPreview.read h) (fun c bs => bs = c.enc ∧
    h.totalSize.toNat = h.size.toNat + c.data.length) := by
  unfold TinyWaveformPreview.read
  refine Inv.bind Inv.u32be ?_
  rintro len _ rfl
  refine Inv.compute fun n hn => Inv.check fun hc => ?_
  refine Inv.bind Inv.u32be ?_
  rintro u _ rfl
  refine Inv.bind (Inv.many TinyWaveformPreviewColumn.inv TinyWaveformPreviewColumn.enc (fun _ _ h => h) _) ?_
  rintro bs _ ⟨rfl, hl⟩
  refine (Inv.pure _).mono ?_
  rintro _ _ ⟨rfl, rfl⟩
  have := Header.contentSize_eq.1 hn
  simp only [beq_iff_eq] at hc
  refine ⟨by simp [TinyWaveformPreview.enc, hl], by simp only; omega⟩

theorem readEntryLens_rt {h : Header} {e : UInt32} {n : Nat} (hn : n < 2 ^ 32)
    (hs : h.totalSize.toNat = h.size.toNat + e.toNat * n) :
    RT (readEntryLens h e) (encU32be e ++ encU32be (UInt32.ofNat n)) (UInt32.ofNat n) := by
  have hlt : e.toNat * n < 2 ^ 32 := by have := h.totalSize.toNat_lt; omega
  unfold readEntryLens
  refine RT.bind (RT.u32be _) (RT.check (beq_self_eq_true _) ?_)
  refine RT.congr_bytes (RT.bind (RT.u32be _) ?_) (List.append_nil _)
  refine RT.compute (b := e.toNat * n) ?_ ?_
  · rw [toNat_ofNat32 hn, mulU32, if_pos hlt]
  · exact RT.compute (Header.contentSize_eq.2 hs) (RT.check (beq_self_eq_true _) (RT.pure _))

theorem readEntryLens_inv (h : Header) (e : UInt32) : Inv (readEntryLens h e) (fun n bs =>
    bs = encU32be e ++ encU32be n ∧ h.totalSize.toNat = h.size.toNat + e.toNat * n.toNat) := by
  unfold readEntryLens
  refine Inv.bind Inv.u32be ?_
  rintro a _ rfl
  refine Inv.check fun ha => ?_
  refine Inv.bind Inv.u32be ?_
  rintro n _ rfl
  refine Inv.compute fun m hm => Inv.compute fun k hk => Inv.check fun hc => ?_
  refine (Inv.pure _).mono ?_
  rintro _ _ ⟨rfl, rfl⟩
  simp only [beq_iff_eq] at ha hc
  subst ha
  unfold mulU32 at hm
  split at hm
  · injection hm with hm
    have := Header.contentSize_eq.1 hk
    refine ⟨by simp, by omega⟩
  · cases hm

/-- Round trip of a section with entries: the two lengths, `mid` and the entries. -/
theorem entries_rt {α γ : Type} {h : Header} {e : UInt32} {r : Rd γ} {enc : γ → Bytes} {data : List γ}
    {k : UInt32 → Rd α} {rest : Bytes} {a : α} (he : e.toNat ≠ 0)
    (hs : h.totalSize.toNat = h.size.toNat + e.toNat * data.length)
    (hk : data.length < 2 ^ 32 → RT (k (UInt32.ofNat data.length)) rest a) :
    RT (readEntryLens h e >>= k) (encU32be e ++ (encU32be (UInt32.ofNat data.length) ++ rest)) a := by
  have hlt : data.length < 2 ^ 32 := by
    have := h.totalSize.toNat_lt
    have : data.length ≤ e.toNat * data.length := Nat.le_mul_of_pos_left _ (by omega)
    omega
  rw [← List.append_assoc]
  exact RT.bind (readEntryLens_rt hlt hs) (hk hlt)

theorem WaveformDetail.rt {h : Header} {c : WaveformDetail} (hu : c.unknown = 0x00960000)
    (hs : h.totalSize.toNat = h.size.toNat + c.data.length) : RT (WaveformDetail.read h) c.enc c := by
  unfold WaveformDetail.read WaveformDetail.enc
  refine entries_rt (r := WaveformPreviewColumn.read) (enc := WaveformPreviewColumn.enc) (by decide)
    (by rw [hs]; simp) fun hlt => ?_
  refine RT.bind (RT.u32be _) (RT.check (by rw [hu]; rfl) ?_)
  exact RT.bind_pure (RT.many' (toNat_ofNat32 hlt).symm fun a _ => a.rt)

theorem WaveformDetail.inv (h : Header) : Inv (WaveformDetail.read h) (fun c bs => bs = c.enc ∧
    c.unknown = 0x00960000 ∧ h.totalSize.toNat = h.size.toNat + c.data.length) := by
  unfold WaveformDetail.read
  refine Inv.bind (readEntryLens_inv _ _) ?_
  rintro len _ ⟨rfl, hs⟩
  refine Inv.bind Inv.u32be ?_
  rintro u _ rfl
  refine Inv.check fun hu => ?_
  refine Inv.bind (Inv.many WaveformPreviewColumn.inv WaveformPreviewColumn.enc (fun _ _ h => h) _) ?_
  rintro bs _ ⟨rfl, hl⟩
  refine (Inv.pure _).mono ?_
  rintro _ _ ⟨rfl, rfl⟩
  simp only [beq_iff_eq] at hu
  refine ⟨by simp [WaveformDetail.enc, hl], hu, ?_⟩
  rw [hs, ← hl]; simp

theorem WaveformColorPreview.rt {h : Header} {c : WaveformColorPreview}
    (hs : h.totalSize.toNat = h.size.toNat + 6 * c.data.length) : RT (WaveformColorPreview.read h) c.enc c := by
  unfold WaveformColorPreview.read WaveformColorPreview.enc
  refine entries_rt (r := WaveformColorPreviewColumn.read) (enc := WaveformColorPreviewColumn.enc) (by decide)
    (by rw [hs]; rfl) fun hlt => ?_
  exact RT.bind (RT.u32be _) (RT.bind_pure (RT.many' (toNat_ofNat32 hlt).symm fun a _ => a.rt))

theorem WaveformColorPreview.inv (h : Header) : Inv (WaveformColorPreview.read h) (fun c bs => bs = c.enc ∧
    h.totalSize.toNat = h.size.toNat + 6 * c.data.length) := by
  unfold WaveformColorPreview.read
  refine Inv.bind (readEntryLens_inv _ _) ?_
  rintro len _ ⟨rfl, hs⟩
  refine Inv.bind Inv.u32be ?_
  rintro u _ rfl
  refine Inv.bind (Inv.many WaveformColorPreviewColumn.inv WaveformColorPreviewColumn.enc (fun _ _ h => h) _) ?_
  rintro bs _ ⟨rfl, hl⟩
  refine (Inv.pure _).mono ?_
  rintro _ _ ⟨rfl, rfl⟩
  refine ⟨by simp [WaveformColorPreview.enc, hl], ?_⟩
  rw [hs, ← hl]; rfl

theorem WaveformColorDetail.rt {h : Header} {c : WaveformColorDetail}
    (hs : h.totalSize.toNat = h.size.toNat + 2 * c.data.length) : RT (WaveformColorDetail.read h) c.enc c := by
  unfold WaveformColorDetail.read WaveformColorDetail.enc
  refine entries_rt (r := WaveformColorDetailColumn.read) (enc := WaveformColorDetailColumn.enc) (by decide)
    (by rw [hs]; rfl) fun hlt => ?_
  exact RT.bind (RT.u32be _) (RT.bind_pure (RT.many' (toNat_ofNat32 hlt).symm fun a _ => a.rt))

theorem WaveformColorDetail.inv (h : Header) : Inv (WaveformColorDetail.read h) (fun c bs => bs = c.enc ∧
    h.totalSize.toNat = h.size.toNat + 2 * c.data.length) := by
  unfold WaveformColorDetail.read
  refine Inv.bind (readEntryLens_inv _ _) ?_
  rintro len _ ⟨rfl, hs⟩
  refine Inv.bind Inv.u32be ?_
  rintro u _ rfl
  refine Inv.bind (Inv.many WaveformColorDetailColumn.inv WaveformColorDetailColumn.enc (fun _ _ h => h) _) ?_
  rintro bs _ ⟨rfl, hl⟩
  refine (Inv.pure _).mono ?_
  rintro _ _ ⟨rfl, rfl⟩
  refine ⟨by simp [WaveformColorDetail.enc, hl], ?_⟩
  rw [hs, ← hl]; rfl

theorem Waveform3BandPreview.rt {h : Header} {c : Waveform3BandPreview}
    (hs : h.totalSize.toNat = h.size.toNat + 3 * c.data.length) : RT (Waveform3BandPreview.read h) c.enc c := by
  unfold Waveform3BandPreview.read Waveform3BandPreview.enc
  refine entries_rt (r := Waveform3BandPreviewColumn.read) (enc := Waveform3BandPreviewColumn.enc) (by decide)
    (by rw [hs]; rfl) fun hlt => ?_
  exact RT.bind_pure (RT.many' (toNat_ofNat32 hlt).symm fun a _ => a.rt)

theorem Waveform3BandPreview.inv (h : Header) : Inv (Waveform3BandPreview.read h) (fun c bs => bs = c.enc ∧
    h.totalSize.toNat = h.size.toNat + 3 * c.data.length) := by
  unfold Waveform3BandPreview.read
  refine Inv.bind (readEntryLens_inv _ _) ?_
  rintro len _ ⟨rfl, hs⟩
  refine Inv.bind (Inv.many Waveform3BandPreviewColumn.inv Waveform3BandPreviewColumn.enc (fun _ _ h => h) _) ?_
  rintro bs _ ⟨rfl, hl⟩
  refine (Inv.pure _).mono ?_
  rintro _ _ ⟨rfl, rfl⟩
  refine ⟨by simp [Waveform3BandPreview.enc, hl], ?_⟩
  rw [hs, ← hl]; rfl

theorem Waveform3BandDetail.rt {h : Header} {c : Waveform3BandDetail} (hu : c.unknown = 0x00960000)
    (hs : h.totalSize.toNat = h.size.toNat + 3 * c.data.length) : RT (Waveform3BandDetail.read h) c.enc c := by
  unfold Waveform3BandDetail.read Waveform3BandDetail.enc
  refine entries_rt (r := Waveform3BandDetailColumn.read) (enc := Waveform3BandDetailColumn.enc) (by decide)
    (by rw [hs]; rfl) fun hlt => ?_
  refine RT.bind (RT.u32be _) (RT.check (by rw [hu]; rfl) ?_)
  exact RT.bind_pure (RT.many' (toNat_ofNat32 hlt).symm fun a _ => a.rt)

theorem Waveform3BandDetail.inv (h : Header) : Inv (Waveform3BandDetail.read h) (fun c bs => bs = c.enc ∧
    c.unknown = 0x00960000 ∧ h.totalSize.toNat = h.size.toNat + 3 * c.data.length) := by
  unfold Waveform3BandDetail.read
  refine Inv.bind (readEntryLens_inv _ _) ?_
  rintro len _ ⟨rfl, hs⟩
  refine Inv.bind Inv.u32be ?_
  rintro u _ rfl
  refine Inv.check fun hu => ?_
  refine Inv.bind (Inv.many Waveform3BandDetailColumn.inv Waveform3BandDetailColumn.enc (fun _ _ h => h) _) ?_
  rintro bs _ ⟨rfl, hl⟩
  refine (Inv.pure _).mono ?_
  rintro _ _ ⟨rfl, rfl⟩
  simp only [beq_iff_eq] at hu
  refine ⟨by simp [Waveform3BandDetail.enc, hl], hu, ?_⟩
  rw [hs, ← hl]; rfl

/-! ## Song structure -/

theorem SongStructureData.rt {c : SongStructureData} {n : UInt16} (h : c.phrases.length = n.toNat) :
    RT (SongStructureData.read n) c.enc c := by
  unfold SongStructureData.read SongStructureData.enc
  rt_run
  exact RT.bind_pure (RT.many' h fun a _ => a.rt)

theorem SongStructureData.inv (n : UInt16) : Inv (SongStructureData.read n) (fun c bs => bs = c.enc ∧
    c.phrases.length = n.toNat) := by
  unfold SongStructureData.read
  inv_run
  refine Inv.bind (Inv.many Phrase.inv Phrase.enc (fun _ _ h => h) _) ?_
  rintro bs _ ⟨rfl, hl⟩
  refine (Inv.pure _).mono ?_
  rintro _ _ ⟨rfl, rfl⟩
  simp [SongStructureData.enc, hl]

theorem SongStructureData.np (n : UInt16) : NP (SongStructureData.read n) := by
  unfold SongStructureData.read
  np_run
  exact NP.bind (NP.many Phrase.np _) fun _ => NP.pure _

theorem SongStructureData.enc_length (c : SongStructureData) : c.enc.length = 14 + 24 * c.phrases.length := by
  have := flatMap_length_const Phrase.enc_length c.phrases
  simp only [SongStructureData.enc, List.length_append, this, Mood.enc_length, Bank.enc_length, encU32be_length,
    encU16be_length, encU8_length]
  omega

theorem getKey_ok {n : UInt16} {xs : Bytes} (h : ∀ x ∈ xs, x.toNat + n.toNat < 65536) :
    SongStructureData.getKey n xs = .ok (xs.map fun x => UInt8.ofNat (x.toNat + n.toNat)) := by
  induction xs with
  | nil => rfl
  | cons x xs ih =>
    unfold SongStructureData.getKey SongStructureData.keyByteOf addU16
    rw [if_pos (by simpa using h x (by simp)), ih fun y hy => h y (by simp [hy])]
    simp only [Res.ok_bind, List.map_cons, Res.ok.injEq, List.cons.injEq, and_true]
    apply UInt8.toNat_inj.1
    simp [UInt8.toNat_ofNat']

theorem getKey_eq_ok {n : UInt16} {xs ks : Bytes} (h : SongStructureData.getKey n xs = .ok ks) :
    ∀ x ∈ xs, x.toNat + n.toNat < 65536 := by
  induction xs generalizing ks with
  | nil => simp
  | cons x xs ih =>
    unfold SongStructureData.getKey at h
    obtain ⟨a, ha, h⟩ := Res.bind_eq_ok.1 h
    obtain ⟨as, has, h⟩ := Res.bind_eq_ok.1 h
    intro y hy
    rcases List.mem_cons.1 hy with rfl | hy
    · unfold SongStructureData.keyByteOf addU16 at ha
      refine Classical.byContradiction fun hc => ?_
      rw [if_neg (by simpa using hc)] at ha
      cases ha
    · exact ih has y hy

/-- The key of an encrypted song structure with `n` phrases. -/
def songKey (n : UInt16) : Bytes := SongStructureData.keyData.map fun x => UInt8.ofNat (x.toNat + n.toNat)

theorem songKey_ok {n : UInt16} (h : n.toNat < 65286) :
    SongStructureData.getKey n SongStructureData.keyData = .ok (songKey n) := by
  refine getKey_ok ?_
  intro x hx
  have : ∀ x ∈ SongStructureData.keyData, x.toNat ≤ 250 := by decide
  have := this x hx
  omega

theorem songKey_ne (n : UInt16) : (songKey n).isEmpty = false := rfl

theorem keyData_bound {n : UInt16} {ks : Bytes}
    (h : SongStructureData.getKey n SongStructureData.keyData = .ok ks) : n.toNat < 65286 ∧ ks = songKey n := by
  have h1 : n.toNat < 65286 := by
    have := getKey_eq_ok h 0xFA (by decide)
    have e : (0xFA : UInt8).toNat = 250 := rfl
    omega
  rw [songKey_ok h1] at h
  injection h with h
  exact ⟨h1, h.symm⟩

open SongStructureData in
theorem decipher_getElem? {key : Bytes} (hk : key.isEmpty = false) (p : Nat) (d : Bytes) (i : Nat) :
    (decipher key p d)[p + i]? = d[p + i]?.map (· ^^^ XorStream.keyByte key i) := by
  unfold decipher XorStream.withKey
  simp only [hk, Bool.false_eq_true, if_false]
  by_cases hp : p ≤ d.length
  · rw [List.getElem?_append_right (by rw [List.length_take]; omega), List.length_take, Nat.min_eq_left hp,
      Nat.add_sub_cancel_left, XorStream.xorBuf_getElem?, Nat.zero_add, List.getElem?_drop]
  · rw [List.getElem?_eq_none (by simp; omega), List.getElem?_eq_none (by omega)]
    rfl

open SongStructureData in
theorem decipher_hasAt {key : Bytes} (hk : key.isEmpty = false) {p : Nat} {d bs : Bytes} :
    HasAt (decipher key p d) p bs ↔ HasAt d p (XorStream.xorBuf key 0 bs) := by
  unfold HasAt
  rw [XorStream.xorBuf_length]
  refine forall_congr' fun i => forall_congr' fun hi => ?_
  rw [decipher_getElem? hk, XorStream.xorBuf_getElem?, Nat.zero_add]
  constructor
  · intro h
    rw [← h, Option.map_map]
    cases d[p + i]? with
    | none => rfl
    | some x => simp [UInt8.xor_cancel]
  · intro h
    rw [h, Option.map_map]
    cases bs[i]? with
    | none => rfl
    | some x => simp [UInt8.xor_cancel]

theorem encEncrypted_eq {c : SongStructureData} {n : UInt16} (h : n.toNat < 65286) :
    c.encEncrypted true n = .ok (XorStream.xorBuf (songKey n) 0 c.enc) := by
  unfold SongStructureData.encEncrypted
  rw [if_pos rfl, songKey_ok h, Res.ok_bind]
  simp only [XorStream.withKey, songKey_ne, Bool.false_eq_true, if_false]

/-- The bytes of the song structure behind the two length fields. -/
def SongStructure.dataBytes (c : SongStructure) : Bytes :=
  if c.isEncrypted then XorStream.xorBuf (songKey (UInt16.ofNat c.data.phrases.length)) 0 c.data.enc else c.data.enc

theorem SongStructure.dataBytes_length (c : SongStructure) :
    c.dataBytes.length = 14 + 24 * c.data.phrases.length := by
  unfold SongStructure.dataBytes
  split
  · rw [XorStream.xorBuf_length, SongStructureData.enc_length]
  · rw [SongStructureData.enc_length]

/-- The number of phrases is small enough for the key to be computed. -/
def SongStructure.Fits (c : SongStructure) : Prop :=
  c.data.phrases.length < if c.isEncrypted then 65286 else 65311

theorem SongStructure.Fits.lt16 {c : SongStructure} (h : c.Fits) : c.data.phrases.length < 2 ^ 16 := by
  unfold SongStructure.Fits at h
  split at h <;> omega

theorem SongStructure.enc_eq {c : SongStructure} (h : c.Fits) :
    c.enc = .ok (encU32be 24 ++ (encU16be (UInt16.ofNat c.data.phrases.length) ++ c.dataBytes)) := by
  unfold SongStructure.enc SongStructure.dataBytes
  have h16 := h.lt16
  unfold SongStructure.Fits at h
  cases he : c.isEncrypted
  · simp only [Bool.false_eq_true, if_false, SongStructureData.encEncrypted, Res.ok_bind]
  · rw [he, if_pos rfl] at h
    simp only [if_true]
    rw [encEncrypted_eq (by rw [toNat_ofNat16 h16]; exact h), Res.ok_bind]

theorem keyByte_songKey (n : UInt16) : XorStream.keyByte (songKey n) 0 = UInt8.ofNat (203 + n.toNat) ∧
    XorStream.keyByte (songKey n) 1 = UInt8.ofNat (225 + n.toNat) := ⟨rfl, rfl⟩

theorem getKey_two {n : UInt16} (h : n.toNat < 65311) :
    SongStructureData.getKey n (SongStructureData.keyData.take 2) =
      .ok [UInt8.ofNat (203 + n.toNat), UInt8.ofNat (225 + n.toNat)] := by
  rw [getKey_ok]
  · rfl
  · intro x hx
    have : ∀ x ∈ SongStructureData.keyData.take 2, x.toNat ≤ 225 := by decide
    have := this x hx
    omega

theorem getKey_two_bound {n : UInt16} {ks : Bytes}
    (h : SongStructureData.getKey n (SongStructureData.keyData.take 2) = .ok ks) : n.toNat < 65311 := by
  have := getKey_eq_ok h 0xE1 (by decide)
  have e : (0xE1 : UInt8).toNat = 225 := rfl
  omega

/-- The first byte and the second byte of a mood. -/
def Mood.low8 : Mood → UInt8
  | .high => 1
  | .mid => 2
  | .low => 3

theorem Mood.enc_eq (m : Mood) : m.enc = [0, m.low8] := by cases m <;> rfl

theorem Mood.read_two {a b : UInt8} {m : Mood} {q : Nat} (h : Mood.read [a, b] 0 = .ok (m, q)) :
    a = 0 ∧ b = m.low8 := by
  obtain ⟨bs, hb, _, he⟩ := Mood.inv _ _ _ _ h
  subst he
  rw [Mood.enc_eq] at hb
  have h0 := hb 0 (by simp)
  have h1 := hb 1 (by simp)
  simp at h0 h1
  exact ⟨h0, h1⟩

open SongStructureData in
/-- An encrypted song structure is recognised. -/
theorem check_encrypted {n : UInt16} (hn : n.toNat < 65311) (m : Mood) :
    checkIfEncrypted (XorStream.xorBuf (songKey n) 0 m.enc) n = .ok true := by
  unfold checkIfEncrypted
  rw [getKey_two hn, Res.ok_bind, Mood.enc_eq]
  simp only [XorStream.xorBuf, keyByte_songKey, Nat.zero_add, List.zipWith_cons_cons, List.zipWith_nil_left,
    UInt8.xor_cancel]
  rw [← Mood.enc_eq, Mood.rt m _ _ (hasAt_self _)]

open SongStructureData in
/-- A plain song structure is never taken for an encrypted one. -/
theorem check_plain {n : UInt16} (hn : n.toNat < 65311) (m : Mood) : checkIfEncrypted m.enc n = .ok false := by
  unfold checkIfEncrypted
  rw [getKey_two hn, Res.ok_bind, Mood.enc_eq]
  simp only [List.zipWith_cons_cons, List.zipWith_nil_left]
  cases h : Mood.read [0 ^^^ UInt8.ofNat (203 + n.toNat), m.low8 ^^^ UInt8.ofNat (225 + n.toNat)] 0 with
  | err e => rfl
  | panic => exact absurd h (Mood.np _ _)
  | ok r =>
    exfalso
    obtain ⟨m', q⟩ := r
    obtain ⟨h0, h1⟩ := Mood.read_two h
    rw [UInt8.zero_xor] at h0
    have h2 := congrArg UInt8.toNat h0
    rw [UInt8.toNat_ofNat'] at h2
    have h3 : UInt8.ofNat (225 + n.toNat) = 0x16 := by
      apply UInt8.toNat_inj.1
      rw [UInt8.toNat_ofNat']
      have e : (0 : UInt8).toNat = 0 := rfl
      have e2 : (0x16 : UInt8).toNat = 22 := rfl
      omega
    rw [h3] at h1
    cases m <;> cases m' <;> revert h1 <;> decide

open SongStructureData in
theorem check_bound {raw : Bytes} {n : UInt16} {b : Bool} (h : checkIfEncrypted raw n = .ok b) :
    n.toNat < 65311 := by
  unfold checkIfEncrypted at h
  obtain ⟨ks, hk, _⟩ := Res.bind_eq_ok.1 h
  exact getKey_two_bound hk

open SongStructureData in
theorem SongStructure.detect {c : SongStructure} (h : c.Fits) :
    checkIfEncrypted (c.dataBytes.take 2) (UInt16.ofNat c.data.phrases.length) = .ok c.isEncrypted := by
  have h16 := h.lt16
  unfold SongStructure.Fits at h
  have ht : c.data.enc.take 2 = c.data.mood.enc := by
    unfold SongStructureData.enc
    rw [List.take_append_of_le_length (by simp), List.take_of_length_le (by simp)]
  unfold SongStructure.dataBytes
  cases he : c.isEncrypted
  · simp only [Bool.false_eq_true, if_false, he] at h ⊢
    rw [ht]
    exact check_plain (by rw [toNat_ofNat16 h16]; exact h) _
  · simp only [if_true, he] at h ⊢
    rw [XorStream.xorBuf_take, ht]
    exact check_encrypted (by rw [toNat_ofNat16 h16]; omega) _

/-- Looking at the beginning of what follows, without moving. -/
theorem RT.peek {α β : Type} {r : Rd β} {b : β} {k : β → Rd α} {bs pre : Bytes} {a : α}
    (hp : pre = bs.take pre.length) (hr : RT r pre b) (hk : RT (k b) bs a) : RT (Rd.restore r >>= k) bs a := by
  intro d p hd
  have hpre : HasAt d p pre := by
    rw [hp]
    intro i hi
    rw [List.length_take] at hi
    rw [hd i (by omega), List.getElem?_take_of_lt (by omega)]
  have : Rd.restore r d p = .ok (b, p) := by
    unfold Rd.restore
    rw [hr d p hpre]
  rw [bind_of_ok this]
  exact hk d p hd

theorem SongStructure.rt {h : Header} {c : SongStructure} (hc : c.Fits)
    (hs : h.totalSize.toNat = h.size.toNat + 24 * c.data.phrases.length) :
    RT (SongStructure.read h) (encU32be 24 ++ (encU16be (UInt16.ofNat c.data.phrases.length) ++ c.dataBytes)) c := by
  have h16 := hc.lt16
  unfold SongStructure.read
  refine RT.bind (RT.u32be _) (RT.check (beq_self_eq_true _) (RT.bind (RT.u16be _) ?_))
  refine RT.compute (b := 24 * c.data.phrases.length) ?_ ?_
  · rw [toNat_ofNat16 h16, mulU32]
    exact if_pos (by show 24 * _ < _; omega)
  refine RT.compute (Header.contentSize_eq.2 hs) (RT.check (beq_self_eq_true _) ?_)
  have hl2 : (c.dataBytes.take 2).length = 2 := by
    rw [List.length_take, SongStructure.dataBytes_length]; omega
  refine RT.peek (pre := c.dataBytes.take 2) (b := c.isEncrypted) (by rw [hl2]) ?_ ?_
  · refine RT.congr_bytes (RT.bind (RT.bytes' hl2) ?_) (List.append_nil _)
    exact RT.lift (SongStructure.detect hc)
  · refine RT.bind_pure ?_
    intro d p hd
    unfold SongStructureData.readEncrypted
    have hlen := SongStructureData.enc_length c.data
    cases he : c.isEncrypted
    · simp only [Bool.false_eq_true, if_false]
      unfold SongStructure.dataBytes at hd ⊢
      simp only [he, Bool.false_eq_true, if_false] at hd ⊢
      exact SongStructureData.rt (toNat_ofNat16 h16).symm d p hd
    · have hb : (UInt16.ofNat c.data.phrases.length).toNat < 65286 := by
        rw [toNat_ofNat16 h16]
        unfold SongStructure.Fits at hc
        rw [he] at hc; exact hc
      simp only [if_true]
      rw [songKey_ok hb]
      unfold SongStructure.dataBytes at hd ⊢
      simp only [he, if_true] at hd ⊢
      rw [SongStructureData.rt (toNat_ofNat16 h16).symm _ p ((decipher_hasAt (songKey_ne _)).2 hd),
        XorStream.xorBuf_length]

theorem SongStructure.inv (h : Header) : Inv (SongStructure.read h) (fun c bs => c.enc = .ok bs ∧ c.Fits ∧
    h.totalSize.toNat = h.size.toNat + 24 * c.data.phrases.length) := by
  unfold SongStructure.read
  refine Inv.bind Inv.u32be ?_
  rintro e _ rfl
  refine Inv.check fun he => ?_
  refine Inv.bind Inv.u16be ?_
  rintro n _ rfl
  refine Inv.compute fun m hm => Inv.compute fun k hk => Inv.check fun hc => ?_
  simp only [beq_iff_eq] at he hc
  subst he
  have hsz := Header.contentSize_eq.1 hk
  have hm' : m = 24 * n.toNat := by
    unfold mulU32 at hm
    split at hm
    · injection hm with hm; exact hm.symm
    · cases hm
  intro d p c q hr
  obtain ⟨b, q1, h1, h2⟩ := bind_eq_ok.1 hr
  have hq1 : q1 = p ∧ n.toNat < 65311 := by
    unfold Rd.restore at h1
    split at h1
    · rename_i a q' ha
      injection h1 with h1
      injection h1 with e1 e2
      subst e1
      obtain ⟨raw, q2, h3, h4⟩ := bind_eq_ok.1 ha
      unfold Rd.lift at h4
      split at h4
      · rename_i a' ha'
        exact ⟨e2.symm, check_bound ha'⟩
      · cases h4
      · cases h4
    · cases h1
    · cases h1
  obtain ⟨rfl, hn⟩ := hq1
  obtain ⟨data, q2, h3, h4⟩ := bind_eq_ok.1 h2
  rw [pure_eq_ok] at h4
  obtain ⟨rfl, rfl⟩ := h4
  unfold SongStructureData.readEncrypted at h3
  cases b
  · simp only [Bool.false_eq_true, if_false] at h3
    obtain ⟨bs, hb, hq, rfl, hl⟩ := SongStructureData.inv n _ _ _ _ h3
    have hf : SongStructure.Fits ⟨false, data⟩ := by
      unfold SongStructure.Fits; simp only [Bool.false_eq_true, if_false]; omega
    refine ⟨_, hb, hq, ?_, hf, by simp only; omega⟩
    rw [SongStructure.enc_eq hf, SongStructure.dataBytes]
    simp [hl]
  · simp only [if_true] at h3
    cases hg : SongStructureData.getKey n SongStructureData.keyData with
    | err e => rw [hg] at h3; cases h3
    | panic => rw [hg] at h3; cases h3
    | ok key =>
      rw [hg] at h3
      simp only at h3
      obtain ⟨hlt, rfl⟩ := keyData_bound hg
      obtain ⟨bs, hb, hq, rfl, hl⟩ := SongStructureData.inv n _ _ _ _ h3
      have hf : SongStructure.Fits ⟨true, data⟩ := by
        unfold SongStructure.Fits; simp only [if_true]; omega
      refine ⟨_, (decipher_hasAt (songKey_ne _)).1 hb, by rw [XorStream.xorBuf_length]; exact hq, ?_, hf,
        by simp only; omega⟩
      rw [SongStructure.enc_eq hf, SongStructure.dataBytes]
      simp [hl]

end Rekordcrate.Anlz
