import Verif.Spec.WrapAnlz
import Verif.Lemmas.AnlzFile

/-! # What the reader of analysis files accepts in a build without overflow checks -/

namespace Rekordcrate.Anlz
open Rd

theorem Header.contentSizeWrap_eq {h : Header} {n : Nat} (hn : n < 2 ^ 32) :
    h.contentSizeWrap = n ↔ h.LeavesModulo n := by
  have := h.size.toNat_lt
  have := h.totalSize.toNat_lt
  unfold Header.contentSizeWrap subWrap32 Header.LeavesModulo
  omega

theorem Header.contentSizeWrap_lt (h : Header) : h.contentSizeWrap < 2 ^ 32 := Nat.mod_lt _ (by decide)

theorem Header.remainingSizeWrap_lt (h : Header) : h.remainingSizeWrap < 2 ^ 32 := Nat.mod_lt _ (by decide)

theorem Header.remainingSizeWrap_eq {h : Header} {n : Nat} (hn : n < 2 ^ 32) :
    h.remainingSizeWrap = n ↔ h.size.toNat = (12 + n) % 2 ^ 32 := by
  have := h.size.toNat_lt
  unfold Header.remainingSizeWrap subWrap32
  omega

theorem Header.leavesModulo_mod {h : Header} {n : Nat} : h.LeavesModulo (n % 2 ^ 32) ↔ h.LeavesModulo n := by
  unfold Header.LeavesModulo
  rw [Nat.add_mod_mod]

/-! ## Extended cues -/

theorem ExtendedCue.inv_wrap : Inv ExtendedCue.readWrap (fun c bs =>
    ∃ raw, raw.length < 2 ^ 32 ∧ c.comment.ReadsFrom raw ∧ bs = c.bytesWith raw) := by
  unfold ExtendedCue.readWrap
  refine Inv.bind Header.inv ?_
  rintro hd _ ⟨rfl, hk⟩
  inv_run
  refine Inv.bind WideString.inv ?_
  rintro s _ ⟨raw, hl, rfl, hr⟩
  inv_run
  refine Inv.bind (Inv.bytes _) ?_
  rintro _ tr ⟨rfl, ht⟩
  refine (Inv.pure _).mono ?_
  rintro _ _ ⟨rfl, rfl⟩
  refine ⟨raw, hl, hr, ?_⟩
  simp [ExtendedCue.bytesWith, ExtendedCue.front, ExtendedCue.back]

theorem ExtendedCue.many_inv_wrap (n : Nat) : Inv (Rd.many ExtendedCue.readWrap n) (fun cs bs =>
    cs.length = n ∧ ∃ raws, ExtendedCue.HeldBy cs raws bs) := by
  induction n with
  | zero =>
    refine (Inv.pure _).mono ?_
    rintro _ _ ⟨rfl, rfl⟩
    exact ⟨rfl, [], ExtendedCue.heldBy_nil⟩
  | succ n ih =>
    unfold Rd.many
    refine Inv.bind ExtendedCue.inv_wrap ?_
    rintro c _ ⟨raw, hl, hr, rfl⟩
    refine Inv.bind ih ?_
    rintro cs bs ⟨hn, raws, hb⟩
    refine (Inv.pure _).mono ?_
    rintro _ _ ⟨rfl, rfl⟩
    refine ⟨by simp [hn], raw :: raws, ?_⟩
    rw [List.append_nil]
    exact ExtendedCue.heldBy_cons hr hl hb

theorem ExtendedCueList.inv_wrap : Inv ExtendedCueList.readWrap (fun c bs => c.cues.length < 2 ^ 16 ∧
    c.unknown = 0 ∧ ∃ raws inner, ExtendedCue.HeldBy c.cues raws inner ∧ bs = c.bytesWith inner) := by
  unfold ExtendedCueList.readWrap
  refine Inv.bind CueListType.inv ?_
  rintro a _ rfl
  refine Inv.bind Inv.u16be ?_
  rintro n _ rfl
  refine Inv.bind Inv.u16be ?_
  rintro b _ rfl
  refine Inv.check ?_
  intro hb
  refine Inv.bind (ExtendedCue.many_inv_wrap _) ?_
  rintro cs bs ⟨hl, raws, hh⟩
  refine (Inv.pure _).mono ?_
  rintro _ _ ⟨rfl, rfl⟩
  have := n.toNat_lt
  refine ⟨by simp only; omega, by simpa using hb, raws, bs, hh, ?_⟩
  simp [ExtendedCueList.bytesWith, hl]

/-! ## Paths -/

theorem Path.lenPathWrap_eq (c : Path) : c.lenPathWrap = 2 * (c.path.length + 1) % 2 ^ 32 := by
  unfold Path.lenPathWrap mulWrap32 addWrap32
  omega

theorem Path.rt_wrap {h : Header} {c : Path} (h0 : (0 : UInt16) ∉ c.path)
    (hs : h.LeavesModulo (2 * (c.path.length + 1))) : RT (Path.readWrap h) c.encWrap c := by
  have hlt : c.lenPathWrap < 2 ^ 32 := by rw [Path.lenPathWrap_eq]; omega
  have hc : h.contentSizeWrap = c.lenPathWrap := by
    rw [Header.contentSizeWrap_eq hlt, Path.lenPathWrap_eq, Header.leavesModulo_mod]; exact hs
  unfold Path.readWrap Path.encWrap
  rt_run
  refine RT.check (by rw [toNat_ofNat32 hlt, hc]; exact beq_self_eq_true _) ?_
  refine RT.congr_bytes (RT.bind (readWideUnits_rt h0)
    (RT.check (by rw [toNat_ofNat32 hlt, hc]; exact beq_self_eq_true _)
    (RT.check (by rw [toNat_ofNat32 hlt]; exact beq_self_eq_true _) (RT.pure _)))) (List.append_nil _)

theorem Path.inv_wrap (h : Header) : Inv (Path.readWrap h) (fun c bs => bs = c.encWrap ∧ (0 : UInt16) ∉ c.path ∧
    h.LeavesModulo (2 * (c.path.length + 1))) := by
  unfold Path.readWrap
  refine Inv.bind Inv.u32be ?_
  rintro len _ rfl
  refine Inv.check fun hc => ?_
  refine Inv.bind readWideUnits_inv ?_
  rintro us _ ⟨rfl, h0⟩
  refine Inv.check fun hc' => Inv.check fun hcm => ?_
  refine (Inv.pure _).mono ?_
  rintro _ _ ⟨rfl, rfl⟩
  simp only [beq_iff_eq] at hc hc' hcm
  refine ⟨?_, h0, ?_⟩
  · unfold Path.encWrap
    rw [hcm, UInt32.ofNat_toNat, List.append_nil]
  · have := (Header.contentSizeWrap_eq len.toNat_lt).1 hc.symm
    rw [← hcm, Path.lenPathWrap_eq, Header.leavesModulo_mod] at this
    exact this

/-! ## VBR and unknown data -/

theorem Vbr.rt_wrap {h : Header} {c : Vbr} (hl : c.unknown2.length < 2 ^ 32)
    (hs : h.LeavesModulo c.unknown2.length) : RT (Vbr.readWrap h) c.enc c := by
  unfold Vbr.readWrap Vbr.enc
  rt_run
  exact RT.bind_pure (RT.bytes' ((Header.contentSizeWrap_eq hl).2 hs).symm)

theorem Vbr.inv_wrap (h : Header) : Inv (Vbr.readWrap h) (fun c bs => bs = c.enc ∧
    c.unknown2.length < 2 ^ 32 ∧ h.LeavesModulo c.unknown2.length) := by
  unfold Vbr.readWrap
  refine Inv.bind Inv.u32be ?_
  rintro a _ rfl
  refine Inv.bind (Inv.bytes _) ?_
  rintro _ bs ⟨rfl, hl⟩
  refine (Inv.pure _).mono ?_
  rintro _ _ ⟨rfl, rfl⟩
  have hlt := h.contentSizeWrap_lt
  rw [← hl] at hlt
  exact ⟨by simp [Vbr.enc], hlt, (Header.contentSizeWrap_eq hlt).1 hl.symm⟩

theorem Unknown.rt_wrap {h : Header} {c : Unknown} (h1 : c.headerData.length < 2 ^ 32)
    (h2 : h.size.toNat = (12 + c.headerData.length) % 2 ^ 32) (h3 : c.contentData.length < 2 ^ 32)
    (h4 : h.LeavesModulo c.contentData.length) : RT (Unknown.readWrap h) c.enc c := by
  unfold Unknown.readWrap Unknown.enc
  refine RT.bind (RT.bytes' ((Header.remainingSizeWrap_eq h1).2 h2).symm) ?_
  exact RT.bind_pure (RT.bytes' ((Header.contentSizeWrap_eq h3).2 h4).symm)

theorem Unknown.inv_wrap (h : Header) : Inv (Unknown.readWrap h) (fun c bs => bs = c.enc ∧
    c.headerData.length < 2 ^ 32 ∧ h.size.toNat = (12 + c.headerData.length) % 2 ^ 32 ∧
    c.contentData.length < 2 ^ 32 ∧ h.LeavesModulo c.contentData.length) := by
  unfold Unknown.readWrap
  refine Inv.bind (Inv.bytes _) ?_
  rintro _ as ⟨rfl, hl'⟩
  refine Inv.bind (Inv.bytes _) ?_
  rintro _ bs ⟨rfl, hl⟩
  refine (Inv.pure _).mono ?_
  rintro _ _ ⟨rfl, rfl⟩
  have hlt := h.contentSizeWrap_lt
  have hlt' := h.remainingSizeWrap_lt
  rw [← hl] at hlt
  rw [← hl'] at hlt'
  exact ⟨by simp [Unknown.enc], hlt', (Header.remainingSizeWrap_eq hlt').1 hl'.symm, hlt,
    (Header.contentSizeWrap_eq hlt).1 hl.symm⟩

/-! ## Waveforms -/


theorem WaveformPreview.rt_wrap {h : Header} {c : WaveformPreview} (hlt : c.data.length < 2 ^ 32)
    (hs : h.LeavesModulo c.data.length) : RT (WaveformPreview.readWrap h) c.enc c := by
  unfold WaveformPreview.readWrap WaveformPreview.enc
  refine RT.bind (RT.u32be _) ?_
  refine RT.check (by rw [toNat_ofNat32 hlt, (Header.contentSizeWrap_eq hlt).2 hs]; exact beq_self_eq_true _) ?_
  exact RT.bind (RT.u32be _) (RT.bind_pure (RT.many' (toNat_ofNat32 hlt).symm fun a _ => a.rt))

theorem WaveformPreview.inv_wrap (h : Header) : Inv (WaveformPreview.readWrap h) (fun c bs => bs = c.enc ∧
    c.data.length < 2 ^ 32 ∧ h.LeavesModulo c.data.length) := by
  unfold WaveformPreview.readWrap
  refine Inv.bind Inv.u32be ?_
  rintro len _ rfl
  refine Inv.check fun hc => ?_
  refine Inv.bind Inv.u32be ?_
  rintro u _ rfl
  refine Inv.bind (Inv.many WaveformPreviewColumn.inv WaveformPreviewColumn.enc (fun _ _ h => h) _) ?_
  rintro bs _ ⟨rfl, hl⟩
  refine (Inv.pure _).mono ?_
  rintro _ _ ⟨rfl, rfl⟩
  simp only [beq_iff_eq] at hc
  have hlt := len.toNat_lt
  rw [← hl] at hlt hc
  exact ⟨by simp [WaveformPreview.enc, hl], hlt, (Header.contentSizeWrap_eq hlt).1 hc.symm⟩


theorem TinyWaveformPreview.rt_wrap {h : Header} {c : TinyWaveformPreview} (hlt : c.data.length < 2 ^ 32)
    (hs : h.LeavesModulo c.data.length) : RT (TinyWaveformPreview.readWrap h) c.enc c := by
  unfold TinyWaveformPreview.readWrap TinyWaveformPreview.enc
  refine RT.bind (RT.u32be _) ?_
  refine RT.check (by rw [toNat_ofNat32 hlt, (Header.contentSizeWrap_eq hlt).2 hs]; exact beq_self_eq_true _) ?_
  exact RT.bind (RT.u32be _) (RT.bind_pure (RT.many' (toNat_ofNat32 hlt).symm fun a _ => a.rt))

theorem TinyWaveformPreview.inv_wrap (h : Header) : Inv (TinyWaveformPreview.readWrap h) (fun c bs => bs = c.enc ∧
    c.data.length < 2 ^ 32 ∧ h.LeavesModulo c.data.length) := by
  unfold TinyWaveformPreview.readWrap
  refine Inv.bind Inv.u32be ?_
  rintro len _ rfl
  refine Inv.check fun hc => ?_
  refine Inv.bind Inv.u32be ?_
  rintro u _ rfl
  refine Inv.bind (Inv.many TinyWaveformPreviewColumn.inv TinyWaveformPreviewColumn.enc (fun _ _ h => h) _) ?_
  rintro bs _ ⟨rfl, hl⟩
  refine (Inv.pure _).mono ?_
  rintro _ _ ⟨rfl, rfl⟩
  simp only [beq_iff_eq] at hc
  have hlt := len.toNat_lt
  rw [← hl] at hlt hc
  exact ⟨by simp [TinyWaveformPreview.enc, hl], hlt, (Header.contentSizeWrap_eq hlt).1 hc.symm⟩


theorem readEntryLens_rt_wrap {h : Header} {e : UInt32} {n : Nat} (hn : n < 2 ^ 32)
    (hs : h.LeavesModulo (e.toNat * n)) :
    RT (readEntryLensWrap h e) (encU32be e ++ encU32be (UInt32.ofNat n)) (UInt32.ofNat n) := by
  unfold readEntryLensWrap
  refine RT.bind (RT.u32be _) (RT.check (beq_self_eq_true _) ?_)
  refine RT.congr_bytes (RT.bind (RT.u32be _) ?_) (List.append_nil _)
  refine RT.check ?_ (RT.pure _)
  rw [toNat_ofNat32 hn]
  have : h.contentSizeWrap = mulWrap32 e.toNat n := by
    rw [mulWrap32, Header.contentSizeWrap_eq (Nat.mod_lt _ (by decide)), Header.leavesModulo_mod]; exact hs
  rw [this]
  exact beq_self_eq_true _

theorem readEntryLens_inv_wrap (h : Header) (e : UInt32) : Inv (readEntryLensWrap h e) (fun n bs =>
    bs = encU32be e ++ encU32be n ∧ h.LeavesModulo (e.toNat * n.toNat)) := by
  unfold readEntryLensWrap
  refine Inv.bind Inv.u32be ?_
  rintro a _ rfl
  refine Inv.check fun ha => ?_
  refine Inv.bind Inv.u32be ?_
  rintro n _ rfl
  refine Inv.check fun hc => ?_
  refine (Inv.pure _).mono ?_
  rintro _ _ ⟨rfl, rfl⟩
  simp only [beq_iff_eq] at ha hc
  subst ha
  refine ⟨by simp, ?_⟩
  rw [mulWrap32] at hc
  have := (Header.contentSizeWrap_eq (Nat.mod_lt _ (by decide))).1 hc.symm
  rw [Header.leavesModulo_mod] at this
  exact this

theorem entries_rt_wrap {α γ : Type} {h : Header} {e : UInt32} {data : List γ}
    {k : UInt32 → Rd α} {rest : Bytes} {a : α} (hlt : data.length < 2 ^ 32)
    (hs : h.LeavesModulo (e.toNat * data.length)) (hk : RT (k (UInt32.ofNat data.length)) rest a) :
    RT (readEntryLensWrap h e >>= k) (encU32be e ++ (encU32be (UInt32.ofNat data.length) ++ rest)) a := by
  rw [← List.append_assoc]
  exact RT.bind (readEntryLens_rt_wrap hlt hs) hk


theorem WaveformDetail.rt_wrap {h : Header} {c : WaveformDetail} (hu : c.unknown = 0x00960000) (hlt : c.data.length < 2 ^ 32)
    (hs : h.LeavesModulo c.data.length) : RT (WaveformDetail.readWrap h) c.enc c := by
  unfold WaveformDetail.readWrap WaveformDetail.enc
  exact entries_rt_wrap hlt (by rw [show (1 : UInt32).toNat = 1 from rfl, Nat.one_mul]; exact hs) (RT.bind (RT.u32be _) (RT.check (by rw [hu]; rfl)
    (RT.bind_pure (RT.many' (toNat_ofNat32 hlt).symm fun a _ => a.rt))))

theorem WaveformDetail.inv_wrap (h : Header) : Inv (WaveformDetail.readWrap h) (fun c bs => bs = c.enc ∧
    c.unknown = 0x00960000 ∧ c.data.length < 2 ^ 32 ∧ h.LeavesModulo c.data.length) := by
  unfold WaveformDetail.readWrap
  refine Inv.bind (readEntryLens_inv_wrap _ _) ?_
  rintro len _ ⟨rfl, hs⟩
  refine Inv.bind Inv.u32be ?_
  rintro u _ rfl
  refine Inv.check fun hu => ?_
  refine Inv.bind (Inv.many WaveformPreviewColumn.inv WaveformPreviewColumn.enc (fun _ _ h => h) _) ?_
  rintro bs _ ⟨rfl, hl⟩
  refine (Inv.pure _).mono ?_
  rintro _ _ ⟨rfl, rfl⟩
  have hlt := len.toNat_lt
  rw [← hl] at hlt hs
  simp only [beq_iff_eq] at hu
  rw [show (1 : UInt32).toNat = 1 from rfl, Nat.one_mul] at hs
  exact ⟨by simp [WaveformDetail.enc, hl], hu, hlt, hs⟩


theorem WaveformColorPreview.rt_wrap {h : Header} {c : WaveformColorPreview} (hlt : c.data.length < 2 ^ 32)
    (hs : h.LeavesModulo (6 * c.data.length)) : RT (WaveformColorPreview.readWrap h) c.enc c := by
  unfold WaveformColorPreview.readWrap WaveformColorPreview.enc
  exact entries_rt_wrap hlt (hs) (RT.bind (RT.u32be _)
    (RT.bind_pure (RT.many' (toNat_ofNat32 hlt).symm fun a _ => a.rt)))

theorem WaveformColorPreview.inv_wrap (h : Header) : Inv (WaveformColorPreview.readWrap h) (fun c bs => bs = c.enc ∧
    c.data.length < 2 ^ 32 ∧ h.LeavesModulo (6 * c.data.length)) := by
  unfold WaveformColorPreview.readWrap
  refine Inv.bind (readEntryLens_inv_wrap _ _) ?_
  rintro len _ ⟨rfl, hs⟩
  refine Inv.bind Inv.u32be ?_
  rintro u _ rfl
  refine Inv.bind (Inv.many WaveformColorPreviewColumn.inv WaveformColorPreviewColumn.enc (fun _ _ h => h) _) ?_
  rintro bs _ ⟨rfl, hl⟩
  refine (Inv.pure _).mono ?_
  rintro _ _ ⟨rfl, rfl⟩
  have hlt := len.toNat_lt
  rw [← hl] at hlt hs
  exact ⟨by simp [WaveformColorPreview.enc, hl], hlt, hs⟩


theorem WaveformColorDetail.rt_wrap {h : Header} {c : WaveformColorDetail} (hlt : c.data.length < 2 ^ 32)
    (hs : h.LeavesModulo (2 * c.data.length)) : RT (WaveformColorDetail.readWrap h) c.enc c := by
  unfold WaveformColorDetail.readWrap WaveformColorDetail.enc
  exact entries_rt_wrap hlt (hs) (RT.bind (RT.u32be _)
    (RT.bind_pure (RT.many' (toNat_ofNat32 hlt).symm fun a _ => a.rt)))

theorem WaveformColorDetail.inv_wrap (h : Header) : Inv (WaveformColorDetail.readWrap h) (fun c bs => bs = c.enc ∧
    c.data.length < 2 ^ 32 ∧ h.LeavesModulo (2 * c.data.length)) := by
  unfold WaveformColorDetail.readWrap
  refine Inv.bind (readEntryLens_inv_wrap _ _) ?_
  rintro len _ ⟨rfl, hs⟩
  refine Inv.bind Inv.u32be ?_
  rintro u _ rfl
  refine Inv.bind (Inv.many WaveformColorDetailColumn.inv WaveformColorDetailColumn.enc (fun _ _ h => h) _) ?_
  rintro bs _ ⟨rfl, hl⟩
  refine (Inv.pure _).mono ?_
  rintro _ _ ⟨rfl, rfl⟩
  have hlt := len.toNat_lt
  rw [← hl] at hlt hs
  exact ⟨by simp [WaveformColorDetail.enc, hl], hlt, hs⟩


theorem Waveform3BandPreview.rt_wrap {h : Header} {c : Waveform3BandPreview} (hlt : c.data.length < 2 ^ 32)
    (hs : h.LeavesModulo (3 * c.data.length)) : RT (Waveform3BandPreview.readWrap h) c.enc c := by
  unfold Waveform3BandPreview.readWrap Waveform3BandPreview.enc
  exact entries_rt_wrap hlt (hs) (RT.bind_pure (RT.many' (toNat_ofNat32 hlt).symm fun a _ => a.rt))

theorem Waveform3BandPreview.inv_wrap (h : Header) : Inv (Waveform3BandPreview.readWrap h) (fun c bs => bs = c.enc ∧
    c.data.length < 2 ^ 32 ∧ h.LeavesModulo (3 * c.data.length)) := by
  unfold Waveform3BandPreview.readWrap
  refine Inv.bind (readEntryLens_inv_wrap _ _) ?_
  rintro len _ ⟨rfl, hs⟩
  refine Inv.bind (Inv.many Waveform3BandPreviewColumn.inv Waveform3BandPreviewColumn.enc (fun _ _ h => h) _) ?_
  rintro bs _ ⟨rfl, hl⟩
  refine (Inv.pure _).mono ?_
  rintro _ _ ⟨rfl, rfl⟩
  have hlt := len.toNat_lt
  rw [← hl] at hlt hs
  exact ⟨by simp [Waveform3BandPreview.enc, hl], hlt, hs⟩


theorem Waveform3BandDetail.rt_wrap {h : Header} {c : Waveform3BandDetail} (hu : c.unknown = 0x00960000) (hlt : c.data.length < 2 ^ 32)
    (hs : h.LeavesModulo (3 * c.data.length)) : RT (Waveform3BandDetail.readWrap h) c.enc c := by
  unfold Waveform3BandDetail.readWrap Waveform3BandDetail.enc
  exact entries_rt_wrap hlt (hs) (RT.bind (RT.u32be _) (RT.check (by rw [hu]; rfl)
    (RT.bind_pure (RT.many' (toNat_ofNat32 hlt).symm fun a _ => a.rt))))

theorem Waveform3BandDetail.inv_wrap (h : Header) : Inv (Waveform3BandDetail.readWrap h) (fun c bs => bs = c.enc ∧
    c.unknown = 0x00960000 ∧ c.data.length < 2 ^ 32 ∧ h.LeavesModulo (3 * c.data.length)) := by
  unfold Waveform3BandDetail.readWrap
  refine Inv.bind (readEntryLens_inv_wrap _ _) ?_
  rintro len _ ⟨rfl, hs⟩
  refine Inv.bind Inv.u32be ?_
  rintro u _ rfl
  refine Inv.check fun hu => ?_
  refine Inv.bind (Inv.many Waveform3BandDetailColumn.inv Waveform3BandDetailColumn.enc (fun _ _ h => h) _) ?_
  rintro bs _ ⟨rfl, hl⟩
  refine (Inv.pure _).mono ?_
  rintro _ _ ⟨rfl, rfl⟩
  have hlt := len.toNat_lt
  rw [← hl] at hlt hs
  simp only [beq_iff_eq] at hu
  exact ⟨by simp [Waveform3BandDetail.enc, hl], hu, hlt, hs⟩


/-! ## Song structure -/

theorem getKeyWrap_eq (n : UInt16) (xs : Bytes) :
    SongStructureData.getKeyWrap n xs = xs.map fun x => UInt8.ofNat (x.toNat + n.toNat) := by
  unfold SongStructureData.getKeyWrap
  refine List.map_congr_left fun x _ => ?_
  apply UInt8.toNat_inj.1
  rw [UInt8.toNat_ofNat', UInt8.toNat_ofNat']
  unfold addWrap16
  omega

theorem getKeyWrap_keyData (n : UInt16) :
    SongStructureData.getKeyWrap n SongStructureData.keyData = songKey n := getKeyWrap_eq _ _

theorem getKeyWrap_two (n : UInt16) : SongStructureData.getKeyWrap n (SongStructureData.keyData.take 2) =
    [UInt8.ofNat (203 + n.toNat), UInt8.ofNat (225 + n.toNat)] := getKeyWrap_eq _ _

open SongStructureData in
theorem check_encrypted_wrap (n : UInt16) (m : Mood) :
    checkIfEncryptedWrap (XorStream.xorBuf (songKey n) 0 m.enc) n = .ok true := by
  unfold checkIfEncryptedWrap
  rw [getKeyWrap_two, Mood.enc_eq]
  simp only [XorStream.xorBuf, keyByte_songKey, Nat.zero_add, List.zipWith_cons_cons, List.zipWith_nil_left,
    UInt8.xor_cancel]
  rw [← Mood.enc_eq, Mood.rt m _ _ (hasAt_self _)]

open SongStructureData in
theorem check_plain_wrap (n : UInt16) (m : Mood) : checkIfEncryptedWrap m.enc n = .ok false := by
  unfold checkIfEncryptedWrap
  rw [getKeyWrap_two, Mood.enc_eq]
  simp only [List.zipWith_cons_cons, List.zipWith_nil_left]
  cases h : Mood.read [0 ^^^ UInt8.ofNat (203 + n.toNat), m.low8 ^^^ UInt8.ofNat (225 + n.toNat)] 0 with
  | err e => rfl
  | panic => exact absurd h (Mood.np _ _)
  | ok r =>
    exfalso
    obtain ⟨m', q⟩ := r
    obtain ⟨h0, h1⟩ := Mood.read_two h
    rw [UInt8.zero_xor] at h0
    have h2 := congrArg UInt8.toNat h0
    rw [UInt8.toNat_ofNat'] at h2
    have h3 : UInt8.ofNat (225 + n.toNat) = 0x16 := by
      apply UInt8.toNat_inj.1
      rw [UInt8.toNat_ofNat']
      have e : (0 : UInt8).toNat = 0 := rfl
      have e2 : (0x16 : UInt8).toNat = 22 := rfl
      omega
    rw [h3] at h1
    cases m <;> cases m' <;> revert h1 <;> decide

open SongStructureData in
theorem SongStructure.detect_wrap (c : SongStructure) :
    checkIfEncryptedWrap (c.dataBytes.take 2) (UInt16.ofNat c.data.phrases.length) = .ok c.isEncrypted := by
  have ht : c.data.enc.take 2 = c.data.mood.enc := by
    unfold SongStructureData.enc
    rw [List.take_append_of_le_length (by simp), List.take_of_length_le (by simp)]
  unfold SongStructure.dataBytes
  cases he : c.isEncrypted
  · simp only [Bool.false_eq_true, if_false]
    rw [ht]
    exact check_plain_wrap _ _
  · simp only [if_true]
    rw [XorStream.xorBuf_take, ht]
    exact check_encrypted_wrap _ _

theorem SongStructure.encWrap_eq (c : SongStructure) :
    c.encWrap = encU32be 24 ++ (encU16be (UInt16.ofNat c.data.phrases.length) ++ c.dataBytes) := by
  unfold SongStructure.encWrap SongStructure.dataBytes SongStructureData.encEncryptedWrap
  rw [getKeyWrap_keyData]
  rfl

theorem SongStructure.rt_wrap {h : Header} {c : SongStructure} (h16 : c.data.phrases.length < 2 ^ 16)
    (hs : h.LeavesModulo (24 * c.data.phrases.length)) : RT (SongStructure.readWrap h) c.encWrap c := by
  rw [SongStructure.encWrap_eq]
  unfold SongStructure.readWrap
  refine RT.bind (RT.u32be _) (RT.check (beq_self_eq_true _) (RT.bind (RT.u16be _) ?_))
  refine RT.check ?_ ?_
  · rw [toNat_ofNat16 h16]
    have : h.contentSizeWrap = mulWrap32 (24 : UInt32).toNat c.data.phrases.length := by
      rw [mulWrap32, Header.contentSizeWrap_eq (Nat.mod_lt _ (by decide)), Header.leavesModulo_mod]; exact hs
    rw [this]
    exact beq_self_eq_true _
  have hl2 : (c.dataBytes.take 2).length = 2 := by
    rw [List.length_take, SongStructure.dataBytes_length]; omega
  refine RT.peek (pre := c.dataBytes.take 2) (b := c.isEncrypted) (by rw [hl2]) ?_ ?_
  · refine RT.congr_bytes (RT.bind (RT.bytes' hl2) ?_) (List.append_nil _)
    exact RT.lift c.detect_wrap
  · refine RT.bind_pure ?_
    intro d p hd
    unfold SongStructureData.readEncryptedWrap
    rw [getKeyWrap_keyData]
    cases he : c.isEncrypted
    · simp only [Bool.false_eq_true, if_false]
      unfold SongStructure.dataBytes at hd ⊢
      simp only [he, Bool.false_eq_true, if_false] at hd ⊢
      exact SongStructureData.rt (toNat_ofNat16 h16).symm d p hd
    · simp only [if_true]
      unfold SongStructure.dataBytes at hd ⊢
      simp only [he, if_true] at hd ⊢
      rw [SongStructureData.rt (toNat_ofNat16 h16).symm _ p ((decipher_hasAt (songKey_ne _)).2 hd),
        XorStream.xorBuf_length]

theorem SongStructure.inv_wrap (h : Header) : Inv (SongStructure.readWrap h) (fun c bs => bs = c.encWrap ∧
    c.data.phrases.length < 2 ^ 16 ∧ h.LeavesModulo (24 * c.data.phrases.length)) := by
  unfold SongStructure.readWrap
  refine Inv.bind Inv.u32be ?_
  rintro e _ rfl
  refine Inv.check fun he => ?_
  refine Inv.bind Inv.u16be ?_
  rintro n _ rfl
  refine Inv.check fun hc => ?_
  simp only [beq_iff_eq] at he hc
  subst he
  rw [mulWrap32] at hc
  have hsz := (Header.contentSizeWrap_eq (Nat.mod_lt _ (by decide))).1 hc.symm
  rw [Header.leavesModulo_mod] at hsz
  have h16 := n.toNat_lt
  intro d p c q hr
  obtain ⟨b, q1, h1, h2⟩ := bind_eq_ok.1 hr
  have hq1 : q1 = p := by
    unfold Rd.restore at h1
    split at h1
    · injection h1 with h1
      injection h1 with e1 e2
      exact e2.symm
    · cases h1
    · cases h1
  subst hq1
  obtain ⟨data, q2, h3, h4⟩ := bind_eq_ok.1 h2
  rw [pure_eq_ok] at h4
  obtain ⟨rfl, rfl⟩ := h4
  unfold SongStructureData.readEncryptedWrap at h3
  rw [getKeyWrap_keyData] at h3
  cases b
  · simp only [Bool.false_eq_true, if_false] at h3
    obtain ⟨bs, hb, hq, rfl, hl⟩ := SongStructureData.inv n _ _ _ _ h3
    rw [← hl] at h16 hsz
    refine ⟨_, hb, hq, ?_, h16, hsz⟩
    rw [SongStructure.encWrap_eq, SongStructure.dataBytes]
    simp [hl]
  · simp only [if_true] at h3
    obtain ⟨bs, hb, hq, rfl, hl⟩ := SongStructureData.inv n _ _ _ _ h3
    rw [← hl] at h16 hsz
    refine ⟨_, (decipher_hasAt (songKey_ne _)).1 hb, by rw [XorStream.xorBuf_length]; exact hq, ?_, h16, hsz⟩
    rw [SongStructure.encWrap_eq, SongStructure.dataBytes]
    simp [hl]

/-! ## Sections -/

theorem Content.inv_wrap (h : Header) (hp : h.kind.Proper) :
    Inv (Content.readWrap h) (fun c bs => c.HeldByWrap bs ∧ c.MatchesModulo h) := by
  unfold Content.readWrap
  refine Inv.orElse (variant_inv BeatGrid.inv ?_) ?_
  · rintro a bs hg ⟨rfl, hl⟩; simp only [beq_iff_eq] at hg; exact ⟨rfl, hg, hl⟩
  refine Inv.orElse (variant_inv CueList.inv ?_) ?_
  · rintro a bs hg ⟨rfl, hl⟩; simp only [beq_iff_eq] at hg; exact ⟨rfl, hg, hl⟩
  refine Inv.orElse (variant_inv ExtendedCueList.inv_wrap ?_) ?_
  · rintro a bs hg ⟨h1, h2, h3⟩; simp only [beq_iff_eq] at hg; exact ⟨h3, hg, h1, h2⟩
  refine Inv.orElse (variant_inv (Path.inv_wrap h) ?_) ?_
  · rintro a bs hg ⟨rfl, hl⟩; simp only [beq_iff_eq] at hg; exact ⟨rfl, hg, hl⟩
  refine Inv.orElse (variant_inv (Vbr.inv_wrap h) ?_) ?_
  · rintro a bs hg ⟨rfl, hl⟩; simp only [beq_iff_eq] at hg; exact ⟨rfl, hg, hl⟩
  refine Inv.orElse (variant_inv (WaveformPreview.inv_wrap h) ?_) ?_
  · rintro a bs hg ⟨rfl, hl⟩; simp only [beq_iff_eq] at hg; exact ⟨rfl, hg, hl⟩
  refine Inv.orElse (variant_inv (TinyWaveformPreview.inv_wrap h) ?_) ?_
  · rintro a bs hg ⟨rfl, hl⟩; simp only [beq_iff_eq] at hg; exact ⟨rfl, hg, hl⟩
  refine Inv.orElse (variant_inv (WaveformDetail.inv_wrap h) ?_) ?_
  · rintro a bs hg ⟨rfl, hl⟩; simp only [beq_iff_eq] at hg; exact ⟨rfl, hg, hl⟩
  refine Inv.orElse (variant_inv (WaveformColorPreview.inv_wrap h) ?_) ?_
  · rintro a bs hg ⟨rfl, hl⟩; simp only [beq_iff_eq] at hg; exact ⟨rfl, hg, hl⟩
  refine Inv.orElse (variant_inv (WaveformColorDetail.inv_wrap h) ?_) ?_
  · rintro a bs hg ⟨rfl, hl⟩; simp only [beq_iff_eq] at hg; exact ⟨rfl, hg, hl⟩
  refine Inv.orElse (variant_inv (Waveform3BandPreview.inv_wrap h) ?_) ?_
  · rintro a bs hg ⟨rfl, hl⟩; simp only [beq_iff_eq] at hg; exact ⟨rfl, hg, hl⟩
  refine Inv.orElse (variant_inv (Waveform3BandDetail.inv_wrap h) ?_) ?_
  · rintro a bs hg ⟨rfl, hl⟩; simp only [beq_iff_eq] at hg; exact ⟨rfl, hg, hl⟩
  refine Inv.orElse (variant_inv (SongStructure.inv_wrap h) ?_) ?_
  · rintro a bs hg ⟨rfl, hl⟩; simp only [beq_iff_eq] at hg; exact ⟨rfl, hg, hl⟩
  refine variant_inv (Unknown.inv_wrap h) ?_
  rintro a bs hg ⟨rfl, hl⟩; exact ⟨rfl, hg, hp, hl⟩

theorem Content.MatchesModulo.proper {h : Header} {c : Content} (hc : c.MatchesModulo h) : h.kind.Proper := by
  cases c <;> first
    | exact hc.2.1
    | (intro hu; rw [hc.1] at hu; cases hu)

theorem Content.MatchesModulo.rt {h : Header} {c : Content} (hc : c.MatchesModulo h)
    (hx : ∀ l, c ≠ .extendedCueList l) : RT (Content.readWrap h) c.encWrap c := by
  have hu : ∀ k : Kind, k.isUnknown = false → h.kind.isUnknown = true → (h.kind == k) = false := by
    intro k hk hh
    rw [beq_eq_false_iff_ne]
    rintro rfl
    rw [hk] at hh; cases hh
  unfold Content.readWrap
  cases c with
  | beatGrid c =>
    obtain ⟨hk, h1⟩ := hc
    exact RT.orElse_left (variant_rt (by rw [hk]; rfl) (BeatGrid.rt h1))
  | cueList c =>
    obtain ⟨hk, h1, h2⟩ := hc
    iterate 1 refine RT.skip (by rw [hk]; rfl) ?_
    exact RT.orElse_left (variant_rt (by rw [hk]; rfl) (CueList.rt h1 h2))
  | extendedCueList c => exact absurd rfl (hx c)
  | path c =>
    obtain ⟨hk, h1, h2⟩ := hc
    iterate 3 refine RT.skip (by rw [hk]; rfl) ?_
    exact RT.orElse_left (variant_rt (by rw [hk]; rfl) (Path.rt_wrap h1 h2))
  | vbr c =>
    obtain ⟨hk, h1, h2⟩ := hc
    iterate 4 refine RT.skip (by rw [hk]; rfl) ?_
    exact RT.orElse_left (variant_rt (by rw [hk]; rfl) (Vbr.rt_wrap h1 h2))
  | waveformPreview c =>
    obtain ⟨hk, h1, h2⟩ := hc
    iterate 5 refine RT.skip (by rw [hk]; rfl) ?_
    exact RT.orElse_left (variant_rt (by rw [hk]; rfl) (WaveformPreview.rt_wrap h1 h2))
  | tinyWaveformPreview c =>
    obtain ⟨hk, h1, h2⟩ := hc
    iterate 6 refine RT.skip (by rw [hk]; rfl) ?_
    exact RT.orElse_left (variant_rt (by rw [hk]; rfl) (TinyWaveformPreview.rt_wrap h1 h2))
  | waveformDetail c =>
    obtain ⟨hk, h1, h2, h3⟩ := hc
    iterate 7 refine RT.skip (by rw [hk]; rfl) ?_
    exact RT.orElse_left (variant_rt (by rw [hk]; rfl) (WaveformDetail.rt_wrap h1 h2 h3))
  | waveformColorPreview c =>
    obtain ⟨hk, h1, h2⟩ := hc
    iterate 8 refine RT.skip (by rw [hk]; rfl) ?_
    exact RT.orElse_left (variant_rt (by rw [hk]; rfl) (WaveformColorPreview.rt_wrap h1 h2))
  | waveformColorDetail c =>
    obtain ⟨hk, h1, h2⟩ := hc
    iterate 9 refine RT.skip (by rw [hk]; rfl) ?_
    exact RT.orElse_left (variant_rt (by rw [hk]; rfl) (WaveformColorDetail.rt_wrap h1 h2))
  | waveform3BandPreview c =>
    obtain ⟨hk, h1, h2⟩ := hc
    iterate 10 refine RT.skip (by rw [hk]; rfl) ?_
    exact RT.orElse_left (variant_rt (by rw [hk]; rfl) (Waveform3BandPreview.rt_wrap h1 h2))
  | waveform3BandDetail c =>
    obtain ⟨hk, h1, h2, h3⟩ := hc
    iterate 11 refine RT.skip (by rw [hk]; rfl) ?_
    exact RT.orElse_left (variant_rt (by rw [hk]; rfl) (Waveform3BandDetail.rt_wrap h1 h2 h3))
  | songStructure c =>
    obtain ⟨hk, h1, h2⟩ := hc
    iterate 12 refine RT.skip (by rw [hk]; rfl) ?_
    exact RT.orElse_left (variant_rt (by rw [hk]; rfl) (SongStructure.rt_wrap h1 h2))
  | unknown c =>
    obtain ⟨hk, hp, h1, h2, h3, h4⟩ := hc
    iterate 13 refine RT.skip (hu _ rfl hk) ?_
    exact variant_rt hk (Unknown.rt_wrap h1 h2 h3 h4)

theorem AnlzSection.inv_wrap : Inv AnlzSection.readWrap (fun s bs => s.HeldByWrap bs ∧ s.MatchesModulo) := by
  unfold AnlzSection.readWrap
  refine Inv.bind Header.inv ?_
  rintro h _ ⟨rfl, hk⟩
  refine Inv.bind (Content.inv_wrap h hk) ?_
  rintro c cb ⟨h1, h2⟩
  refine (Inv.pure _).mono ?_
  rintro _ _ ⟨rfl, rfl⟩
  exact ⟨⟨cb, h1, by simp⟩, h2⟩

theorem AnlzSection.MatchesModulo.rt {s : AnlzSection} (h : s.MatchesModulo) (hc : ¬ s.HasComments) :
    RT AnlzSection.readWrap s.encWrap s :=
  RT.bind (Header.rt (Content.MatchesModulo.proper h))
    (RT.bind_pure (Content.MatchesModulo.rt h fun l hl => hc ⟨l, hl⟩))

theorem AnlzSection.HeldByWrap.encWrap_eq {s : AnlzSection} {bs : Bytes} (h : s.HeldByWrap bs)
    (hc : ¬ s.HasComments) : bs = s.encWrap := by
  obtain ⟨header, content⟩ := s
  obtain ⟨cb, h1, rfl⟩ := h
  unfold AnlzSection.encWrap
  congr 1
  cases content <;> first
    | exact h1
    | exact absurd ⟨_, rfl⟩ hc

/-! ## Files -/

theorem parseSectionsWrap_eq_ok {fin : Nat} {d : Bytes} {p : Nat} {ss : List AnlzSection} {r : Nat}
    (h : AnlzFile.parseSectionsWrap fin d p = .ok (ss, r)) :
    (¬ p < fin ∧ ss = [] ∧ r = p) ∨
    (p < fin ∧ ∃ s q ss', AnlzSection.readWrap d p = .ok (s, q) ∧
      AnlzFile.parseSectionsWrap fin d q = .ok (ss', r) ∧ ss = s :: ss') := by
  by_cases hp : p < fin
  · right
    refine ⟨hp, ?_⟩
    rw [AnlzFile.parseSectionsWrap.eq_def, dif_pos hp] at h
    split at h
    · rename_i s q hs
      cases hr : AnlzFile.parseSectionsWrap fin d q with
      | ok x =>
        obtain ⟨ss', r'⟩ := x
        rw [hr] at h
        injection h with h
        injection h with h1 h2
        subst h1 h2
        exact ⟨s, q, ss', hs, hr, rfl⟩
      | err e => rw [hr] at h; cases h
      | panic => rw [hr] at h; cases h
    · cases h
    · cases h
  · left
    rw [AnlzFile.parseSectionsWrap.eq_def, dif_neg hp] at h
    injection h with h
    injection h with h1 h2
    exact ⟨hp, h1.symm, h2.symm⟩

theorem parseSectionsWrap_inv {fin : Nat} {d : Bytes} {p : Nat} {ss : List AnlzSection} {q : Nat}
    (h : AnlzFile.parseSectionsWrap fin d p = .ok (ss, q)) :
    ∃ parts bs, AnlzSection.ListHeldByWrap ss parts bs ∧ HasAt d p bs ∧ q = p + bs.length ∧
      fin ≤ max p q ∧ ∀ s ∈ ss, s.MatchesModulo := by
  induction ss generalizing p with
  | nil =>
    rcases parseSectionsWrap_eq_ok h with ⟨_, _, rfl⟩ | ⟨_, _, _, _, _, _, hc⟩
    · exact ⟨[], [], ⟨rfl, by simp, rfl⟩, HasAt.nil _ _, by simp, by omega, by simp⟩
    · cases hc
  | cons s ss ih =>
    rcases parseSectionsWrap_eq_ok h with ⟨_, hc, _⟩ | ⟨_, s', q', ss', hs, hr, hc⟩
    · cases hc
    · injection hc with h1 h2
      subst h1 h2
      obtain ⟨parts, bs, ⟨h1, h2, h3⟩, hb, hq, hfin, hall⟩ := ih hr
      obtain ⟨b0, hb0, hq0, hh, hm⟩ := AnlzSection.inv_wrap _ _ _ _ hs
      refine ⟨b0 :: parts, b0 ++ bs, ⟨by simp [h1], ?_, by simp [h3]⟩, ?_, ?_, by omega, ?_⟩
      · intro x hx
        simp only [List.zip_cons_cons, List.mem_cons] at hx
        rcases hx with rfl | hx
        · exact hh
        · exact h2 x hx
      · rw [HasAt.append_iff]; exact ⟨hb0, hq0 ▸ hb⟩
      · rw [List.length_append]; omega
      · intro x hx
        rcases List.mem_cons.1 hx with rfl | hx
        · exact hm
        · exact hall x hx

theorem AnlzSection.ListHeldByWrap.eq {ss : List AnlzSection} {parts : List Bytes} {bs : Bytes}
    (h : AnlzSection.ListHeldByWrap ss parts bs) (hc : ∀ s ∈ ss, ¬ s.HasComments) :
    bs = ss.flatMap AnlzSection.encWrap := by
  obtain ⟨hl, hh, rfl⟩ := h
  induction ss generalizing parts with
  | nil => cases parts with
    | nil => rfl
    | cons _ _ => simp at hl
  | cons s ss ih =>
    cases parts with
    | nil => simp at hl
    | cons b parts =>
      have h1 : b = s.encWrap := (hh (s, b) (by simp)).encWrap_eq (hc s (by simp))
      have h2 := ih (fun x hx => hc x (by simp [hx])) (parts := parts) (by simpa using hl)
        (fun x hx => hh x (by simp [hx]))
      rw [List.flatten_cons, List.flatMap_cons, h1, h2]

/-- What reading a file in a build without overflow checks means. -/
theorem AnlzFile.readWrap_eq_ok {d : Bytes} {p : Nat} {a : AnlzFile} {q : Nat}
    (h : AnlzFile.readWrap d p = .ok (a, q)) :
    a.header.kind = .file ∧ a.headerData.length < 2 ^ 32 ∧
    a.header.size.toNat = (12 + a.headerData.length) % 2 ^ 32 ∧ (∀ s ∈ a.sections, s.MatchesModulo) ∧
    ∃ bs, a.HeldByWrap bs ∧ HasAt d p bs ∧ q = p + bs.length ∧
      12 + a.headerData.length + a.header.contentSizeWrap ≤ bs.length := by
  unfold AnlzFile.readWrap at h
  obtain ⟨hd, q1, h1, h⟩ := bind_eq_ok.1 h
  obtain ⟨bs, hb, hq1, rfl, hk⟩ := Header.inv _ _ _ _ h1
  obtain ⟨_, q2, h2, h⟩ := bind_eq_ok.1 h
  obtain ⟨bs, _, hq2, hkf, rfl⟩ := Inv.require _ _ _ _ _ _ h2
  obtain ⟨hdat, q4, h4, h⟩ := bind_eq_ok.1 h
  obtain ⟨hl, hb4, hq4⟩ := bytes_eq_ok.1 h4
  obtain ⟨ss, q6, h6, h⟩ := bind_eq_ok.1 h
  rw [pure_eq_ok] at h
  obtain ⟨rfl, rfl⟩ := h
  obtain ⟨parts, sb, hh, hsb, hq6, hfin, hall⟩ := parseSectionsWrap_inv h6
  simp only [List.length_nil, Nat.add_zero, Header.enc_length] at hq1 hq2
  have hlt := hd.remainingSizeWrap_lt
  rw [← hl] at hlt
  refine ⟨by simpa using hkf, hlt, (Header.remainingSizeWrap_eq hlt).1 hl.symm, hall, _, ⟨parts, sb, hh, rfl⟩, ?_, ?_, ?_⟩
  · rw [HasAt.append_iff, HasAt.append_iff, Header.enc_length]
    have e2 : q2 = p + 12 := by omega
    have e4 : q4 = p + 12 + hdat.length := by omega
    exact ⟨hb, e2 ▸ hb4, e4 ▸ hsb⟩
  · rw [List.length_append, List.length_append, Header.enc_length]; simp only; omega
  · rw [List.length_append, List.length_append, Header.enc_length]
    simp only
    omega

end Rekordcrate.Anlz
