import Verif.Lemmas.SettingData
import Verif.Lemmas.Crc

/-! # Helper lemmas for setting files -/

namespace Rekordcrate
open Rd

theorem readName_eq {d : Bytes} {p : Nat} :
    Setting.readName d p = match readNullString d p with
      | .ok (s, p') => if s.length ≤ 31 then .ok (s, max p' (p + 32)) else .err .assertFail
      | .err e => .err e
      | .panic => .panic := by
  unfold Setting.readName
  rw [bind_of_ok (a := p) (p' := p) rfl]
  cases h : readNullString d p with
  | ok r =>
    obtain ⟨s, p'⟩ := r
    rw [bind_of_ok h, bind_of_ok (a := p') (p' := p') rfl, bind_of_ok (a := ()) (p' := max p' (p + 32)) rfl]
    by_cases hs : s.length ≤ 31
    · rw [require_true_bind (by simpa using hs)]; simp [hs]
    · rw [require_false_err (by simpa using hs)]; simp [hs]
  | err e => rw [bind_of_err h]
  | panic => rw [bind_of_panic h]

theorem readName_rt {s pad : Bytes} (h : FitsName s) (hp : s.length + 1 + pad.length = 32) :
    RT Setting.readName (nameField s pad) s := by
  intro d p hd
  have h1 : HasAt d p (encNullString s) := by
    have : nameField s pad = encNullString s ++ pad := by simp [nameField, encNullString]
    rw [this, HasAt.append_iff] at hd
    exact hd.1
  rw [readName_eq, readNullString_rt h.2 d p h1]
  simp only [h.1, if_true]
  congr 2
  simp [nameField, encNullString]
  omega

theorem readName_ok {d : Bytes} {p : Nat} {s : Bytes} {p' : Nat}
    (h : Setting.readName d p = .ok (s, p')) :
    FitsName s ∧ p' = p + 32 ∧ HasAt d p (s ++ [0]) := by
  rw [readName_eq] at h
  cases hr : readNullString d p with
  | ok r =>
    obtain ⟨s', q⟩ := r
    rw [hr] at h
    obtain ⟨bs, hb, hq, rfl, h0⟩ := readNullString_inv _ _ _ _ hr
    simp only at h
    split at h
    · rename_i hs
      simp only [Res.ok.injEq, Prod.mk.injEq] at h
      obtain ⟨rfl, rfl⟩ := h
      refine ⟨⟨hs, h0⟩, ?_, hb⟩
      simp [encNullString] at hq
      omega
    · cases h
  | err e => rw [hr] at h; cases h
  | panic => rw [hr] at h; cases h

theorem readName_np : NP Setting.readName := by
  intro d p
  rw [readName_eq]
  cases hr : readNullString d p with
  | ok r => simp only; split <;> simp
  | err e => simp
  | panic => exact absurd hr (readNullString_np d p)

theorem SettingData.enc_length {x : SettingData} (h : x.Proper) : x.enc.length = dataSize x.kind := by
  cases x with
  | devSetting s => exact s.enc_length h.1
  | djmMySetting s => exact s.enc_length h.1
  | mySetting s => exact s.enc_length h.1
  | mySetting2 s => exact s.enc_length h.1

theorem SettingData.rt {x : SettingData} (h : x.Proper) : RT (SettingData.read x.kind) x.enc x := by
  unfold SettingData.read
  have skip : ∀ {t u : SettingType} (r : Rd SettingData), t ≠ u → ∀ d p,
      ∃ e, (do Rd.require (t == u); r : Rd SettingData) d p = .err e := fun r h d p =>
    ⟨_, require_false_err (by simpa using h) _ _ _⟩
  cases x with
  | devSetting s =>
    apply RT.orElse_left
    rw [require_true_bind (by rfl)]
    exact RT.bind_pure (s.rt h.1 h.2)
  | djmMySetting s =>
    apply RT.orElse_right (fun d p _ => skip _ (by simp [SettingData.kind]) d p)
    apply RT.orElse_left
    rw [require_true_bind (by rfl)]
    exact RT.bind_pure (s.rt h.1 h.2)
  | mySetting s =>
    apply RT.orElse_right (fun d p _ => skip _ (by simp [SettingData.kind]) d p)
    apply RT.orElse_right (fun d p _ => skip _ (by simp [SettingData.kind]) d p)
    apply RT.orElse_left
    rw [require_true_bind (by rfl)]
    exact RT.bind_pure (s.rt h.1 h.2)
  | mySetting2 s =>
    apply RT.orElse_right (fun d p _ => skip _ (by simp [SettingData.kind]) d p)
    apply RT.orElse_right (fun d p _ => skip _ (by simp [SettingData.kind]) d p)
    apply RT.orElse_right (fun d p _ => skip _ (by simp [SettingData.kind]) d p)
    rw [require_true_bind (by rfl)]
    exact RT.bind_pure (s.rt h.1 h.2)

theorem SettingData.inv (t : SettingType) :
    Inv (SettingData.read t) (fun x bs => bs = x.enc ∧ x.Proper ∧ x.kind = t) := by
  unfold SettingData.read
  refine Inv.orElse ?_ (Inv.orElse ?_ (Inv.orElse ?_ ?_))
  · refine Inv.bind (Inv.require _ _) ?_
    rintro _ _ ⟨ht, rfl⟩
    refine (Inv.bind_pure DevSetting.inv).mono ?_
    rintro x bs ⟨s, rfl, rfl, h1, h2⟩
    exact ⟨by simp [SettingData.enc], ⟨h1, h2⟩, by rw [beq_iff_eq] at ht; rw [ht]; rfl⟩
  · refine Inv.bind (Inv.require _ _) ?_
    rintro _ _ ⟨ht, rfl⟩
    refine (Inv.bind_pure DJMMySetting.inv).mono ?_
    rintro x bs ⟨s, rfl, rfl, h1, h2⟩
    exact ⟨by simp [SettingData.enc], ⟨h1, h2⟩, by rw [beq_iff_eq] at ht; rw [ht]; rfl⟩
  · refine Inv.bind (Inv.require _ _) ?_
    rintro _ _ ⟨ht, rfl⟩
    refine (Inv.bind_pure MySetting.inv).mono ?_
    rintro x bs ⟨s, rfl, rfl, h1, h2⟩
    exact ⟨by simp [SettingData.enc], ⟨h1, h2⟩, by rw [beq_iff_eq] at ht; rw [ht]; rfl⟩
  · refine Inv.bind (Inv.require _ _) ?_
    rintro _ _ ⟨ht, rfl⟩
    refine (Inv.bind_pure MySetting2.inv).mono ?_
    rintro x bs ⟨s, rfl, rfl, h1, h2⟩
    exact ⟨by simp [SettingData.enc], ⟨h1, h2⟩, by rw [beq_iff_eq] at ht; rw [ht]; rfl⟩

theorem SettingData.np (t : SettingType) : NP (SettingData.read t) :=
  NP.orElse (NP.bind (NP.require _ _) fun _ => NP.bind DevSetting.np fun _ => NP.pure _)
    (NP.orElse (NP.bind (NP.require _ _) fun _ => NP.bind DJMMySetting.np fun _ => NP.pure _)
      (NP.orElse (NP.bind (NP.require _ _) fun _ => NP.bind MySetting.np fun _ => NP.pure _)
        (NP.bind (NP.require _ _) fun _ => NP.bind MySetting2.np fun _ => NP.pure _)))

theorem Setting.read_np (t : SettingType) : NP (Setting.read t) :=
  NP.bind NP.u32 fun _ => NP.bind (NP.require _ _) fun _ => NP.bind readName_np fun _ =>
    NP.bind readName_np fun _ => NP.bind readName_np fun _ => NP.bind NP.u32 fun _ =>
    NP.bind (NP.require _ _) fun _ => NP.bind (SettingData.np t) fun _ => NP.bind NP.u16 fun _ =>
    NP.bind NP.u16 fun _ => NP.bind (NP.require _ _) fun _ => NP.pure _

theorem size_eq (x : SettingData) : x.size = x.kind.expectedDataSize := by cases x <;> rfl

theorem encU32_size (x : SettingData) :
    encU32 x.size = [UInt8.ofNat (dataSize x.kind), 0, 0, 0] := by cases x <;> simp only [SettingData.size, SettingData.kind, dataSize] <;> decide +kernel

theorem encU32_60 : encU32 0x60 = [0x60, 0, 0, 0] := by decide +kernel

theorem Setting.read_rt {s : Setting} (h : s.Proper) {pad1 pad2 pad3 : Bytes}
    (hp : PadsFit s pad1 pad2 pad3) (ck : UInt16) :
    RT (Setting.read s.data.kind) (settingLayout s pad1 pad2 pad3 ck) s := by
  unfold Setting.read settingLayout
  rw [← encU32_60, ← encU32_size, show ([0, 0] : Bytes) = encU16 0 from rfl]
  refine RT.bind (RT.u32 _) ?_
  rw [require_true_bind (by rfl)]
  refine RT.bind (readName_rt h.1 hp.1) ?_
  refine RT.bind (readName_rt h.2.1 hp.2.1) ?_
  refine RT.bind (readName_rt h.2.2.1 hp.2.2) ?_
  refine RT.bind (RT.u32 _) ?_
  rw [require_true_bind (by rw [size_eq]; simp)]
  refine RT.bind (SettingData.rt h.2.2.2) ?_
  refine RT.bind (RT.u16 _) ?_
  refine (RT.bind (RT.u16 0) ?_).congr_bytes (List.append_nil _)
  rw [require_true_bind (by rfl)]
  exact RT.pure _

theorem HasAt.of_bound {d : Bytes} {p n : Nat} (h : p + n ≤ d.length) :
    HasAt d p ((d.drop p).take n) ∧ ((d.drop p).take n).length = n :=
  ⟨hasAt_take_drop d p n, by simp; omega⟩

theorem Setting.read_ok {t : SettingType} {d : Bytes} {p : Nat} {s : Setting} {p' : Nat}
    (h : Setting.read t d p = .ok (s, p')) :
    s.Proper ∧ s.data.kind = t ∧ p' = p + (108 + dataSize t) ∧
      ∃ pad1 pad2 pad3 ck, PadsFit s pad1 pad2 pad3 ∧ HasAt d p (settingLayout s pad1 pad2 pad3 ck) := by
  unfold Setting.read at h
  obtain ⟨l, p1, hl, h⟩ := bind_eq_ok.1 h
  obtain ⟨_, _, hlr, h⟩ := bind_eq_ok.1 h
  obtain ⟨bl, hbl, rfl, rfl⟩ := Inv.u32 _ _ _ _ hl
  obtain ⟨_, _, he1, hl60, rfl⟩ := Inv.require _ _ _ _ _ _ hlr
  simp only [List.length_nil, Nat.add_zero] at he1
  subst he1
  obtain ⟨brand, p2, hb, h⟩ := bind_eq_ok.1 h
  obtain ⟨software, p3, hs, h⟩ := bind_eq_ok.1 h
  obtain ⟨version, p4, hv, h⟩ := bind_eq_ok.1 h
  obtain ⟨fb, rfl, hb'⟩ := readName_ok hb
  obtain ⟨fs, rfl, hs'⟩ := readName_ok hs
  obtain ⟨fv, rfl, hv'⟩ := readName_ok hv
  obtain ⟨ld, p5, hld, h⟩ := bind_eq_ok.1 h
  obtain ⟨_, _, hldr, h⟩ := bind_eq_ok.1 h
  obtain ⟨bld, hbld, rfl, rfl⟩ := Inv.u32 _ _ _ _ hld
  obtain ⟨_, _, he2, hldt, rfl⟩ := Inv.require _ _ _ _ _ _ hldr
  simp only [List.length_nil, Nat.add_zero] at he2
  subst he2
  obtain ⟨data, p6, hd, h⟩ := bind_eq_ok.1 h
  obtain ⟨bd, hbd, rfl, rfl, hprop, hkind⟩ := SettingData.inv _ _ _ _ _ hd
  obtain ⟨ck, p7, hck, h⟩ := bind_eq_ok.1 h
  obtain ⟨bck, hbck, rfl, rfl⟩ := Inv.u16 _ _ _ _ hck
  obtain ⟨un, p8, hun, h⟩ := bind_eq_ok.1 h
  obtain ⟨bun, hbun, rfl, rfl⟩ := Inv.u16 _ _ _ _ hun
  obtain ⟨_, _, hur, h⟩ := bind_eq_ok.1 h
  obtain ⟨_, _, he3, hu0, rfl⟩ := Inv.require _ _ _ _ _ _ hur
  simp only [List.length_nil, Nat.add_zero] at he3
  subst he3
  simp only [Rd.pure_def, Res.ok.injEq, Prod.mk.injEq] at h
  obtain ⟨rfl, rfl⟩ := h
  rw [beq_iff_eq] at hl60 hldt hu0
  subst hl60 hldt hu0 hkind
  have hend := hbun.bound (by intro h; simpa using congrArg List.length h)
  have hlen := SettingData.enc_length hprop
  simp only [encU32_length, encU16_length] at hend hb' hs' hv' hbld hbd hbck hbun
  -- padding bytes
  have pad : ∀ {q : Nat} {x : Bytes}, FitsName x → HasAt d q (x ++ [0]) → q + 32 ≤ d.length →
      ∃ y, x.length + 1 + y.length = 32 ∧ HasAt d q (nameField x y) := by
    intro q x hx hq hb
    obtain ⟨h1, h2⟩ := HasAt.of_bound (d := d) (p := q + (x ++ [0]).length) (n := 31 - x.length)
      (by have := hx.1; simp; omega)
    refine ⟨_, by rw [h2]; have := hx.1; omega, ?_⟩
    unfold nameField
    rw [← List.append_assoc, HasAt.append_iff]
    exact ⟨hq, h1⟩
  obtain ⟨y1, l1, h1⟩ := pad fb hb' (by omega)
  obtain ⟨y2, l2, h2⟩ := pad fs hs' (by omega)
  obtain ⟨y3, l3, h3⟩ := pad fv hv' (by omega)
  refine ⟨⟨fb, fs, fv, hprop⟩, rfl, by simp only [encU32_length, encU16_length, hlen]; omega, y1, y2, y3, ck, ⟨l1, l2, l3⟩, ?_⟩
  have n1 : (nameField brand y1).length = 32 := by simp [nameField]; omega
  have n2 : (nameField software y2).length = 32 := by simp [nameField]; omega
  have n3 : (nameField version y3).length = 32 := by simp [nameField]; omega
  unfold settingLayout
  rw [← encU32_60, ← encU32_size, show ([0, 0] : Bytes) = encU16 0 from rfl]
  simp only [HasAt.append_iff, encU32_length, n1, n2, n3, size_eq, encU16_length]
  exact ⟨hbl, h1, h2, h3, hbld, hbd, hbck, hbun⟩

/-! ## Writing -/

theorem encName_ok {s : Bytes} (h : s.length ≤ 31) :
    Setting.encName s = .ok (nameField s (List.replicate (31 - s.length) 0)) := by
  simp [Setting.encName, h, nameField, encNullString]

theorem encWith_ok {s : Setting} (h1 : s.brand.length ≤ 31) (h2 : s.software.length ≤ 31)
    (h3 : s.version.length ≤ 31) (ck : UInt16) :
    s.encWith (.ok ck) = .ok (settingLayout s (List.replicate (31 - s.brand.length) 0)
      (List.replicate (31 - s.software.length) 0) (List.replicate (31 - s.version.length) 0) ck) := by
  unfold Setting.encWith settingLayout
  rw [encName_ok h1, encName_ok h2, encName_ok h3, encU32_60, encU32_size]
  rfl

theorem enc_eq_with {s : Setting} {ck : UInt16} (h : s.calculateChecksum = .ok ck) :
    s.enc = s.encWith (.ok ck) := by
  simp [Setting.enc, h]

end Rekordcrate
