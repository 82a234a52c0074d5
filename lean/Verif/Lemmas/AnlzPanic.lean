import Verif.Lemmas.AnlzFile
import Verif.Lemmas.Layout

/-! # When the reader of analysis files panics -/

namespace Rekordcrate.Anlz
open Rd

theorem lift_panic {α : Type} {r : Res α} {d : Bytes} {p : Nat} (h : Rd.lift r d p = .panic) : r = .panic := by
  cases r with
  | ok x => cases h
  | err e => cases h
  | panic => rfl

theorem lift_ok {α : Type} {r : Res α} {a : α} {d : Bytes} {p q : Nat} (h : Rd.lift r d p = .ok (a, q)) :
    r = .ok a ∧ q = p := by
  cases r with
  | ok x => injection h with h; injection h with h1 h2; exact ⟨by rw [h1], h2.symm⟩
  | err e => cases h
  | panic => cases h

theorem require_ok {b : Bool} {e : Err} {u : Unit} {d : Bytes} {p q : Nat}
    (h : Rd.require b e d p = .ok (u, q)) : b = true ∧ q = p := by
  cases b with
  | true => injection h with h; injection h with h1 h2; exact ⟨rfl, h2.symm⟩
  | false => cases h

theorem Header.contentSize_panic {h : Header} : h.contentSize = .panic ↔ h.totalSize.toNat < h.size.toNat := by
  unfold Header.contentSize subU
  split
  · simp only [reduceCtorEq, false_iff]; omega
  · simp only [true_iff]; omega

theorem Header.remainingSize_panic {h : Header} : h.remainingSize = .panic ↔ h.size.toNat < 12 := by
  unfold Header.remainingSize subU
  split
  · simp only [reduceCtorEq, false_iff]; omega
  · simp only [true_iff]; omega

/-- Skip a part that cannot panic. -/
theorem panic_skip {α β : Type} {r : Rd α} {k : α → Rd β} {d : Bytes} {p : Nat} (hn : NP r)
    (h : (r >>= k) d p = .panic) : ∃ a q, r d p = .ok (a, q) ∧ k a d q = .panic := by
  rcases bind_eq_panic.1 h with h | h
  · exact absurd h (hn d p)
  · exact h

theorem panic_compute {α β : Type} {r : Res α} {k : α → Rd β} {d : Bytes} {p : Nat}
    (h : (Rd.lift r >>= k) d p = .panic) : r = .panic ∨ ∃ a, r = .ok a ∧ k a d p = .panic := by
  rcases bind_eq_panic.1 h with h | ⟨a, q, h1, h2⟩
  · exact .inl (lift_panic h)
  · obtain ⟨h3, rfl⟩ := lift_ok h1
    exact .inr ⟨a, h3, h2⟩

theorem panic_check {β : Type} {b : Bool} {e : Err} {k : Unit → Rd β} {d : Bytes} {p : Nat}
    (h : (Rd.require b e >>= k) d p = .panic) : b = true ∧ k () d p = .panic := by
  obtain ⟨_, q, h1, h2⟩ := panic_skip (NP.require _ _) h
  obtain ⟨hb, rfl⟩ := require_ok h1
  exact ⟨hb, h2⟩

theorem panic_u32 {β : Type} {k : UInt32 → Rd β} {d : Bytes} {p : Nat} (h : (Rd.u32be >>= k) d p = .panic) :
    ∃ v, U32BeAt d p v.toNat ∧ k v d (p + 4) = .panic := by
  obtain ⟨v, q, h1, h2⟩ := panic_skip NP.u32be h
  obtain ⟨bs, hb, rfl, rfl⟩ := Inv.u32be _ _ _ _ h1
  exact ⟨v, .of_hasAt hb, h2⟩

theorem panic_u16 {β : Type} {k : UInt16 → Rd β} {d : Bytes} {p : Nat} (h : (Rd.u16be >>= k) d p = .panic) :
    ∃ v, U16BeAt d p v.toNat ∧ k v d (p + 2) = .panic := by
  obtain ⟨v, q, h1, h2⟩ := panic_skip NP.u16be h
  obtain ⟨bs, hb, rfl, rfl⟩ := Inv.u16be _ _ _ _ h1
  exact ⟨v, .of_hasAt hb, h2⟩

theorem no_panic {β : Type} {r : Rd β} {d : Bytes} {p : Nat} {P : Prop} (hn : NP r) (h : r d p = .panic) : P :=
  absurd h (hn d p)

/-! ## Extended cues and paths -/

theorem WideString.trailingLen_np {h : Header} {s : WideString} {raw : Bytes} (hr : s.ReadsFrom raw)
    (hl : raw.length + 80 ≤ 2 ^ 32) : ExtendedCue.trailingLen h s ≠ .panic := by
  have := hr.byteCount_le
  rw [ExtendedCue.trailingLen_eq (by omega)]
  simp

theorem ExtendedCue.np {d : Bytes} {p : Nat} (hd : d.length + 80 ≤ 2 ^ 32) : ExtendedCue.read d p ≠ .panic := by
  intro h
  unfold ExtendedCue.read at h
  obtain ⟨_, _, _, h⟩ := panic_skip Header.np h
  obtain ⟨_, _, _, h⟩ := panic_skip NP.u32be h
  obtain ⟨_, _, _, h⟩ := panic_skip CueType.np h
  obtain ⟨_, _, _, h⟩ := panic_skip NP.u8 h
  obtain ⟨_, _, _, h⟩ := panic_skip NP.u16be h
  obtain ⟨_, _, _, h⟩ := panic_skip NP.u32be h
  obtain ⟨_, _, _, h⟩ := panic_skip NP.u32be h
  obtain ⟨_, _, _, h⟩ := panic_skip ColorIndex.np h
  obtain ⟨_, _, _, h⟩ := panic_skip NP.u8 h
  obtain ⟨_, _, _, h⟩ := panic_skip NP.u16be h
  obtain ⟨_, _, _, h⟩ := panic_skip NP.u32be h
  obtain ⟨_, _, _, h⟩ := panic_skip NP.u16be h
  obtain ⟨_, _, _, h⟩ := panic_skip NP.u16be h
  obtain ⟨s, q, hs, h⟩ := panic_skip WideString.np h
  obtain ⟨bs, hb, _, raw, _, rfl, hr⟩ := WideString.inv _ _ _ _ hs
  have hlen := hb.bound (by intro hc; have := congrArg List.length hc; simp at this)
  rw [List.length_append, encU32be_length] at hlen
  iterate 4 obtain ⟨_, _, _, h⟩ := panic_skip NP.u8 h
  iterate 5 obtain ⟨_, _, _, h⟩ := panic_skip NP.u32be h
  rcases panic_compute h with h | ⟨n, _, h⟩
  · exact WideString.trailingLen_np hr (by omega) h
  · exact no_panic (NP.bind (NP.bytes _) fun _ => NP.pure _) h

theorem many_np_at {α : Type} {r : Rd α} {d : Bytes} (h : ∀ p, r d p ≠ .panic) (n p : Nat) :
    Rd.many r n d p ≠ .panic := by
  induction n generalizing p with
  | zero => intro hc; cases hc
  | succ n ih =>
    intro hc
    unfold Rd.many at hc
    rcases bind_eq_panic.1 hc with hc | ⟨a, q, _, hc⟩
    · exact h p hc
    · rcases bind_eq_panic.1 hc with hc | ⟨_, _, _, hc⟩
      · exact ih _ hc
      · cases hc

theorem ExtendedCueList.np {d : Bytes} {p : Nat} (hd : d.length + 80 ≤ 2 ^ 32) :
    ExtendedCueList.read d p ≠ .panic := by
  intro h
  unfold ExtendedCueList.read at h
  obtain ⟨_, _, _, h⟩ := panic_skip CueListType.np h
  obtain ⟨_, _, h⟩ := panic_u16 h
  obtain ⟨_, _, h⟩ := panic_u16 h
  obtain ⟨_, h⟩ := panic_check h
  rcases bind_eq_panic.1 h with h | ⟨_, _, _, h⟩
  · exact many_np_at (fun p => ExtendedCue.np hd) _ _ h
  · cases h

theorem Path.panic {h : Header} {d : Bytes} {p : Nat} (hd : d.length + 80 ≤ 2 ^ 32)
    (hp : Path.read h d p = .panic) : h.totalSize.toNat < h.size.toNat := by
  unfold Path.read at hp
  obtain ⟨len, _, hp⟩ := panic_u32 hp
  rcases panic_compute hp with hp | ⟨n, hn, hp⟩
  · exact Header.contentSize_panic.1 hp
  obtain ⟨_, hp⟩ := panic_check hp
  obtain ⟨us, q, hus, hp⟩ := panic_skip readWideUnits_np hp
  rcases panic_compute hp with hp | ⟨n', hn', hp⟩
  · exact Header.contentSize_panic.1 hp
  obtain ⟨_, hp⟩ := panic_check hp
  rcases panic_compute hp with hp | ⟨m, hm, hp⟩
  · obtain ⟨bs, hb, _, rfl, _⟩ := readWideUnits_inv _ _ _ _ hus
    have hbound := hb.bound (by intro hc; have := congrArg List.length hc; rw [encWideUnits_length] at this; simp at this)
    rw [encWideUnits_length] at hbound
    rw [Path.lenPath_eq (by simp only; omega)] at hp
    cases hp
  · obtain ⟨_, hp⟩ := panic_check hp
    cases hp

/-! ## The other contents -/

theorem Vbr.panic {h : Header} {d : Bytes} {p : Nat} (hp : Vbr.read h d p = .panic) :
    h.totalSize.toNat < h.size.toNat := by
  unfold Vbr.read at hp
  obtain ⟨_, _, hp⟩ := panic_u32 hp
  rcases panic_compute hp with hp | ⟨n, hn, hp⟩
  · exact Header.contentSize_panic.1 hp
  · exact no_panic (NP.bind (NP.bytes _) fun _ => NP.pure _) hp

theorem Unknown.panic {h : Header} {d : Bytes} {p : Nat} (hp : Unknown.read h d p = .panic) :
    h.size.toNat < 12 ∨ h.totalSize.toNat < h.size.toNat := by
  unfold Unknown.read at hp
  rcases panic_compute hp with hp | ⟨n, hn, hp⟩
  · exact .inl (Header.remainingSize_panic.1 hp)
  obtain ⟨_, _, _, hp⟩ := panic_skip (NP.bytes _) hp
  rcases panic_compute hp with hp | ⟨n, hn, hp⟩
  · exact .inr (Header.contentSize_panic.1 hp)
  · exact no_panic (NP.bind (NP.bytes _) fun _ => NP.pure _) hp

theorem WaveformPreview.panic {h : Header} {d : Bytes} {p : Nat} (hp : WaveformPreview.read h d p = .panic) :
    h.totalSize.toNat < h.size.toNat := by
  unfold WaveformPreview.read at hp
  obtain ⟨_, _, hp⟩ := panic_u32 hp
  rcases panic_compute hp with hp | ⟨n, hn, hp⟩
  · exact Header.contentSize_panic.1 hp
  · obtain ⟨_, hp⟩ := panic_check hp
    exact no_panic (NP.bind NP.u32be fun _ => NP.bind (NP.many WaveformPreviewColumn.np _) fun _ => NP.pure _) hp

theorem TinyWaveformPreview.panic {h : Header} {d : Bytes} {p : Nat}
    (hp : TinyWaveformPreview.read h d p = .panic) : h.totalSize.toNat < h.size.toNat := by
  unfold TinyWaveformPreview.read at hp
  obtain ⟨_, _, hp⟩ := panic_u32 hp
  rcases panic_compute hp with hp | ⟨n, hn, hp⟩
  · exact Header.contentSize_panic.1 hp
  · obtain ⟨_, hp⟩ := panic_check hp
    exact no_panic (NP.bind NP.u32be fun _ => NP.bind (NP.many TinyWaveformPreviewColumn.np _) fun _ => NP.pure _) hp

theorem readEntryLens_panic {h : Header} {e : UInt32} {d : Bytes} {p : Nat}
    (hp : readEntryLens h e d p = .panic) :
    h.totalSize.toNat < h.size.toNat ∨ ∃ n : UInt32, U32BeAt d (p + 4) n.toNat ∧ 2 ^ 32 ≤ e.toNat * n.toNat := by
  unfold readEntryLens at hp
  obtain ⟨a, _, hp⟩ := panic_u32 hp
  obtain ⟨ha, hp⟩ := panic_check hp
  simp only [beq_iff_eq] at ha
  obtain ⟨n, hn, hp⟩ := panic_u32 hp
  rcases panic_compute hp with hp | ⟨m, hm, hp⟩
  · right
    refine ⟨n, hn, ?_⟩
    unfold mulU32 at hp
    split at hp
    · cases hp
    · rw [ha] at *; omega
  · rcases panic_compute hp with hp | ⟨k, hk, hp⟩
    · exact .inl (Header.contentSize_panic.1 hp)
    · obtain ⟨_, hp⟩ := panic_check hp
      cases hp

theorem entries_panic {α : Type} {h : Header} {e : UInt32} {k : UInt32 → Rd α} {d : Bytes} {p : Nat}
    (hk : ∀ n, NP (k n)) (hp : (readEntryLens h e >>= k) d p = .panic) :
    h.totalSize.toNat < h.size.toNat ∨ ∃ n : UInt32, U32BeAt d (p + 4) n.toNat ∧ 2 ^ 32 ≤ e.toNat * n.toNat := by
  rcases bind_eq_panic.1 hp with hp | ⟨n, q, _, hp⟩
  · exact readEntryLens_panic hp
  · exact no_panic (hk n) hp

theorem getKey_panic {n : UInt16} {xs : Bytes} (h : SongStructureData.getKey n xs = .panic) :
    ∃ x ∈ xs, 65536 ≤ x.toNat + n.toNat := by
  refine Classical.byContradiction fun hc => ?_
  rw [getKey_ok fun x hx => ?_] at h
  · cases h
  · refine Classical.byContradiction fun hc' => hc ⟨x, hx, by omega⟩

theorem keyData_le : ∀ x ∈ SongStructureData.keyData, x.toNat ≤ 250 := by decide

theorem SongStructure.panic {h : Header} {d : Bytes} {p : Nat} (hp : SongStructure.read h d p = .panic) :
    h.totalSize.toNat < h.size.toNat ∨ ∃ n : UInt16, U16BeAt d (p + 4) n.toNat ∧ 65286 ≤ n.toNat := by
  unfold SongStructure.read at hp
  obtain ⟨a, _, hp⟩ := panic_u32 hp
  obtain ⟨ha, hp⟩ := panic_check hp
  simp only [beq_iff_eq] at ha
  obtain ⟨n, hn, hp⟩ := panic_u16 hp
  rcases panic_compute hp with hp | ⟨m, hm, hp⟩
  · exfalso
    unfold mulU32 at hp
    have := n.toNat_lt
    have e : (24 : UInt32).toNat = 24 := rfl
    rw [ha, e, if_pos (by omega)] at hp
    cases hp
  rcases panic_compute hp with hp | ⟨k, hk, hp⟩
  · exact .inl (Header.contentSize_panic.1 hp)
  obtain ⟨_, hp⟩ := panic_check hp
  right
  refine ⟨n, hn, ?_⟩
  rcases bind_eq_panic.1 hp with hp | ⟨b, q, _, hp⟩
  · unfold Rd.restore at hp
    split at hp
    · cases hp
    · cases hp
    · rename_i hp'
      obtain ⟨raw, q, _, hp'⟩ := panic_skip (NP.bytes _) hp'
      have hp' := lift_panic hp'
      unfold SongStructureData.checkIfEncrypted at hp'
      cases hg : SongStructureData.getKey n (SongStructureData.keyData.take 2) with
      | ok key =>
        rw [hg, Res.ok_bind] at hp'
        simp only at hp'
        split at hp'
        · cases hp'
        · cases hp'
        · rename_i hm; exact no_panic Mood.np hm
      | err e => rw [hg] at hp'; cases hp'
      | panic =>
        obtain ⟨x, hx, hle⟩ := getKey_panic hg
        have := keyData_le x (List.mem_of_mem_take hx)
        omega
  · rcases bind_eq_panic.1 hp with hp | ⟨_, _, _, hp⟩
    · unfold SongStructureData.readEncrypted at hp
      split at hp
      · cases hg : SongStructureData.getKey n SongStructureData.keyData with
        | ok key => rw [hg] at hp; exact no_panic (SongStructureData.np n) hp
        | err e => rw [hg] at hp; cases hp
        | panic =>
          obtain ⟨x, hx, hle⟩ := getKey_panic hg
          have := keyData_le x hx
          omega
      · exact no_panic (SongStructureData.np n) hp
    · cases hp

theorem orElse_panic {α : Type} {r s : Rd α} {d : Bytes} {p : Nat} (h : (r.orElse s) d p = .panic) :
    r d p = .panic ∨ s d p = .panic := by
  unfold Rd.orElse at h
  split at h
  · cases h
  · left; assumption
  · exact .inr h

theorem variant_panic {α : Type} {g : Bool} {r : Rd α} {f : α → Content} {d : Bytes} {p : Nat}
    (h : Content.variant g r f d p = .panic) : g = true ∧ r d p = .panic := by
  obtain ⟨hg, h⟩ := panic_check h
  refine ⟨hg, ?_⟩
  rcases bind_eq_panic.1 h with h | ⟨_, _, _, h⟩
  · exact h
  · cases h

theorem Content.panic {h : Header} {d : Bytes} {p : Nat} (hd : d.length + 80 ≤ 2 ^ 32)
    (hp : Content.read h d (p + 12) = .panic) : SectionPanicCause d p h := by
  have big : ∀ n : UInt32, ¬ (2 ^ 32 ≤ (1 : UInt32).toNat * n.toNat) := by
    intro n; have := n.toNat_lt; rw [show (1 : UInt32).toNat = 1 from rfl]; omega
  unfold Content.read at hp
  rcases orElse_panic hp with hp | hp
  · exact no_panic BeatGrid.np (variant_panic hp).2
  rcases orElse_panic hp with hp | hp
  · exact no_panic CueList.np (variant_panic hp).2
  rcases orElse_panic hp with hp | hp
  · exact absurd (variant_panic hp).2 (ExtendedCueList.np hd)
  rcases orElse_panic hp with hp | hp
  · obtain ⟨hk, hp⟩ := variant_panic hp
    simp only [beq_iff_eq] at hk
    exact .shortTotal (by rw [hk]; rfl) (Path.panic hd hp)
  rcases orElse_panic hp with hp | hp
  · obtain ⟨hk, hp⟩ := variant_panic hp
    simp only [beq_iff_eq] at hk
    exact .shortTotal (by rw [hk]; rfl) (Vbr.panic hp)
  rcases orElse_panic hp with hp | hp
  · obtain ⟨hk, hp⟩ := variant_panic hp
    simp only [beq_iff_eq] at hk
    exact .shortTotal (by rw [hk]; rfl) (WaveformPreview.panic hp)
  rcases orElse_panic hp with hp | hp
  · obtain ⟨hk, hp⟩ := variant_panic hp
    simp only [beq_iff_eq] at hk
    exact .shortTotal (by rw [hk]; rfl) (TinyWaveformPreview.panic hp)
  rcases orElse_panic hp with hp | hp
  · obtain ⟨hk, hp⟩ := variant_panic hp
    simp only [beq_iff_eq] at hk
    rcases entries_panic (fun n => NP.bind NP.u32be fun _ => NP.bind (NP.require _ _) fun _ =>
      NP.bind (NP.many WaveformPreviewColumn.np _) fun _ => NP.pure _) hp with hp | ⟨n, hn, hb⟩
    · exact .shortTotal (by rw [hk]; rfl) hp
    · exact absurd hb (big n)
  rcases orElse_panic hp with hp | hp
  · obtain ⟨hk, hp⟩ := variant_panic hp
    simp only [beq_iff_eq] at hk
    rcases entries_panic (fun n => NP.bind NP.u32be fun _ =>
      NP.bind (NP.many WaveformColorPreviewColumn.np _) fun _ => NP.pure _) hp with hp | ⟨n, hn, hb⟩
    · exact .shortTotal (by rw [hk]; rfl) hp
    · exact .manyEntries n.toNat hn (by rw [hk]; exact hb)
  rcases orElse_panic hp with hp | hp
  · obtain ⟨hk, hp⟩ := variant_panic hp
    simp only [beq_iff_eq] at hk
    rcases entries_panic (fun n => NP.bind NP.u32be fun _ =>
      NP.bind (NP.many WaveformColorDetailColumn.np _) fun _ => NP.pure _) hp with hp | ⟨n, hn, hb⟩
    · exact .shortTotal (by rw [hk]; rfl) hp
    · exact .manyEntries n.toNat hn (by rw [hk]; exact hb)
  rcases orElse_panic hp with hp | hp
  · obtain ⟨hk, hp⟩ := variant_panic hp
    simp only [beq_iff_eq] at hk
    rcases entries_panic (fun n =>
      NP.bind (NP.many Waveform3BandPreviewColumn.np _) fun _ => NP.pure _) hp with hp | ⟨n, hn, hb⟩
    · exact .shortTotal (by rw [hk]; rfl) hp
    · exact .manyEntries n.toNat hn (by rw [hk]; exact hb)
  rcases orElse_panic hp with hp | hp
  · obtain ⟨hk, hp⟩ := variant_panic hp
    simp only [beq_iff_eq] at hk
    rcases entries_panic (fun n => NP.bind NP.u32be fun _ => NP.bind (NP.require _ _) fun _ =>
      NP.bind (NP.many Waveform3BandDetailColumn.np _) fun _ => NP.pure _) hp with hp | ⟨n, hn, hb⟩
    · exact .shortTotal (by rw [hk]; rfl) hp
    · exact .manyEntries n.toNat hn (by rw [hk]; exact hb)
  rcases orElse_panic hp with hp | hp
  · obtain ⟨hk, hp⟩ := variant_panic hp
    simp only [beq_iff_eq] at hk
    rcases SongStructure.panic hp with hp | ⟨n, hn, hb⟩
    · exact .shortTotal (by rw [hk]; rfl) hp
    · exact .manyPhrases hk n.toNat hn hb
  · obtain ⟨hk, hp⟩ := variant_panic hp
    rcases Unknown.panic hp with hp | hp
    · exact .shortHeader hk hp
    · refine .shortTotal ?_ hp
      unfold Kind.usesContentSize
      split <;> first | rfl | exact hk

theorem Header.headerAt {d : Bytes} {p : Nat} {h : Header} (hb : HasAt d p h.enc) : HeaderAt d p h := by
  unfold Header.enc at hb
  rw [HasAt.append_iff, HasAt.append_iff, Kind.enc_length, encU32be_length] at hb
  exact ⟨hb.1, .of_hasAt hb.2.1, .of_hasAt hb.2.2⟩

theorem AnlzSection.panic {d : Bytes} {p : Nat} (hd : d.length + 80 ≤ 2 ^ 32)
    (hp : AnlzSection.read d p = .panic) : ∃ h, HeaderAt d p h ∧ SectionPanicCause d p h := by
  unfold AnlzSection.read at hp
  obtain ⟨h, q, h1, hp⟩ := panic_skip Header.np hp
  obtain ⟨bs, hb, rfl, rfl, _⟩ := Header.inv _ _ _ _ h1
  refine ⟨h, Header.headerAt hb, ?_⟩
  rcases bind_eq_panic.1 hp with hp | ⟨_, _, _, hp⟩
  · rw [Header.enc_length] at hp
    exact Content.panic hd hp
  · cases hp

end Rekordcrate.Anlz
