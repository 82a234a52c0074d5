import Verif.Lemmas.AnlzContentAt
import Verif.Lemmas.WrapRewrite

/-! # Which bytes are read as which song structure, section and analysis file -/

namespace Rekordcrate.Anlz
open Rd

/-! ## Song structure -/

theorem song_data_read_iff {n : UInt16} {d : Bytes} {p : Nat} {c : SongStructureData} {q : Nat} :
    SongStructureData.read n d p = .ok (c, q) ↔
      c.phrases.length = n.toNat ∧ c.At d p ∧ q = p + 14 + 24 * n.toNat := by
  unfold SongStructureData.read SongStructureData.At
  simp only [bind_eq_ok, pure_eq_ok, mood_read_iff, u32be_read_iff, u16be_read_iff, bank_read_iff, u8_read_iff,
    many_read_iff (fun _ _ _ => phrase_read_iff)]
  constructor
  · rintro ⟨_, _, ⟨h1, rfl⟩, _, _, ⟨h2, rfl⟩, _, _, ⟨h3, rfl⟩, _, _, ⟨h4, rfl⟩, _, _, ⟨h5, rfl⟩, _, _, ⟨h6, rfl⟩,
      _, _, ⟨h7, rfl⟩, _, _, ⟨h8, h9, rfl⟩, rfl, rfl⟩
    exact ⟨h8, ⟨h1, h2, h3, h4, h5, h6, h7, h9⟩, rfl⟩
  · rintro ⟨h8, ⟨h1, h2, h3, h4, h5, h6, h7, h9⟩, rfl⟩
    exact ⟨_, _, ⟨h1, rfl⟩, _, _, ⟨h2, rfl⟩, _, _, ⟨h3, rfl⟩, _, _, ⟨h4, rfl⟩, _, _, ⟨h5, rfl⟩, _, _, ⟨h6, rfl⟩,
      _, _, ⟨h7, rfl⟩, _, _, ⟨h8, h9, rfl⟩, rfl, rfl⟩

theorem song_data_hasAt_iff {d : Bytes} {p : Nat} {c : SongStructureData} (hc : c.phrases.length < 2 ^ 16) :
    HasAt d p c.enc ↔ c.At d p := by
  have hn : c.phrases.length = (UInt16.ofNat c.phrases.length).toNat := (toNat_ofNat16 hc).symm
  constructor
  · intro h
    exact (song_data_read_iff.1 (SongStructureData.rt hn d p h)).2.1
  · intro h
    obtain ⟨bs, h1, -, rfl, -⟩ := SongStructureData.inv _ _ _ _ _ (song_data_read_iff.2 ⟨hn, h, rfl⟩)
    exact h1

theorem deciphered_getElem? (n p : Nat) (d : Bytes) (i : Nat) :
    (deciphered n p d)[p + i]? = d[p + i]?.map (· ^^^ songKeyByte n i) := by
  unfold deciphered
  rw [List.getElem?_mapIdx]
  simp only [Nat.add_sub_cancel_left, show ¬ p + i < p by omega, if_false]

theorem deciphered_hasAt_iff {n p : Nat} (hn : n < 2 ^ 16) {d bs : Bytes} :
    HasAt d p (XorStream.xorBuf (songKey (UInt16.ofNat n)) 0 bs) ↔ HasAt (deciphered n p d) p bs := by
  rw [← decipher_hasAt (songKey_ne _)]
  unfold HasAt
  refine forall_congr' fun i => forall_congr' fun _ => ?_
  rw [decipher_getElem? (songKey_ne _), deciphered_getElem?, keyByte_eq hn]

theorem song_bytes_hasAt_iff {d : Bytes} {p : Nat} {c : SongStructure} (hc : c.data.phrases.length < 2 ^ 16) :
    HasAt d p (encU32be 24 ++ (encU16be (UInt16.ofNat c.data.phrases.length) ++ c.dataBytes)) ↔
      U32BeAt d p 24 ∧ U16BeAt d (p + 4) c.data.phrases.length ∧
      c.data.At (if c.isEncrypted then deciphered c.data.phrases.length (p + 6) d else d) (p + 6) := by
  rw [HasAt.append_iff, HasAt.append_iff, hasAt_u32be_iff, hasAt_u16be_iff, encU32be_length, encU16be_length,
    toNat_ofNat16 hc, Nat.add_assoc p 4 2, SongStructure.dataBytes]
  refine and_congr Iff.rfl (and_congr Iff.rfl ?_)
  split
  · rw [deciphered_hasAt_iff hc, song_data_hasAt_iff hc]
  · rw [song_data_hasAt_iff hc]

theorem song_bytes_length (c : SongStructure) :
    (encU32be 24 ++ (encU16be (UInt16.ofNat c.data.phrases.length) ++ c.dataBytes)).length =
      20 + 24 * c.data.phrases.length := by
  rw [List.length_append, List.length_append, SongStructure.dataBytes_length, encU32be_length, encU16be_length]
  omega

theorem songStructure_read_iff {d : Bytes} {p : Nat} {c : SongStructure} {q : Nat} {h : Header}
    (hk : h.kind = .songStructure) :
    SongStructure.read h d p = .ok (c, q) ↔ (Content.songStructure c).At true h d p q := by
  unfold Content.At
  constructor
  · intro hr
    obtain ⟨bs, hb, hq, he, hf, hs⟩ := SongStructure.inv h d p c q hr
    rw [SongStructure.enc_eq hf] at he
    injection he with he
    subst he
    rw [song_bytes_length, ← Nat.add_assoc] at hq
    obtain ⟨h1, h2, h3⟩ := (song_bytes_hasAt_iff hf.lt16).1 hb
    exact ⟨hk, h1, h2, hs, fun _ => hf, h3, hq⟩
  · rintro ⟨-, h1, h2, hs, hf, h3, rfl⟩
    have hf : c.Fits := hf rfl
    have := SongStructure.rt hf hs d p ((song_bytes_hasAt_iff hf.lt16).2 ⟨h1, h2, h3⟩)
    rw [song_bytes_length, ← Nat.add_assoc] at this
    exact this

theorem songStructure_release_read_iff {d : Bytes} {p : Nat} {c : SongStructure} {q : Nat} {h : Header}
    (hk : h.kind = .songStructure) :
    SongStructure.readWrap h d p = .ok (c, q) ↔ (Content.songStructure c).At false h d p q := by
  unfold Content.At
  constructor
  · intro hr
    obtain ⟨bs, hb, hq, rfl, hl, hs⟩ := SongStructure.inv_wrap h d p c q hr
    rw [SongStructure.encWrap_eq] at hb hq
    rw [song_bytes_length, ← Nat.add_assoc] at hq
    obtain ⟨h1, h2, h3⟩ := (song_bytes_hasAt_iff hl).1 hb
    exact ⟨hk, h1, h2, hs, (fun h => by cases h), h3, hq⟩
  · rintro ⟨-, h1, h2, hs, -, h3, rfl⟩
    have := SongStructure.rt_wrap h2.lt hs d p
    rw [SongStructure.encWrap_eq] at this
    have := this ((song_bytes_hasAt_iff h2.lt).2 ⟨h1, h2, h3⟩)
    rw [song_bytes_length, ← Nat.add_assoc] at this
    exact this

/-! ## Contents -/

theorem skip_eq {α : Type} {r : Rd α} {f : α → Content} {s : Rd Content} :
    Rd.orElse (Content.variant false r f) s = s := id rfl

theorem last_iff {α : Type} {r : Rd α} {f : α → Content} {d : Bytes} {p : Nat} {c : Content} {q : Nat} :
    Content.variant false r f d p = .ok (c, q) ↔ False := ⟨(fun h => by cases h), False.elim⟩

theorem variant_iff {α : Type} {r : Rd α} {f : α → Content} {d : Bytes} {p : Nat} {c : Content} {q : Nat} :
    Content.variant true r f d p = .ok (c, q) ↔ ∃ a, r d p = .ok (a, q) ∧ c = f a := by
  unfold Content.variant
  simp only [require_true_bind, bind_eq_ok, pure_eq_ok]
  constructor
  · rintro ⟨a, _, h, rfl, rfl⟩
    exact ⟨a, h, rfl⟩
  · rintro ⟨a, h, rfl⟩
    exact ⟨a, _, h, rfl, rfl⟩

theorem pick_iff {α β : Type} {r : Rd α} {f : α → Content} {r' : Rd β} {f' : β → Content} {d : Bytes} {p : Nat}
    {c : Content} {q : Nat} :
    Rd.orElse (Content.variant true r f) (Content.variant false r' f') d p = .ok (c, q) ↔
      ∃ a, r d p = .ok (a, q) ∧ c = f a := by
  rw [← variant_iff]
  unfold Rd.orElse
  cases Content.variant true r f d p with
  | ok x => rfl
  | err e => simp only [last_iff, reduceCtorEq]
  | panic => rfl

/-- The kind of the header with which a content can be read. -/
def Content.Suits : Content → Kind → Prop
  | beatGrid _, k => k = .beatGrid
  | cueList _, k => k = .cueList
  | extendedCueList _, k => k = .extendedCueList
  | path _, k => k = .path
  | vbr _, k => k = .vbr
  | waveformPreview _, k => k = .waveformPreview
  | tinyWaveformPreview _, k => k = .tinyWaveformPreview
  | waveformDetail _, k => k = .waveformDetail
  | waveformColorPreview _, k => k = .waveformColorPreview
  | waveformColorDetail _, k => k = .waveformColorDetail
  | waveform3BandPreview _, k => k = .waveform3BandPreview
  | waveform3BandDetail _, k => k = .waveform3BandDetail
  | songStructure _, k => k = .songStructure
  | unknown _, k => k.isUnknown = true

theorem Content.At.suits {ck : Bool} {h : Header} {d : Bytes} {p q : Nat} {c : Content} (hc : c.At ck h d p q) :
    c.Suits h.kind := by
  unfold Content.At at hc
  cases c <;> exact hc.1

theorem content_of_kind {α : Type} {r : Rd α} {f : α → Content} {ck : Bool} {h : Header} {d : Bytes} {p : Nat}
    {c : Content} {q : Nat} (hr : ∀ a, r d p = .ok (a, q) ↔ (f a).At ck h d p q)
    (hf : c.At ck h d p q → ∃ a, c = f a) :
    (∃ a, r d p = .ok (a, q) ∧ c = f a) ↔ c.At ck h d p q := by
  constructor
  · rintro ⟨a, h1, rfl⟩
    exact (hr a).1 h1
  · intro h1
    obtain ⟨a, rfl⟩ := hf h1
    exact ⟨a, (hr a).2 h1, rfl⟩

theorem kind_beq_false {a b : Kind} (h : a ≠ b) : (a == b) = false := beq_eq_false_iff_ne.2 h

theorem content_at_iff {h : Header} {d : Bytes} {p : Nat} {c : Content} {q : Nat} :
    Content.read h d p = .ok (c, q) ↔ c.At true h d p q := by
  unfold Content.read
  cases hk : h.kind with
  | file | cue | extendedCue =>
    simp only [kind_beq_false, skip_eq, ne_eq, reduceCtorEq, not_false_eq_true, Kind.isUnknown, last_iff, false_iff]
    intro hc
    have := hc.suits
    rw [hk] at this
    cases c <;> cases this
  | beatGrid =>
    simp only [kind_beq_false, skip_eq, ne_eq, reduceCtorEq, not_false_eq_true, Kind.isUnknown, pick_iff, beq_self_eq_true]
    refine content_of_kind (fun _ => beatGrid_read_iff hk) fun hc => ?_
    have := hc.suits
    rw [hk] at this
    cases c <;> first | exact ⟨_, rfl⟩ | cases this
  | cueList =>
    simp only [kind_beq_false, skip_eq, ne_eq, reduceCtorEq, not_false_eq_true, Kind.isUnknown, pick_iff, beq_self_eq_true]
    refine content_of_kind (fun _ => cueList_read_iff hk) fun hc => ?_
    have := hc.suits
    rw [hk] at this
    cases c <;> first | exact ⟨_, rfl⟩ | cases this
  | extendedCueList =>
    simp only [kind_beq_false, skip_eq, ne_eq, reduceCtorEq, not_false_eq_true, Kind.isUnknown, pick_iff, beq_self_eq_true]
    refine content_of_kind (fun _ => extendedCueList_read_iff hk) fun hc => ?_
    have := hc.suits
    rw [hk] at this
    cases c <;> first | exact ⟨_, rfl⟩ | cases this
  | path =>
    simp only [kind_beq_false, skip_eq, ne_eq, reduceCtorEq, not_false_eq_true, Kind.isUnknown, pick_iff, beq_self_eq_true]
    refine content_of_kind (fun _ => path_read_iff hk) fun hc => ?_
    have := hc.suits
    rw [hk] at this
    cases c <;> first | exact ⟨_, rfl⟩ | cases this
  | vbr =>
    simp only [kind_beq_false, skip_eq, ne_eq, reduceCtorEq, not_false_eq_true, Kind.isUnknown, pick_iff, beq_self_eq_true]
    refine content_of_kind (fun _ => vbr_read_iff hk) fun hc => ?_
    have := hc.suits
    rw [hk] at this
    cases c <;> first | exact ⟨_, rfl⟩ | cases this
  | waveformPreview =>
    simp only [kind_beq_false, skip_eq, ne_eq, reduceCtorEq, not_false_eq_true, Kind.isUnknown, pick_iff, beq_self_eq_true]
    refine content_of_kind (fun _ => waveformPreview_read_iff hk) fun hc => ?_
    have := hc.suits
    rw [hk] at this
    cases c <;> first | exact ⟨_, rfl⟩ | cases this
  | tinyWaveformPreview =>
    simp only [kind_beq_false, skip_eq, ne_eq, reduceCtorEq, not_false_eq_true, Kind.isUnknown, pick_iff, beq_self_eq_true]
    refine content_of_kind (fun _ => tinyWaveformPreview_read_iff hk) fun hc => ?_
    have := hc.suits
    rw [hk] at this
    cases c <;> first | exact ⟨_, rfl⟩ | cases this
  | waveformDetail =>
    simp only [kind_beq_false, skip_eq, ne_eq, reduceCtorEq, not_false_eq_true, Kind.isUnknown, pick_iff, beq_self_eq_true]
    refine content_of_kind (fun _ => waveformDetail_read_iff hk) fun hc => ?_
    have := hc.suits
    rw [hk] at this
    cases c <;> first | exact ⟨_, rfl⟩ | cases this
  | waveformColorPreview =>
    simp only [kind_beq_false, skip_eq, ne_eq, reduceCtorEq, not_false_eq_true, Kind.isUnknown, pick_iff, beq_self_eq_true]
    refine content_of_kind (fun _ => waveformColorPreview_read_iff hk) fun hc => ?_
    have := hc.suits
    rw [hk] at this
    cases c <;> first | exact ⟨_, rfl⟩ | cases this
  | waveformColorDetail =>
    simp only [kind_beq_false, skip_eq, ne_eq, reduceCtorEq, not_false_eq_true, Kind.isUnknown, pick_iff, beq_self_eq_true]
    refine content_of_kind (fun _ => waveformColorDetail_read_iff hk) fun hc => ?_
    have := hc.suits
    rw [hk] at this
    cases c <;> first | exact ⟨_, rfl⟩ | cases this
  | waveform3BandPreview =>
    simp only [kind_beq_false, skip_eq, ne_eq, reduceCtorEq, not_false_eq_true, Kind.isUnknown, pick_iff, beq_self_eq_true]
    refine content_of_kind (fun _ => waveform3BandPreview_read_iff hk) fun hc => ?_
    have := hc.suits
    rw [hk] at this
    cases c <;> first | exact ⟨_, rfl⟩ | cases this
  | waveform3BandDetail =>
    simp only [kind_beq_false, skip_eq, ne_eq, reduceCtorEq, not_false_eq_true, Kind.isUnknown, pick_iff, beq_self_eq_true]
    refine content_of_kind (fun _ => waveform3BandDetail_read_iff hk) fun hc => ?_
    have := hc.suits
    rw [hk] at this
    cases c <;> first | exact ⟨_, rfl⟩ | cases this
  | songStructure =>
    simp only [kind_beq_false, skip_eq, ne_eq, reduceCtorEq, not_false_eq_true, Kind.isUnknown, pick_iff, beq_self_eq_true]
    refine content_of_kind (fun _ => songStructure_read_iff hk) fun hc => ?_
    have := hc.suits
    rw [hk] at this
    cases c <;> first | exact ⟨_, rfl⟩ | cases this
  | unknown a b e g =>
    simp only [kind_beq_false, skip_eq, ne_eq, reduceCtorEq, not_false_eq_true, Kind.isUnknown, variant_iff]
    refine content_of_kind (fun _ => unknown_read_iff (by rw [hk]; rfl)) fun hc => ?_
    have := hc.suits
    rw [hk] at this
    cases c <;> first | exact ⟨_, rfl⟩ | cases this

theorem content_at_release_iff {h : Header} {d : Bytes} {p : Nat} {c : Content} {q : Nat} :
    Content.readWrap h d p = .ok (c, q) ↔ c.At false h d p q := by
  unfold Content.readWrap
  cases hk : h.kind with
  | file | cue | extendedCue =>
    simp only [kind_beq_false, skip_eq, ne_eq, reduceCtorEq, not_false_eq_true, Kind.isUnknown, last_iff, false_iff]
    intro hc
    have := hc.suits
    rw [hk] at this
    cases c <;> cases this
  | beatGrid =>
    simp only [kind_beq_false, skip_eq, ne_eq, reduceCtorEq, not_false_eq_true, Kind.isUnknown, pick_iff, beq_self_eq_true]
    refine content_of_kind (fun _ => beatGrid_read_iff hk) fun hc => ?_
    have := hc.suits
    rw [hk] at this
    cases c <;> first | exact ⟨_, rfl⟩ | cases this
  | cueList =>
    simp only [kind_beq_false, skip_eq, ne_eq, reduceCtorEq, not_false_eq_true, Kind.isUnknown, pick_iff, beq_self_eq_true]
    refine content_of_kind (fun _ => cueList_read_iff hk) fun hc => ?_
    have := hc.suits
    rw [hk] at this
    cases c <;> first | exact ⟨_, rfl⟩ | cases this
  | extendedCueList =>
    simp only [kind_beq_false, skip_eq, ne_eq, reduceCtorEq, not_false_eq_true, Kind.isUnknown, pick_iff, beq_self_eq_true]
    refine content_of_kind (fun _ => extendedCueList_release_read_iff hk) fun hc => ?_
    have := hc.suits
    rw [hk] at this
    cases c <;> first | exact ⟨_, rfl⟩ | cases this
  | path =>
    simp only [kind_beq_false, skip_eq, ne_eq, reduceCtorEq, not_false_eq_true, Kind.isUnknown, pick_iff, beq_self_eq_true]
    refine content_of_kind (fun _ => path_release_read_iff hk) fun hc => ?_
    have := hc.suits
    rw [hk] at this
    cases c <;> first | exact ⟨_, rfl⟩ | cases this
  | vbr =>
    simp only [kind_beq_false, skip_eq, ne_eq, reduceCtorEq, not_false_eq_true, Kind.isUnknown, pick_iff, beq_self_eq_true]
    refine content_of_kind (fun _ => vbr_release_read_iff hk) fun hc => ?_
    have := hc.suits
    rw [hk] at this
    cases c <;> first | exact ⟨_, rfl⟩ | cases this
  | waveformPreview =>
    simp only [kind_beq_false, skip_eq, ne_eq, reduceCtorEq, not_false_eq_true, Kind.isUnknown, pick_iff, beq_self_eq_true]
    refine content_of_kind (fun _ => waveformPreview_release_read_iff hk) fun hc => ?_
    have := hc.suits
    rw [hk] at this
    cases c <;> first | exact ⟨_, rfl⟩ | cases this
  | tinyWaveformPreview =>
    simp only [kind_beq_false, skip_eq, ne_eq, reduceCtorEq, not_false_eq_true, Kind.isUnknown, pick_iff, beq_self_eq_true]
    refine content_of_kind (fun _ => tinyWaveformPreview_release_read_iff hk) fun hc => ?_
    have := hc.suits
    rw [hk] at this
    cases c <;> first | exact ⟨_, rfl⟩ | cases this
  | waveformDetail =>
    simp only [kind_beq_false, skip_eq, ne_eq, reduceCtorEq, not_false_eq_true, Kind.isUnknown, pick_iff, beq_self_eq_true]
    refine content_of_kind (fun _ => waveformDetail_release_read_iff hk) fun hc => ?_
    have := hc.suits
    rw [hk] at this
    cases c <;> first | exact ⟨_, rfl⟩ | cases this
  | waveformColorPreview =>
    simp only [kind_beq_false, skip_eq, ne_eq, reduceCtorEq, not_false_eq_true, Kind.isUnknown, pick_iff, beq_self_eq_true]
    refine content_of_kind (fun _ => waveformColorPreview_release_read_iff hk) fun hc => ?_
    have := hc.suits
    rw [hk] at this
    cases c <;> first | exact ⟨_, rfl⟩ | cases this
  | waveformColorDetail =>
    simp only [kind_beq_false, skip_eq, ne_eq, reduceCtorEq, not_false_eq_true, Kind.isUnknown, pick_iff, beq_self_eq_true]
    refine content_of_kind (fun _ => waveformColorDetail_release_read_iff hk) fun hc => ?_
    have := hc.suits
    rw [hk] at this
    cases c <;> first | exact ⟨_, rfl⟩ | cases this
  | waveform3BandPreview =>
    simp only [kind_beq_false, skip_eq, ne_eq, reduceCtorEq, not_false_eq_true, Kind.isUnknown, pick_iff, beq_self_eq_true]
    refine content_of_kind (fun _ => waveform3BandPreview_release_read_iff hk) fun hc => ?_
    have := hc.suits
    rw [hk] at this
    cases c <;> first | exact ⟨_, rfl⟩ | cases this
  | waveform3BandDetail =>
    simp only [kind_beq_false, skip_eq, ne_eq, reduceCtorEq, not_false_eq_true, Kind.isUnknown, pick_iff, beq_self_eq_true]
    refine content_of_kind (fun _ => waveform3BandDetail_release_read_iff hk) fun hc => ?_
    have := hc.suits
    rw [hk] at this
    cases c <;> first | exact ⟨_, rfl⟩ | cases this
  | songStructure =>
    simp only [kind_beq_false, skip_eq, ne_eq, reduceCtorEq, not_false_eq_true, Kind.isUnknown, pick_iff, beq_self_eq_true]
    refine content_of_kind (fun _ => songStructure_release_read_iff hk) fun hc => ?_
    have := hc.suits
    rw [hk] at this
    cases c <;> first | exact ⟨_, rfl⟩ | cases this
  | unknown a b e g =>
    simp only [kind_beq_false, skip_eq, ne_eq, reduceCtorEq, not_false_eq_true, Kind.isUnknown, variant_iff]
    refine content_of_kind (fun _ => unknown_release_read_iff (by rw [hk]; rfl)) fun hc => ?_
    have := hc.suits
    rw [hk] at this
    cases c <;> first | exact ⟨_, rfl⟩ | cases this

/-! ## Sections and files -/

theorem section_at_iff {d : Bytes} {p : Nat} {s : AnlzSection} {q : Nat} :
    AnlzSection.read d p = .ok (s, q) ↔ s.At true d p q := by
  unfold AnlzSection.read AnlzSection.At
  simp only [bind_eq_ok, pure_eq_ok, header_at_iff, content_at_iff]
  constructor
  · rintro ⟨_, _, ⟨h1, rfl⟩, _, _, h2, rfl, rfl⟩
    exact ⟨h1, h2⟩
  · rintro ⟨h1, h2⟩
    exact ⟨_, _, ⟨h1, rfl⟩, _, _, h2, rfl, rfl⟩

theorem sections_at_iff {fin : Nat} {d : Bytes} {p : Nat} {ss : List AnlzSection} {q : Nat} :
    AnlzFile.parseSections fin d p = .ok (ss, q) ↔ AnlzSection.ListAt true d fin p ss q := by
  constructor
  · intro h
    induction ss generalizing p with
    | nil =>
      rcases parseSections_eq_ok h with ⟨hp, -, rfl⟩ | ⟨_, _, _, _, _, _, hc⟩
      · exact .nil (Nat.le_of_not_lt hp)
      · cases hc
    | cons s ss ih =>
      rcases parseSections_eq_ok h with ⟨_, hc, _⟩ | ⟨hp, s', m, ss', hs, hr, hc⟩
      · cases hc
      · injection hc with h1 h2
        subst h1 h2
        exact .cons hp (section_at_iff.1 hs) (ih hr)
  · intro h
    induction h with
    | nil hp => exact parseSections_done (Nat.not_lt.2 hp)
    | cons hp hs _ ih => rw [parseSections_step hp (section_at_iff.2 hs), ih]

theorem section_at_release_iff {d : Bytes} {p : Nat} {s : AnlzSection} {q : Nat} :
    AnlzSection.readWrap d p = .ok (s, q) ↔ s.At false d p q := by
  unfold AnlzSection.readWrap AnlzSection.At
  simp only [bind_eq_ok, pure_eq_ok, header_at_iff, content_at_release_iff]
  constructor
  · rintro ⟨_, _, ⟨h1, rfl⟩, _, _, h2, rfl, rfl⟩
    exact ⟨h1, h2⟩
  · rintro ⟨h1, h2⟩
    exact ⟨_, _, ⟨h1, rfl⟩, _, _, h2, rfl, rfl⟩

theorem parseSectionsWrap_done {fin : Nat} {d : Bytes} {p : Nat} (h : ¬ p < fin) :
    AnlzFile.parseSectionsWrap fin d p = .ok ([], p) := by
  rw [AnlzFile.parseSectionsWrap.eq_def, dif_neg h]

theorem parseSectionsWrap_step {fin : Nat} {d : Bytes} {p : Nat} {s : AnlzSection} {q : Nat} (h : p < fin)
    (hs : AnlzSection.readWrap d p = .ok (s, q)) :
    AnlzFile.parseSectionsWrap fin d p =
      match AnlzFile.parseSectionsWrap fin d q with
      | .ok (ss, r) => .ok (s :: ss, r)
      | .err e => .err e
      | .panic => .panic := by
  rw [AnlzFile.parseSectionsWrap.eq_def, dif_pos h]
  split
  · rename_i s' q' hs'
    rw [hs] at hs'
    injection hs' with hs'
    injection hs' with h1 h2
    subst h1 h2
    rfl
  · rename_i hs'; rw [hs] at hs'; cases hs'
  · rename_i hs'; rw [hs] at hs'; cases hs'

theorem sections_at_release_iff {fin : Nat} {d : Bytes} {p : Nat} {ss : List AnlzSection} {q : Nat} :
    AnlzFile.parseSectionsWrap fin d p = .ok (ss, q) ↔ AnlzSection.ListAt false d fin p ss q := by
  constructor
  · intro h
    induction ss generalizing p with
    | nil =>
      rcases parseSectionsWrap_eq_ok h with ⟨hp, -, rfl⟩ | ⟨_, _, _, _, _, _, hc⟩
      · exact .nil (Nat.le_of_not_lt hp)
      · cases hc
    | cons s ss ih =>
      rcases parseSectionsWrap_eq_ok h with ⟨_, hc, _⟩ | ⟨hp, s', m, ss', hs, hr, hc⟩
      · cases hc
      · injection hc with h1 h2
        subst h1 h2
        exact .cons hp (section_at_release_iff.1 hs) (ih hr)
  · intro h
    induction h with
    | nil hp => exact parseSectionsWrap_done (Nat.not_lt.2 hp)
    | cons hp hs _ ih => rw [parseSectionsWrap_step hp (section_at_release_iff.2 hs), ih]

theorem readSections_iff {n : Nat} {d : Bytes} {p : Nat} {ss : List AnlzSection} {q : Nat} :
    AnlzFile.readSections n d p = .ok (ss, q) ↔ AnlzSection.ListAt true d (p + n) p ss q := sections_at_iff

theorem readSectionsWrap_iff {n : Nat} {d : Bytes} {p : Nat} {ss : List AnlzSection} {q : Nat} :
    AnlzFile.readSectionsWrap n d p = .ok (ss, q) ↔ AnlzSection.ListAt false d (p + n) p ss q :=
  sections_at_release_iff

theorem file_at_iff {d : Bytes} {p : Nat} {a : AnlzFile} {q : Nat} :
    AnlzFile.read d p = .ok (a, q) ↔ a.At true d p q := by
  unfold AnlzFile.read AnlzFile.At
  simp only [bind_eq_ok, pure_eq_ok, header_at_iff, require_read_iff, lift_read_iff, bytes_eq_ok, beq_iff_eq,
    Header.leaves_true, Header.header_true, readSections_iff]
  constructor
  · rintro ⟨h, _, ⟨h1, rfl⟩, _, _, ⟨h2, rfl⟩, _, _, ⟨h3, rfl⟩, b, _, ⟨rfl, h4, rfl⟩, _, _, ⟨h5, rfl⟩, _, _, h6, rfl, rfl⟩
    have h3' : h.size.toNat = 12 + b.length := h3
    have := h.size.toNat_lt
    exact ⟨h1, h2, (show b.length < 2 ^ 32 by omega), h3, h4, _, h5.lt, h5, h6⟩
  · rintro ⟨h1, h2, -, h3, h4, n, -, h5, h6⟩
    exact ⟨_, _, ⟨h1, rfl⟩, (), _, ⟨h2, rfl⟩, _, _, ⟨h3, rfl⟩, _, _, ⟨rfl, h4, rfl⟩, _, _, ⟨h5, rfl⟩, _, _, h6, rfl, rfl⟩

theorem file_at_release_iff {d : Bytes} {p : Nat} {a : AnlzFile} {q : Nat} :
    AnlzFile.readWrap d p = .ok (a, q) ↔ a.At false d p q := by
  unfold AnlzFile.readWrap AnlzFile.At
  simp only [bind_eq_ok, pure_eq_ok, header_at_iff, require_read_iff, bytes_eq_ok, beq_iff_eq,
    readSectionsWrap_iff]
  constructor
  · rintro ⟨h, _, ⟨h1, rfl⟩, _, _, ⟨h2, rfl⟩, b, m, ⟨h3, h4, hm⟩, _, _, h6, rfl, rfl⟩
    have hl := h.remainingSizeWrap_lt
    have hl' := h.contentSizeWrap_lt
    rw [← h3] at hl hm
    rw [hm] at h6
    exact ⟨h1, h2, hl, (Header.header_false hl).1 h3.symm, h4, _, hl', (Header.leaves_false hl').1 rfl, h6⟩
  · rintro ⟨h1, h2, hl, h3, h4, n, hl', h5, h6⟩
    have h3 := (Header.header_false hl).2 h3
    have h5 := (Header.leaves_false hl').2 h5
    refine ⟨_, _, ⟨h1, rfl⟩, (), _, ⟨h2, rfl⟩, a.headerData, p + 12 + a.headerData.length, ⟨h3.symm, h4, by rw [h3]⟩,
      a.sections, q, ?_, rfl, rfl⟩
    rw [h5]
    exact h6

end Rekordcrate.Anlz
