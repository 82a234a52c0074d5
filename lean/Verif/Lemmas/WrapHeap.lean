import Verif.Lemmas.Wrap
import Verif.Lemmas.Rows

/-! # Sizes of rows in builds without overflow checks -/

namespace Rekordcrate
open Rd

theorem sumHeapWrap_ok (l : List Nat) : sumHeapWrap (l.map .ok) = .ok (l.sum % 65536) := by
  induction l with
  | nil => rfl
  | cons a l ih =>
    show (sumHeapWrap (l.map .ok) >>= fun s => .ok (addWrap16 a s)) = _
    rw [ih, List.sum_cons]
    show Res.ok (addWrap16 a (l.sum % 65536)) = _
    unfold addWrap16
    rw [Nat.add_mod_mod]

theorem sumHeapWrap_snoc (l : List Nat) (n : Nat) :
    sumHeapWrap (l.map .ok ++ [.ok (n % 65536)]) = .ok ((l.sum + n) % 65536) := by
  have := sumHeapWrap_ok (l ++ [n % 65536])
  rw [List.map_append, List.sum_append, List.sum_singleton, Nat.add_mod_mod] at this
  exact this

theorem OffsetContainer.heapLoopWrap_of_placed {off t : Nat} {vs : List DString} {os : List Nat} {e : Nat}
    (hoff : 4 ∣ off) (hp : Placed (off + t) vs os e) (hl : ∀ o ∈ os, o < 65536)
    (hh : ∀ v ∈ vs, ∀ bs, v.enc = .ok bs → v.heapWrap = .ok bs.length) :
    heapLoopWrap true (t % 65536) vs = .ok ((e - off) % 65536) := by
  generalize hpos : off + t = pos at hp
  induction hp generalizing t with
  | nil pos =>
    subst hpos
    simp only [heapLoopWrap]
    rw [Nat.add_sub_cancel_left]
  | @cons pos o e v vs os bs hle hlt hd henc hr ih =>
    subst hpos
    have hlo := hl o (by simp)
    have ha : alignedOffset t v.docAlign = o - off := by
      obtain ⟨h1, h2, h3⟩ := alignedOffset_spec t v.docAlign v.docAlign_pos
      refine aligned_unique h1 h2 h3 (by omega) (by omega) ?_
      have h4 : v.docAlign ∣ off := Nat.dvd_trans (by unfold DString.docAlign; split <;> decide) hoff
      exact Nat.dvd_sub hd h4
    rw [Nat.mod_eq_of_lt (by omega)]
    simp only [heapLoopWrap, if_true, DString.alignment_eq, ha, hh v (by simp) bs henc]
    rw [Nat.mod_eq_of_lt (a := o - off) (by omega)]
    show heapLoopWrap true (addWrap16 (o - off) bs.length) vs = _
    have := hr.le
    exact ih (fun o ho => hl o (by simp [ho])) (fun v hv => hh v (by simp [hv])) (by omega)

section
variable {X T : Type} [OffsetItems T] [LawfulItems T] {hd : Bytes} {N : Nat} {size : OffsetSize}
  {c : OffsetContainer T}

theorem crow_heap_wrap (hlen : hd.length = N) (h4 : 4 ∣ N) (hsz : (OffsetItems.count T + 1) * 2 < 65536)
    (hc : c.offsets = none)
    (hh : ∀ v ∈ OffsetItems.asItems c.inner, ∀ bs, v.enc = .ok bs → v.heapWrap = .ok bs.length)
    {p p' : Nat} {ps : List Patch}
    (h : (do Wr.emit hd; c.write N size : Wr Unit) p = .ok ((), p', ps)) :
    ∃ n, c.heapWrap size = .ok (n % 65536) ∧ PatchesDisjoint ps ∧
      PatchesWithin ps p (p + (N + n)) ∧ ∃ x ∈ ps, x.off + x.bytes.length = p + (N + n) := by
  obtain ⟨ps', h', rfl⟩ := crow_write_eq_ok hlen h
  obtain ⟨ho, os, e, hp, hl⟩ := OffsetContainer.write_calculated_eq_ok hc h'
  have hol : os.length = OffsetItems.count T := by
    rw [hp.length]; exact LawfulItems.length_asItems _
  rw [OffsetContainer.write_calculated hc ho hp hl hol] at h'
  simp only [Res.ok.injEq, Prod.mk.injEq, true_and] at h'
  obtain ⟨rfl, rfl⟩ := h'
  obtain ⟨hd1, hd2⟩ := OffsetContainer.write_calculated_patches (c := c) (start := p + N) hp ho hol
  rw [Nat.add_sub_cancel] at hd1 hd2 ⊢
  have hle := hp.le
  have hb : size.bytes ≤ 2 := by cases size <;> simp [OffsetSize.bytes]
  have hb2 : (OffsetItems.count T + 1) * size.bytes ≤ (OffsetItems.count T + 1) * 2 :=
    Nat.mul_le_mul_left _ hb
  have hlim : size.limit ≤ 65536 := by cases size <;> simp [OffsetSize.limit]
  refine ⟨e - N, ?_, ?_, ?_, ?_⟩
  · unfold OffsetContainer.heapWrap
    rw [hc]
    simp only [Option.isNone_none]
    exact OffsetContainer.heapLoopWrap_of_placed h4 hp
      (fun o ho => by have := hl o ho; omega) hh
  · unfold PatchesDisjoint at hd1 ⊢
    rw [List.pairwise_cons]
    refine ⟨fun q hq => ?_, hd1⟩
    left
    have := hd2 q hq
    simp only; omega
  · intro q hq
    rcases List.mem_cons.1 hq with rfl | hq
    · simp only; omega
    · have := hd2 q hq; omega
  · rw [show N + (e - N) = e by omega]
    by_cases hv : OffsetItems.asItems c.inner = []
    · rw [hv] at hp
      generalize hpos : N + (OffsetItems.count T + 1) * size.bytes = pos at hp
      cases hp
      refine ⟨⟨p + N, (OffsetArray.ofNats [] size).enc⟩, by simp, ?_⟩
      rw [OffsetArray.enc_length (OffsetArray.ofNats_sizeMatches _ _), OffsetArray.ofNats_length,
        hol]
      simp only; omega
    · have key : ∀ {pos vs os e}, Placed pos vs os e → vs ≠ [] →
          ∃ x ∈ itemPatches p pos vs os, x.off + x.bytes.length = p + e := by
        intro pos vs os e h
        induction h with
        | nil => intro h; exact absurd rfl h
        | @cons pos o e v vs os bs _ _ _ henc hr ih =>
          intro _
          by_cases hvs : vs = []
          · subst hvs
            cases hr
            exact ⟨⟨p + o, bs⟩, by simp [itemPatches, henc], by simp only; omega⟩
          · obtain ⟨x, hx, hx'⟩ := ih hvs
            exact ⟨x, by simp [itemPatches, henc, hx], hx'⟩
      obtain ⟨x, hx, hx'⟩ := key hp hv
      exact ⟨x, List.mem_cons_of_mem _ (List.mem_append_left _ hx), hx'⟩

end

theorem HistoryEntry.heap_wrap {r : HistoryEntry} {bs : Bytes} (h : r.enc = .ok bs) : r.heapBytes = .ok (bs.length % 65536) := by
  rw [HistoryEntry.heap h (fun v hv => by cases hv)]
  have : bs.length < 65536 := by
    unfold HistoryEntry.enc at h
    injection h with h
    subst h
    simp only [encU8_length, encU16_length, encU32_length, MenuVisibility.enc_length, List.length_append,
      List.length_cons, List.length_nil]
    try omega
  rw [if_pos this, Nat.mod_eq_of_lt this]

theorem PlaylistEntry.heap_wrap {r : PlaylistEntry} {bs : Bytes} (h : r.enc = .ok bs) : r.heapBytes = .ok (bs.length % 65536) := by
  rw [PlaylistEntry.heap h (fun v hv => by cases hv)]
  have : bs.length < 65536 := by
    unfold PlaylistEntry.enc at h
    injection h with h
    subst h
    simp only [encU8_length, encU16_length, encU32_length, MenuVisibility.enc_length, List.length_append,
      List.length_cons, List.length_nil]
    try omega
  rw [if_pos this, Nat.mod_eq_of_lt this]

theorem Menu.heap_wrap {r : Menu} {bs : Bytes} (h : r.enc = .ok bs) : r.heapBytes = .ok (bs.length % 65536) := by
  rw [Menu.heap h (fun v hv => by cases hv)]
  have : bs.length < 65536 := by
    unfold Menu.enc at h
    injection h with h
    subst h
    simp only [encU8_length, encU16_length, encU32_length, MenuVisibility.enc_length, List.length_append,
      List.length_cons, List.length_nil]
    try omega
  rw [if_pos this, Nat.mod_eq_of_lt this]

theorem TrackTag.heap_wrap {r : TrackTag} {bs : Bytes} (h : r.enc = .ok bs) : r.heapBytes = .ok (bs.length % 65536) := by
  rw [TrackTag.heap h (fun v hv => by cases hv)]
  have : bs.length < 65536 := by
    unfold TrackTag.enc at h
    injection h with h
    subst h
    simp only [encU8_length, encU16_length, encU32_length, MenuVisibility.enc_length, List.length_append,
      List.length_cons, List.length_nil]
    try omega
  rw [if_pos this, Nat.mod_eq_of_lt this]

theorem Album.heap_wrap {r : Album} (hc : r.offsets.offsets = none)
    (hh : ∀ v ∈ r.strings, ∀ bs, v.enc = .ok bs → v.heapWrap = .ok bs.length) {p p' : Nat} {ps : List Patch}
    (h : r.write p = .ok ((), p', ps)) :
    ∃ n, r.heapWrap = .ok (n % 65536) ∧ PatchesDisjoint ps ∧
      PatchesWithin ps p (p + n) ∧ ∃ x ∈ ps, x.off + x.bytes.length = p + n := by
  obtain ⟨n, h1, h2⟩ := crow_heap_wrap r.head_length (by decide) (by decide) hc hh h
  refine ⟨20 + n, ?_, h2⟩
  unfold Album.heapWrap
  rw [h1]
  exact sumHeapWrap_snoc [2, 2, 4, 4, 4, 4] n

theorem Artist.heap_wrap {r : Artist} (hc : r.offsets.offsets = none)
    (hh : ∀ v ∈ r.strings, ∀ bs, v.enc = .ok bs → v.heapWrap = .ok bs.length) {p p' : Nat} {ps : List Patch}
    (h : r.write p = .ok ((), p', ps)) :
    ∃ n, r.heapWrap = .ok (n % 65536) ∧ PatchesDisjoint ps ∧
      PatchesWithin ps p (p + n) ∧ ∃ x ∈ ps, x.off + x.bytes.length = p + n := by
  obtain ⟨n, h1, h2⟩ := crow_heap_wrap r.head_length (by decide) (by decide) hc hh h
  refine ⟨8 + n, ?_, h2⟩
  unfold Artist.heapWrap
  rw [h1]
  exact sumHeapWrap_snoc [2, 2, 4] n

theorem Artwork.heap_wrap {r : Artwork} {bs : Bytes} (h : r.enc = .ok bs)
    (hh : ∀ v ∈ r.strings, ∀ bs, v.enc = .ok bs → v.heapWrap = .ok bs.length) :
    r.heapWrap = .ok (bs.length % 65536) := by
  unfold Artwork.enc at h
  obtain ⟨b_path, e_path, h⟩ := Res.bind_eq_ok.1 h
  have z_path := hh r.path (by simp [Artwork.strings]) _ e_path
  injection h with h
  subst h
  unfold Artwork.heapWrap
  rw [z_path]
  refine (sumHeapWrap_ok [4, b_path.length]).trans ?_
  generalize hs : ([4, b_path.length] : List Nat).sum = s
  generalize hl : List.length _ = l
  have : s = l := by
    subst hs hl
    simp only [encU8_length, encU16_length, encU32_length, ColorIndex.enc_length, FileType.enc_length,
      MenuVisibility.enc_length, List.length_append, List.sum_cons, List.sum_nil]
    try omega
  rw [this]

theorem Color.heap_wrap {r : Color} {bs : Bytes} (h : r.enc = .ok bs)
    (hh : ∀ v ∈ r.strings, ∀ bs, v.enc = .ok bs → v.heapWrap = .ok bs.length) :
    r.heapWrap = .ok (bs.length % 65536) := by
  unfold Color.enc at h
  obtain ⟨b_name, e_name, h⟩ := Res.bind_eq_ok.1 h
  have z_name := hh r.name (by simp [Color.strings]) _ e_name
  injection h with h
  subst h
  unfold Color.heapWrap
  rw [z_name]
  refine (sumHeapWrap_ok [4, 1, 1, 2, b_name.length]).trans ?_
  generalize hs : ([4, 1, 1, 2, b_name.length] : List Nat).sum = s
  generalize hl : List.length _ = l
  have : s = l := by
    subst hs hl
    simp only [encU8_length, encU16_length, encU32_length, ColorIndex.enc_length, FileType.enc_length,
      MenuVisibility.enc_length, List.length_append, List.sum_cons, List.sum_nil]
    try omega
  rw [this]

theorem Genre.heap_wrap {r : Genre} {bs : Bytes} (h : r.enc = .ok bs)
    (hh : ∀ v ∈ r.strings, ∀ bs, v.enc = .ok bs → v.heapWrap = .ok bs.length) :
    r.heapWrap = .ok (bs.length % 65536) := by
  unfold Genre.enc at h
  obtain ⟨b_name, e_name, h⟩ := Res.bind_eq_ok.1 h
  have z_name := hh r.name (by simp [Genre.strings]) _ e_name
  injection h with h
  subst h
  unfold Genre.heapWrap
  rw [z_name]
  refine (sumHeapWrap_ok [4, b_name.length]).trans ?_
  generalize hs : ([4, b_name.length] : List Nat).sum = s
  generalize hl : List.length _ = l
  have : s = l := by
    subst hs hl
    simp only [encU8_length, encU16_length, encU32_length, ColorIndex.enc_length, FileType.enc_length,
      MenuVisibility.enc_length, List.length_append, List.sum_cons, List.sum_nil]
    try omega
  rw [this]

theorem HistoryPlaylist.heap_wrap {r : HistoryPlaylist} {bs : Bytes} (h : r.enc = .ok bs)
    (hh : ∀ v ∈ r.strings, ∀ bs, v.enc = .ok bs → v.heapWrap = .ok bs.length) :
    r.heapWrap = .ok (bs.length % 65536) := by
  unfold HistoryPlaylist.enc at h
  obtain ⟨b_name, e_name, h⟩ := Res.bind_eq_ok.1 h
  have z_name := hh r.name (by simp [HistoryPlaylist.strings]) _ e_name
  injection h with h
  subst h
  unfold HistoryPlaylist.heapWrap
  rw [z_name]
  refine (sumHeapWrap_ok [4, b_name.length]).trans ?_
  generalize hs : ([4, b_name.length] : List Nat).sum = s
  generalize hl : List.length _ = l
  have : s = l := by
    subst hs hl
    simp only [encU8_length, encU16_length, encU32_length, ColorIndex.enc_length, FileType.enc_length,
      MenuVisibility.enc_length, List.length_append, List.sum_cons, List.sum_nil]
    try omega
  rw [this]

theorem History.heap_wrap {r : History} {bs : Bytes} (h : r.enc = .ok bs)
    (hh : ∀ v ∈ r.strings, ∀ bs, v.enc = .ok bs → v.heapWrap = .ok bs.length) :
    r.heapWrap = .ok (bs.length % 65536) := by
  unfold History.enc at h
  obtain ⟨b_date, e_date, h⟩ := Res.bind_eq_ok.1 h
  have z_date := hh r.date (by simp [History.strings]) _ e_date
  obtain ⟨b_version, e_version, h⟩ := Res.bind_eq_ok.1 h
  have z_version := hh r.version (by simp [History.strings]) _ e_version
  obtain ⟨b_label, e_label, h⟩ := Res.bind_eq_ok.1 h
  have z_label := hh r.label (by simp [History.strings]) _ e_label
  injection h with h
  subst h
  unfold History.heapWrap
  rw [z_date, z_version, z_label]
  refine (sumHeapWrap_ok [2, 2, 4, 4, b_date.length, 2, b_version.length, b_label.length]).trans ?_
  generalize hs : ([2, 2, 4, 4, b_date.length, 2, b_version.length, b_label.length] : List Nat).sum = s
  generalize hl : List.length _ = l
  have : s = l := by
    subst hs hl
    simp only [encU8_length, encU16_length, encU32_length, ColorIndex.enc_length, FileType.enc_length,
      MenuVisibility.enc_length, List.length_append, List.sum_cons, List.sum_nil]
    try omega
  rw [this]

theorem Key.heap_wrap {r : Key} {bs : Bytes} (h : r.enc = .ok bs)
    (hh : ∀ v ∈ r.strings, ∀ bs, v.enc = .ok bs → v.heapWrap = .ok bs.length) :
    r.heapWrap = .ok (bs.length % 65536) := by
  unfold Key.enc at h
  obtain ⟨b_name, e_name, h⟩ := Res.bind_eq_ok.1 h
  have z_name := hh r.name (by simp [Key.strings]) _ e_name
  injection h with h
  subst h
  unfold Key.heapWrap
  rw [z_name]
  refine (sumHeapWrap_ok [4, 4, b_name.length]).trans ?_
  generalize hs : ([4, 4, b_name.length] : List Nat).sum = s
  generalize hl : List.length _ = l
  have : s = l := by
    subst hs hl
    simp only [encU8_length, encU16_length, encU32_length, ColorIndex.enc_length, FileType.enc_length,
      MenuVisibility.enc_length, List.length_append, List.sum_cons, List.sum_nil]
    try omega
  rw [this]

theorem Label.heap_wrap {r : Label} {bs : Bytes} (h : r.enc = .ok bs)
    (hh : ∀ v ∈ r.strings, ∀ bs, v.enc = .ok bs → v.heapWrap = .ok bs.length) :
    r.heapWrap = .ok (bs.length % 65536) := by
  unfold Label.enc at h
  obtain ⟨b_name, e_name, h⟩ := Res.bind_eq_ok.1 h
  have z_name := hh r.name (by simp [Label.strings]) _ e_name
  injection h with h
  subst h
  unfold Label.heapWrap
  rw [z_name]
  refine (sumHeapWrap_ok [4, b_name.length]).trans ?_
  generalize hs : ([4, b_name.length] : List Nat).sum = s
  generalize hl : List.length _ = l
  have : s = l := by
    subst hs hl
    simp only [encU8_length, encU16_length, encU32_length, ColorIndex.enc_length, FileType.enc_length,
      MenuVisibility.enc_length, List.length_append, List.sum_cons, List.sum_nil]
    try omega
  rw [this]

theorem PlaylistTreeNode.heap_wrap {r : PlaylistTreeNode} {bs : Bytes} (h : r.enc = .ok bs)
    (hh : ∀ v ∈ r.strings, ∀ bs, v.enc = .ok bs → v.heapWrap = .ok bs.length) :
    r.heapWrap = .ok (bs.length % 65536) := by
  unfold PlaylistTreeNode.enc at h
  obtain ⟨b_name, e_name, h⟩ := Res.bind_eq_ok.1 h
  have z_name := hh r.name (by simp [PlaylistTreeNode.strings]) _ e_name
  injection h with h
  subst h
  unfold PlaylistTreeNode.heapWrap
  rw [z_name]
  refine (sumHeapWrap_ok [4, 4, 4, 4, 4, b_name.length]).trans ?_
  generalize hs : ([4, 4, 4, 4, 4, b_name.length] : List Nat).sum = s
  generalize hl : List.length _ = l
  have : s = l := by
    subst hs hl
    simp only [encU8_length, encU16_length, encU32_length, ColorIndex.enc_length, FileType.enc_length,
      MenuVisibility.enc_length, List.length_append, List.sum_cons, List.sum_nil]
    try omega
  rw [this]

theorem ColumnEntry.heap_wrap {r : ColumnEntry} {bs : Bytes} (h : r.enc = .ok bs)
    (hh : ∀ v ∈ r.strings, ∀ bs, v.enc = .ok bs → v.heapWrap = .ok bs.length) :
    r.heapWrap = .ok (bs.length % 65536) := by
  unfold ColumnEntry.enc at h
  obtain ⟨b_columnName, e_columnName, h⟩ := Res.bind_eq_ok.1 h
  have z_columnName := hh r.columnName (by simp [ColumnEntry.strings]) _ e_columnName
  injection h with h
  subst h
  unfold ColumnEntry.heapWrap
  rw [z_columnName]
  refine (sumHeapWrap_ok [2, 2, b_columnName.length]).trans ?_
  generalize hs : ([2, 2, b_columnName.length] : List Nat).sum = s
  generalize hl : List.length _ = l
  have : s = l := by
    subst hs hl
    simp only [encU8_length, encU16_length, encU32_length, ColorIndex.enc_length, FileType.enc_length,
      MenuVisibility.enc_length, List.length_append, List.sum_cons, List.sum_nil]
    try omega
  rw [this]

theorem Track.heap_wrap {r : Track} (hc : r.offsets.offsets = none)
    (hh : ∀ v ∈ r.strings, ∀ bs, v.enc = .ok bs → v.heapWrap = .ok bs.length) {p p' : Nat} {ps : List Patch}
    (h : r.write p = .ok ((), p', ps)) :
    ∃ n, r.heapWrap = .ok (n % 65536) ∧ PatchesDisjoint ps ∧
      PatchesWithin ps p (p + n) ∧ ∃ x ∈ ps, x.off + x.bytes.length = p + n := by
  obtain ⟨n, h1, h2⟩ := crow_heap_wrap r.head_length (by decide) (by decide) hc hh h
  refine ⟨92 + n, ?_, h2⟩
  unfold Track.heapWrap
  rw [h1]
  exact sumHeapWrap_snoc [2, 2, 4, 4, 4, 4, 4, 2, 2, 4, 4, 4, 4, 4, 4, 4, 4, 4, 4, 4, 4, 2, 2, 2, 2, 2, 2, 1, 1, 2] n

theorem TagOrCategory.heap_wrap {r : TagOrCategory} (hc : r.offsets.offsets = none)
    (hh : ∀ v ∈ r.strings, ∀ bs, v.enc = .ok bs → v.heapWrap = .ok bs.length) {p p' : Nat} {ps : List Patch}
    (h : r.write p = .ok ((), p', ps)) :
    ∃ n, r.heapWrap = .ok (n % 65536) ∧ PatchesDisjoint ps ∧
      PatchesWithin ps p (p + n) ∧ ∃ x ∈ ps, x.off + x.bytes.length = p + n := by
  obtain ⟨n, h1, h2⟩ := crow_heap_wrap r.head_length (by decide) (by decide) hc hh h
  refine ⟨28 + n, ?_, h2⟩
  unfold TagOrCategory.heapWrap
  rw [h1]
  exact sumHeapWrap_snoc [2, 2, 4, 4, 4, 4, 4, 4] n

theorem emitRes_extent_wrap {e : Res Bytes} {p p' : Nat} {ps : List Patch} {hb : Res Nat}
    (h : Wr.emitRes e p = .ok ((), p', ps))
    (hh : ∀ bs, e = .ok bs → hb = .ok (bs.length % 65536)) :
    ∃ n, hb = .ok (n % 65536) ∧ PatchesDisjoint ps ∧
      PatchesWithin ps p (p + n) ∧ ∃ x ∈ ps, x.off + x.bytes.length = p + n := by
  obtain ⟨bs, rfl, rfl, rfl⟩ := Wr.emitRes_eq_ok h
  refine ⟨bs.length, hh bs rfl, by simp [PatchesDisjoint], ?_, ⟨p, bs⟩, by simp, rfl⟩
  intro x hx
  simp only [List.mem_singleton] at hx
  subst hx
  exact ⟨Nat.le_refl _, Nat.le_refl _⟩

/-- The heap size of a row to be laid out is the extent of what is written, modulo `2 ^ 16`. -/
theorem Row.heap_wrap_extent {r : Row} (hu : r ≠ .unknown) (hc : r.Calculated)
    (hh : ∀ v ∈ r.strings, ∀ bs, v.enc = .ok bs → v.heapWrap = .ok bs.length) {p p' : Nat}
    {ps : List Patch} (h : r.write p = .ok ((), p', ps)) :
    ∃ n, r.heapWrap = .ok (n % 65536) ∧ PatchesDisjoint ps ∧
      PatchesWithin ps p (p + n) ∧ ∃ x ∈ ps, x.off + x.bytes.length = p + n := by
  cases r with
  | unknown => exact absurd rfl hu
  | plain r =>
    cases r with
    | album r => exact Album.heap_wrap hc hh h
    | artist r => exact Artist.heap_wrap hc hh h
    | artwork r => exact emitRes_extent_wrap h fun bs hb => Artwork.heap_wrap hb hh
    | color r => exact emitRes_extent_wrap h fun bs hb => Color.heap_wrap hb hh
    | genre r => exact emitRes_extent_wrap h fun bs hb => Genre.heap_wrap hb hh
    | historyPlaylist r => exact emitRes_extent_wrap h fun bs hb => HistoryPlaylist.heap_wrap hb hh
    | historyEntry r => exact emitRes_extent_wrap h fun bs hb => HistoryEntry.heap_wrap hb
    | history r => exact emitRes_extent_wrap h fun bs hb => History.heap_wrap hb hh
    | key r => exact emitRes_extent_wrap h fun bs hb => Key.heap_wrap hb hh
    | label r => exact emitRes_extent_wrap h fun bs hb => Label.heap_wrap hb hh
    | playlistTreeNode r => exact emitRes_extent_wrap h fun bs hb => PlaylistTreeNode.heap_wrap hb hh
    | playlistEntry r => exact emitRes_extent_wrap h fun bs hb => PlaylistEntry.heap_wrap hb
    | columnEntry r => exact emitRes_extent_wrap h fun bs hb => ColumnEntry.heap_wrap hb hh
    | menu r => exact emitRes_extent_wrap h fun bs hb => Menu.heap_wrap hb
    | track r => exact Track.heap_wrap hc hh h
  | ext r =>
    cases r with
    | tag r => exact TagOrCategory.heap_wrap hc hh h
    | trackTag r => exact emitRes_extent_wrap h fun bs hb => TrackTag.heap_wrap hb

end Rekordcrate
