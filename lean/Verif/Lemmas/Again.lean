import Verif.Lemmas.EditRoom
import Verif.Props.PageLayout
import Verif.Props.RowLayout

/-! # Helper lemmas about pages that are stored again and again -/

namespace Rekordcrate

/-! ## Strings -/

theorem StringAt.exact {img : Bytes} {p : Nat} {v : DString} (h : StringAt img p v) : v.ExactAt img p := by
  obtain ⟨bs, he, hb⟩ := h
  cases v with
  | short _ => trivial
  | long b =>
    cases b with
    | ascii _ => trivial
    | ucs2le _ => trivial
    | isrc c =>
      unfold DString.enc at he
      simp only at he
      split at he
      · rename_i n hn
        obtain ⟨l, hl, he⟩ := Res.bind_eq_ok.1 he
        injection he with he
        subst he
        rw [HasAt.append_iff, HasAt.append_iff] at hb
        have hu := U16At.of_hasAt hb.2.1
        have hn' : n = c.length + 2 := by
          simp only [LongBody.byteCount] at hn
          split at hn
          · injection hn with hn
            exact hn.symm
          · cases hn
        unfold addU16 at hl
        split at hl
        · injection hl with hl
          have : (UInt16.ofNat l).toNat = c.length + 6 := by
            rw [UInt16.toNat_ofNat_of_lt']
            · omega
            · rw [← hl]; assumption
          rw [this] at hu
          exact hu
        · cases hl
      · cases he

/-! ## Rows -/

namespace OffsetContainer

variable {T : Type} [OffsetItems T] [LawfulItems T]

theorem mem_itemPatches {base pos : Nat} {vs : List DString} {os : List Nat} {e : Nat} (h : Placed pos vs os e)
    {q : Patch} (hq : q ∈ providedPatches base vs os) : q ∈ itemPatches base pos vs os := by
  induction h with
  | nil => simp [providedPatches] at hq
  | @cons pos o e v vs os bs hle hlt hd he _ ih =>
    unfold providedPatches at hq
    rw [List.zip_cons_cons, List.map_cons] at hq
    unfold itemPatches
    rw [he]
    simp only
    rcases List.mem_cons.1 hq with rfl | hq
    · rw [DString.encBytes_of_ok he]
      simp
    · exact List.mem_append_right _ (ih hq)

omit [OffsetItems T] [LawfulItems T] in
theorem _root_.Rekordcrate.Placed.encodes {pos : Nat} {vs : List DString} {os : List Nat} {e : Nat}
    (h : Placed pos vs os e) : ∀ v ∈ vs, ∃ bs, v.enc = .ok bs := by
  induction h with
  | nil => intro v hv; cases hv
  | cons _ _ _ he _ ih =>
    intro v hv
    rcases List.mem_cons.1 hv with rfl | hv
    · exact ⟨_, he⟩
    · exact ih v hv

theorem Resolved.wellTyped {N : Nat} {size : OffsetSize} {c c' : OffsetContainer T} (h : Resolved N size c c')
    (hw : c.WellTyped) : c'.WellTyped := by
  intro a ha
  obtain ⟨h1, h2⟩ := h
  cases hc : c.offsets with
  | some b =>
    rw [hc] at h2
    rw [h2] at ha
    injection ha with ha
    rw [← ha]
    exact hw b hc
  | none =>
    rw [hc] at h2
    obtain ⟨os, e, hp, hl, h2⟩ := h2
    rw [h2] at ha
    injection ha with ha
    rw [← ha, OffsetArray.ofNats_length, hp.length]
    exact LawfulItems.length_asItems _

omit [LawfulItems T] in
theorem Resolved.offsetsFit {N : Nat} {size : OffsetSize} {c c' : OffsetContainer T} (h : Resolved N size c c')
    (hf : c.OffsetsFit N size) : c'.OffsetsFit N size := by
  obtain ⟨h1, h2⟩ := h
  cases hc : c.offsets with
  | some b =>
    rw [hc] at h2
    unfold OffsetsFit at hf ⊢
    rw [hc] at hf
    rw [h2]
    cases b <;> cases size <;> trivial
  | none =>
    rw [hc] at h2
    obtain ⟨os, e, hp, hl, h2⟩ := h2
    unfold OffsetsFit
    rw [h2]
    cases size <;> trivial

/-- The row with the offsets filled in writes nothing else. -/
theorem crow_resolved {hd : Bytes} {N : Nat} {size : OffsetSize} {c c' : OffsetContainer T}
    (hlen : hd.length = N) (hr : Resolved N size c c') {p p' : Nat} {ps : List Patch}
    (h : (do Wr.emit hd; c.write N size : Wr Unit) p = .ok ((), p', ps)) :
    ∃ q ps', (do Wr.emit hd; c'.write N size : Wr Unit) p = .ok ((), q, ps') ∧ ∀ x ∈ ps', x ∈ ps := by
  obtain ⟨h1, h2⟩ := hr
  cases hc : c.offsets with
  | some b =>
    rw [hc] at h2
    have : c' = c := by
      cases c
      cases c'
      simp only at *
      rw [h1, h2, hc]
    rw [this]
    exact ⟨p', ps, h, fun x hx => hx⟩
  | none =>
    rw [hc] at h2
    obtain ⟨os, e, hp, hl, h2⟩ := h2
    have hol : os.length = OffsetItems.count T := by rw [hp.length]; exact LawfulItems.length_asItems _
    obtain ⟨ps', h', rfl⟩ := crow_write_eq_ok hlen h
    rw [write_calculated hc (Nat.le_add_left _ _) hp hl hol, Nat.add_sub_cancel] at h'
    simp only [Res.ok.injEq, Prod.mk.injEq, true_and] at h'
    obtain ⟨-, rfl⟩ := h'
    have henc : ∀ v ∈ OffsetItems.asItems c'.inner, ∃ bs, v.enc = .ok bs := by
      rw [h1]
      exact hp.encodes
    refine ⟨_, _, crow_write_ok hlen (write_provided h2 (Nat.le_add_left _ _) (OffsetArray.ofNats_sizeMatches _ _) henc), ?_⟩
    rw [Nat.add_sub_cancel, OffsetArray.ofNats_seeks hl, h1]
    intro x hx
    rcases List.mem_cons.1 hx with rfl | hx
    · exact List.mem_cons_self ..
    · rcases List.mem_cons.1 hx with rfl | hx
      · simp
      · exact List.mem_cons_of_mem _ (List.mem_append_left _ (mem_itemPatches hp hx))

/-- The strings of a row that was read are where its offsets say. -/
theorem crow_strings {hd : Bytes} {N : Nat} {size : OffsetSize} {c : OffsetContainer T}
    (hlen : hd.length = N) (hw : c.WellTyped) {p p' : Nat} {ps : List Patch}
    (h : (do Wr.emit hd; c.write N size : Wr Unit) p = .ok ((), p', ps)) {img : Bytes} (hi : Contains img ps) :
    ∀ x ∈ c.stringsAt p, StringAt img x.1 x.2 := by
  intro x hx
  unfold stringsAt at hx
  cases hc : c.offsets with
  | none => rw [hc] at hx; cases hx
  | some a =>
    rw [hc] at hx
    simp only at hx
    obtain ⟨-, he, rfl⟩ := crow_provided hlen hw hc h
    obtain ⟨i, hi1, hi2⟩ := List.mem_iff_getElem.1 hx
    rw [List.getElem_zip] at hi2
    have hv := (List.of_mem_zip hx).2
    obtain ⟨bs, hb⟩ := he _ hv
    refine ⟨bs, hb, ?_⟩
    rw [← DString.encBytes_of_ok hb]
    have hm : (⟨x.1, x.2.encBytes⟩ : Patch) ∈ providedPatches p (OffsetItems.asItems c.inner) a.seeks := by
      unfold providedPatches
      rw [List.length_zip, List.length_map] at hi1
      refine List.mem_map.2 ⟨((OffsetItems.asItems c.inner)[i]'(by omega), a.seeks[i]'(by omega)), ?_, ?_⟩
      · rw [List.mem_iff_getElem]
        exact ⟨i, by rw [List.length_zip]; omega, by rw [List.getElem_zip]⟩
      · rw [← hi2]
        simp
    exact hi _ (List.mem_cons_of_mem _ (List.mem_cons_of_mem _ hm))

end OffsetContainer

theorem Row.Resolved.storable {r r' : Row} (h : r.Resolved r') (hs : r.Storable) (hf : r.OffsetsFit) :
    r'.Storable ∧ r'.OffsetsFit := by
  have key : r' = r → r'.Storable ∧ r'.OffsetsFit := fun h => by rw [h]; exact ⟨hs, hf⟩
  obtain ⟨h1, h2, h3⟩ := hs
  cases r with
  | unknown => exact key h
  | plain r =>
    cases r with
    | album r =>
      obtain ⟨_, ⟨c, hc, rfl⟩, rfl⟩ := h
      exact ⟨⟨by simp only [Row.strings, Album.strings, hc.1]; exact h1, h2, hc.wellTyped h3⟩, hc.offsetsFit hf⟩
    | artist r =>
      obtain ⟨_, ⟨c, hc, rfl⟩, rfl⟩ := h
      exact ⟨⟨by simp only [Row.strings, Artist.strings, hc.1]; exact h1, h2, hc.wellTyped h3⟩, hc.offsetsFit hf⟩
    | track r =>
      obtain ⟨_, ⟨c, hc, rfl⟩, rfl⟩ := h
      exact ⟨⟨by simp only [Row.strings, Track.strings, hc.1]; exact h1, h2, hc.wellTyped h3⟩, hc.offsetsFit hf⟩
    | _ => exact key h
  | ext r =>
    cases r with
    | tag r =>
      obtain ⟨_, ⟨c, hc, rfl⟩, rfl⟩ := h
      exact ⟨⟨by simp only [Row.strings, TagOrCategory.strings, hc.1]; exact h1, h2, hc.wellTyped h3⟩, hc.offsetsFit hf⟩
    | trackTag r => exact key h

theorem Row.Resolved.write {r r' : Row} (h : r.Resolved r') {p q : Nat} {ps : List Patch}
    (hw : r.write p = .ok ((), q, ps)) : ∃ q' ps', r'.write p = .ok ((), q', ps') ∧ ∀ x ∈ ps', x ∈ ps := by
  have key : r' = r → ∃ q' ps', r'.write p = .ok ((), q', ps') ∧ ∀ x ∈ ps', x ∈ ps :=
    fun h => ⟨q, ps, h ▸ hw, fun x hx => hx⟩
  cases r with
  | unknown => exact key h
  | plain r =>
    cases r with
    | album r =>
      obtain ⟨_, ⟨c, hc, rfl⟩, rfl⟩ := h
      rw [← offsetSizeOf_eq] at hc
      exact OffsetContainer.crow_resolved r.head_length hc hw
    | artist r =>
      obtain ⟨_, ⟨c, hc, rfl⟩, rfl⟩ := h
      rw [← offsetSizeOf_eq] at hc
      exact OffsetContainer.crow_resolved r.head_length hc hw
    | track r =>
      obtain ⟨_, ⟨c, hc, rfl⟩, rfl⟩ := h
      rw [← offsetSizeOf_eq] at hc
      exact OffsetContainer.crow_resolved r.head_length hc hw
    | _ => exact key h
  | ext r =>
    cases r with
    | tag r =>
      obtain ⟨_, ⟨c, hc, rfl⟩, rfl⟩ := h
      rw [← offsetSizeOf_eq] at hc
      exact OffsetContainer.crow_resolved r.head_length hc hw
    | trackTag r => exact key h

theorem Row.Resolved.extent {r r' : Row} (h : r.Resolved r') (hs : r.Storable) (hf : r.OffsetsFit) {n : Nat}
    (he : r.Extent n) : r'.Extent n := by
  intro p p' ps' hw'
  obtain ⟨q, ps, hw⟩ := row_writable hs hf p
  obtain ⟨q', ps'', hw'', hsub⟩ := h.write hw
  rw [hw'] at hw''
  simp only [Res.ok.injEq, Prod.mk.injEq, true_and] at hw''
  rw [hw''.2]
  exact fun x hx => he p q ps hw x (hsub x hx)

theorem Row.Resolved.coherent {r r' : Row} (h : r.Resolved r') (hs : r.Storable) (hf : r.OffsetsFit)
    (hc : r.Coherent) : r'.Coherent := by
  intro p p' ps' hw'
  obtain ⟨q, ps, hw⟩ := row_writable hs hf p
  obtain ⟨q', ps'', hw'', hsub⟩ := h.write hw
  rw [hw'] at hw''
  simp only [Res.ok.injEq, Prod.mk.injEq, true_and] at hw''
  rw [hw''.2]
  obtain ⟨img, hi⟩ := hc p q ps hw
  exact ⟨img, fun x hx => hi x (hsub x hx)⟩

/-- The strings of a row that is stored are where the row says. -/
theorem Row.strings_stored {r : Row} (hw : r.WellTyped) {p p' : Nat} {ps : List Patch}
    (h : r.write p = .ok ((), p', ps)) {img : Bytes} (hi : Contains img ps) :
    ∀ x ∈ r.stringsAt p, StringAt img x.1 x.2 := by
  have one : ∀ {o : Nat} {v : DString} {x : Nat × DString}, StringAt img o v → x ∈ [(o, v)] → StringAt img x.1 x.2 := by
    intro o v x hs hx
    rw [List.mem_singleton] at hx
    rw [hx]
    exact hs
  intro x hx
  cases r with
  | unknown => cases hx
  | plain r =>
    cases r with
    | album r => exact OffsetContainer.crow_strings r.head_length hw h hi x hx
    | artist r => exact OffsetContainer.crow_strings r.head_length hw h hi x hx
    | track r => exact OffsetContainer.crow_strings r.head_length hw h hi x hx
    | artwork r => exact one (artwork_row_layout h hi).2 hx
    | color r => exact one (color_row_layout h hi).2.2.2.2 hx
    | genre r => exact one (genre_row_layout h hi).2 hx
    | historyPlaylist r => exact one (historyPlaylist_row_layout h hi).2 hx
    | historyEntry r => cases hx
    | history r =>
      obtain ⟨-, -, -, g1, -, -, g2, g3⟩ := history_row_layout h hi
      simp only [Row.stringsAt, History.stringsAt, List.mem_cons, List.not_mem_nil, or_false] at hx
      rcases hx with rfl | rfl | rfl
      · exact g1
      · exact g2
      · exact g3
    | key r => exact one (key_row_layout h hi).2.2 hx
    | label r => exact one (label_row_layout h hi).2 hx
    | playlistTreeNode r => exact one (playlistTreeNode_row_layout h hi).2.2.2.2.2 hx
    | playlistEntry r => cases hx
    | columnEntry r => exact one (columnEntry_row_layout h hi).2.2 hx
    | menu r => cases hx
  | ext r =>
    cases r with
    | tag r => exact OffsetContainer.crow_strings r.head_length hw h hi x hx
    | trackTag r => cases hx

/-! ## Pages -/

theorem Pointwise.getElem_right {α β : Type} {R : α → β → Prop} {as : List α} {bs : List β} (h : Pointwise R as bs)
    {k : Nat} {b : β} (hb : bs[k]? = some b) : ∃ a, as[k]? = some a ∧ R a b := by
  induction h generalizing k with
  | nil => simp at hb
  | cons hr _ ih =>
    cases k with
    | zero =>
      simp only [List.getElem?_cons_zero, Option.some.injEq] at hb
      subst hb
      exact ⟨_, rfl, hr⟩
    | succ k => exact ih (by simpa using hb)

theorem RowGroup.Same.slotsUsed {g g' : RowGroup} (h : g.Same g') : g'.slotsUsed = g.slotsUsed := by
  unfold RowGroup.slotsUsed
  rw [h.1]

/-- What was stored can be stored again. -/
theorem Page.Sound.again {pageSize : Nat} {db : DatabaseType} {pg pg' : Page} (hs : pg.Sound pageSize db)
    (hr : pg.ReadBack pg') (h16 : ∀ c, pg'.content = .data c → ∀ g ∈ c.rowGroups, g.rowOffsets.length = 16) :
    pg'.Sound pageSize db := by
  obtain ⟨hh, hr⟩ := hr
  refine ⟨hh ▸ hs.type, ?_, fun c' hc' => ?_, fun c' hc' => ?_⟩
  · rw [hh, hs.flag]
    cases hc : pg.content with
    | index c => rw [hc] at hr; rw [hr]
    | data c =>
      rw [hc] at hr
      obtain ⟨c', hr, -⟩ := hr
      rw [hr]
      simp
  · cases hc : pg.content with
    | index c => rw [hc] at hr; rw [hr] at hc'; cases hc'
    | data c =>
      rw [hc] at hr
      obtain ⟨c1, hr, -, hg, hrows⟩ := hr
      rw [hr] at hc'
      injection hc' with hc'
      subst hc'
      obtain ⟨g1, g2, g3⟩ := hs.data c hc
      have hpres : c1.present = c.present := hg.flatMap_eq (f := RowGroup.present) fun a b _ hab => hab.present
      have hkeys : c1.rows.map Prod.fst = c.rows.map Prod.fst := hrows.map_eq fun a b hab => hab.1
      have hsorted : RowMap.Sorted c1.rows := by
        have h1 : (c.rows.map Prod.fst).Pairwise (· < ·) := List.pairwise_map.2 g1.sorted
        rw [← hkeys] at h1
        exact List.pairwise_map.1 h1
      rw [hh]
      refine ⟨⟨by rw [← hg.length]; exact g1.groups, h16 c1 hr, hsorted, fun o => ?_, by rw [← hrows.length]; exact g1.valid⟩,
        fun y hy => ?_, ?_⟩
      · rw [hpres, hkeys]
        exact g1.offsets o
      · obtain ⟨x, hx, -, hres⟩ := hrows.mem_right hy
        obtain ⟨s1, s2, s3⟩ := g2 x hx
        exact ⟨(hres.storable s1 s3).1, hres.fits s2, (hres.storable s1 s3).2⟩
      · refine ⟨?_, fun y hy => ?_, ?_⟩
        · refine hrows.pairwise g3.apart fun a ha b _ a' _ b' _ r1 r2 ⟨n, e1, e2⟩ => ⟨n, ?_, ?_⟩
          · exact r1.2.extent (g2 a ha).1 (g2 a ha).2.2 e1
          · rw [r1.1, r2.1]
            exact e2
        · obtain ⟨x, hx, -, hres⟩ := hrows.mem_right hy
          exact hres.coherent (g2 x hx).1 (g2 x hx).2.2 (g3.coherent x hx)
        · obtain ⟨f, f1, f2, f3⟩ := g3.fits
          refine ⟨f, fun k g hk => ?_, f2, fun y hy => ?_⟩
          · obtain ⟨g0, h1, h2⟩ := hg.getElem_right hk
            rw [h2.slotsUsed]
            exact f1 k g0 h1
          · obtain ⟨x, hx, hk, hres⟩ := hrows.mem_right hy
            obtain ⟨n, e1, e2⟩ := f3 x hx
            exact ⟨n, hres.extent (g2 x hx).1 (g2 x hx).2.2 e1, by rw [hk]; exact e2⟩
  · cases hc : pg.content with
    | data c =>
      rw [hc] at hr
      obtain ⟨c1, hr, -⟩ := hr
      rw [hr] at hc'
      cases hc'
    | index c =>
      rw [hc] at hr
      rw [hr] at hc'
      injection hc' with hc'
      subst hc'
      exact hs.index c hc

theorem hasAt_empty_entries {img : Bytes} {b n : Nat}
    (h : HasAt img b ((List.replicate n IndexEntry.empty).flatMap IndexEntry.enc)) {i : Nat} (hi : i < n) :
    U32At img (b + 4 * i) 0x1ffffff8 := by
  induction n generalizing b i with
  | zero => omega
  | succ n ih =>
    rw [List.replicate_succ, List.flatMap_cons, HasAt.append_iff,
      show (IndexEntry.empty.enc).length = 4 by simp [IndexEntry.enc]] at h
    cases i with
    | zero => exact U32At.of_hasAt h.1
    | succ i =>
      have := ih h.2 (i := i) (by omega)
      rwa [show b + 4 + 4 * i = b + 4 * (i + 1) by omega] at this

/-- What was stored has the form the writer produces. -/
theorem Page.Sound.canonical {pageSize : Nat} {db : DatabaseType} {pg pg' : Page} (hs : pg.Sound pageSize db)
    (hr : pg.ReadBack pg') {p q : Nat} {ps : List Patch} (hw : pg.write pageSize p = .ok ((), q, ps)) {img : Bytes}
    (hi : Contains img ps) : pg'.Canonical pageSize img p := by
  obtain ⟨hh, hr⟩ := hr
  cases hc : pg.content with
  | data c =>
    rw [hc] at hr
    obtain ⟨c', hr, -, -, hrows⟩ := hr
    obtain ⟨g1, g2, g3⟩ := hs.data c hc
    refine ⟨fun x hx => ?_, ?_⟩
    · unfold Page.stringsAt at hx
      rw [hr] at hx
      obtain ⟨y, hy, hx⟩ := List.mem_flatMap.1 hx
      obtain ⟨z, hz, hk, hres⟩ := hrows.mem_right hy
      obtain ⟨-, -, -, -, -, h1, -⟩ := data_page_layout hc g1.sixteen hw hi
      obtain ⟨q', rps, h2, h3⟩ := h1 z hz
      obtain ⟨q'', ps', h4, h5⟩ := hres.write h2
      rw [hk] at hx
      exact (Row.strings_stored (hres.storable (g2 z hz).1 (g2 z hz).2.2).1.2.2 h4 (fun w hw => h3 w (h5 w hw)) x hx).exact
    · unfold Page.Padded
      rw [hr]
      trivial
  | index c =>
    rw [hc] at hr
    obtain ⟨⟨hn, hfit⟩, ⟨k, hk⟩⟩ := hs.index c hc
    refine ⟨fun x hx => ?_, ?_⟩
    · unfold Page.stringsAt at hx
      rw [hr] at hx
      cases hx
    · unfold Page.Padded
      rw [hr]
      obtain ⟨ps', h1, rfl⟩ := Page.write_eq_ok.1 hw
      rw [hc] at h1
      obtain ⟨h80, hle, rfl, rfl⟩ := IndexPageContent.write_eq_ok.1 h1
      simp only [Contains.append_iff, Contains.cons_iff] at hi
      obtain ⟨-, -, -, he, hz, -⟩ := hi
      refine ⟨hfit, ⟨k, hk⟩, fun i h1 h2 => ?_, fun i h1 => ?_⟩
      · have := hasAt_empty_entries he (i := i - c.entries.length) (by omega)
        rwa [show p + 32 + 28 + 4 * c.entries.length + 4 * (i - c.entries.length) = p + 60 + 4 * i by omega] at this
      · have := hz i (by simpa using h1)
        rw [show p + 32 + 28 + 4 * c.entries.length + 4 * ((pageSize - 80) / 4 - c.header.numEntries.toNat) + i =
          p + pageSize - 20 + i by omega] at this
        rw [this, List.getElem?_replicate, if_pos h1]

end Rekordcrate
