import Verif.Lemmas.TruncateAnlz
import Verif.Lemmas.TruncatePdb
import Verif.Props.Anlz
import Verif.Props.EditExample
import Verif.Props.Setting
import Verif.Props.Table

/-! # C82, C83: truncated files -/

namespace Rekordcrate

open Rd

/-! ## C82: analysis and settings files -/

/-- C82: bytes after an analysis file do not change what is read. -/
theorem anlz_extended {img full : Bytes} (hp : img <+: full) {p : Nat} {x : Anlz.AnlzFile × Nat}
    (h : Anlz.AnlzFile.read img p = .ok x) : Anlz.AnlzFile.read full p = .ok x :=
  (Anlz.AnlzFile.cut (G := fun _ => True) (P := False) img full p hp trivial).ok h

/-- C82: reading a truncated analysis file fails, or ends as with the whole file. -/
theorem anlz_truncated_or_same {img full : Bytes} (hp : img <+: full) (p : Nat) :
    (∃ e, Anlz.AnlzFile.read img p = .err e) ∨ Anlz.AnlzFile.read img p = Anlz.AnlzFile.read full p := by
  rcases Anlz.AnlzFile.cut (G := fun _ => True) (P := False) img full p hp trivial with h | h | h
  · exact .inl h
  · exact .inr h.symm
  · exact h.1.elim

/-- C82: an analysis file that lacks some of its last bytes is rejected, and the reader does not panic. -/
theorem anlz_truncated {img full : Bytes} (hp : img <+: full) {a : Anlz.AnlzFile} {q : Nat}
    (h : Anlz.AnlzFile.read full 0 = .ok (a, q)) (hl : img.length < q) : ∃ e, Anlz.AnlzFile.read img 0 = .err e := by
  rcases anlz_truncated_or_same hp 0 with h' | h'
  · exact h'
  · rw [h] at h'
    obtain ⟨bs, hb, hq, parts, sb, -, rfl⟩ := Anlz.anlz_read_held h'
    have := hb.bound (by intro he; simpa using congrArg List.length he)
    omega

/-- A file with a beat grid, cues and other sections: all its 228 bytes are needed. -/
example : ∃ bs, Anlz.exampleFile.enc = .ok bs ∧ bs.length = 228 ∧
    (∀ k, k < 228 → ∃ e, Anlz.AnlzFile.read (bs.take k) 0 = .err e) ∧
    ∀ rest, Anlz.AnlzFile.read (bs ++ rest) 0 = .ok (Anlz.exampleFile, 228) := by
  obtain ⟨bs, h1, h2, h3⟩ : ∃ bs, Anlz.exampleFile.enc = .ok bs ∧ bs.length = 228 ∧
      Anlz.AnlzFile.read bs 0 = .ok (Anlz.exampleFile, 228) := by
    obtain ⟨bs, h1, h2, h3⟩ := Anlz.anlz_roundtrip Anlz.exampleFile_consistent
    have h4 := h3 bs 0 (hasAt_self _)
    rw [Nat.zero_add] at h4
    exact ⟨bs, h1, h2, h4⟩
  exact ⟨bs, h1, h2, fun k hk => anlz_truncated (List.take_prefix k bs) h3 (by rw [List.length_take]; omega),
    fun rest => anlz_extended (List.prefix_append bs rest) h3⟩

/-- C82: bytes after a settings file do not change what is read. -/
theorem setting_extended {img full : Bytes} (hp : img <+: full) {t : SettingType} {p : Nat} {x : Setting × Nat}
    (h : Setting.read t img p = .ok x) : Setting.read t full p = .ok x :=
  (Setting.cut (G := fun _ => True) (P := False) t img full p hp trivial).ok h

/-- C82: reading a truncated settings file fails, or ends as with the whole file. -/
theorem setting_truncated_or_same {img full : Bytes} (hp : img <+: full) (t : SettingType) (p : Nat) :
    (∃ e, Setting.read t img p = .err e) ∨ Setting.read t img p = Setting.read t full p := by
  rcases Setting.cut (G := fun _ => True) (P := False) t img full p hp trivial with h | h | h
  · exact .inl h
  · exact .inr h.symm
  · exact h.1.elim

/-- C82: a settings file that lacks some of its last bytes is rejected. -/
theorem setting_truncated {img full : Bytes} (hp : img <+: full) {t : SettingType} {s : Setting} {q : Nat}
    (h : Setting.read t full 0 = .ok (s, q)) (hl : img.length < q) : ∃ e, Setting.read t img 0 = .err e := by
  rcases setting_truncated_or_same hp t 0 with h' | h'
  · exact h'
  · rw [h] at h'
    obtain ⟨hp, hk, hq, pad1, pad2, pad3, ck, ⟨h1, h2, h3⟩, hb⟩ := Setting.read_ok h'
    have hlen : (settingLayout s pad1 pad2 pad3 ck).length = 108 + dataSize t := by
      have := SettingData.enc_length hp.2.2.2
      rw [hk] at this
      simp [settingLayout, nameField]; omega
    have := hb.bound (by intro he; rw [he] at hlen; simp at hlen; omega)
    omega

/-- All 148 bytes of the default `MYSETTING.DAT` are needed. -/
example : ∃ bs, Setting.defaultMySetting.enc = .ok bs ∧ bs.length = 148 ∧
    (∀ k, k < 148 → ∃ e, Setting.read .mySetting (bs.take k) 0 = .err e) ∧
    ∀ rest, ∃ q, Setting.read .mySetting (bs ++ rest) 0 = .ok (Setting.defaultMySetting, q) := by
  obtain ⟨bs, h1, h2, h3⟩ := setting_roundtrip default_settings_proper.2.2.1
  have h4 := h3 bs 0 (hasAt_self _)
  rw [Nat.zero_add] at h4
  exact ⟨bs, h1, h2, fun k hk => setting_truncated (List.take_prefix k bs) h4
    (by rw [List.length_take, h2]; simp [dataSize, SettingData.kind, Setting.defaultMySetting, Setting.defaultWith]; omega),
    fun rest => ⟨_, setting_extended (List.prefix_append bs rest) h4⟩⟩

/-! ## C83: databases -/

/-- C83: opening a truncated database fails, or gives the header of the whole database. -/
theorem open_truncated_or_same {img full : Bytes} (hp : img <+: full) (pos : Nat) (db : DatabaseType) :
    (∃ e, Database.openAt img pos db = .err e) ∨
      ∃ c, Database.openAt img pos db = .ok ⟨img, db, c⟩ ∧ Database.openAt full pos db = .ok ⟨full, db, c⟩ := by
  have hc : Cut (fun _ => True) False (LazyDatabase.read db) := .bind (Header.cut db) fun _ => .pure _
  unfold Database.openAt
  rcases hc img full pos hp trivial with ⟨e, h⟩ | h | h
  · exact .inl ⟨e, by rw [h]; rfl⟩
  · rw [h]
    cases hr : LazyDatabase.read db img pos with
    | ok x => exact .inr ⟨x.1, rfl, rfl⟩
    | err e => exact .inl ⟨e, rfl⟩
    | panic =>
      refine absurd ?_ (open_no_panic img pos db)
      unfold Database.openAt
      rw [hr]
      rfl
  · exact h.1.elim

/-- C83: a page that can be read from the truncated file is the page of the whole file, if ISRC strings end within
their length. -/
theorem page_truncated_partial {img full : Bytes} (hp : img <+: full) (hi : IsrcsEnd full) {pageSize : Nat}
    {db : DatabaseType} {p : Nat} {x : Page × Nat} (h : Page.read pageSize db img p = .ok x) :
    Page.read pageSize db full p = .ok x := (Page.cut pageSize db img full p hp hi).ok h

/-- C83: the same for pages by number. -/
theorem view_truncated_partial {img full : Bytes} (hp : img <+: full) (hi : IsrcsEnd full) {db : DatabaseType}
    {c : LazyDatabase} {n : Nat} {pg : Page} (h : Database.view ⟨img, db, c⟩ n = .ok pg) :
    Database.view ⟨full, db, c⟩ n = .ok pg := by
  unfold Database.view at h ⊢
  simp only at h ⊢
  split at h
  · exact h
  · cases hr : Page.read c.header.pageSize.toNat db img (n * c.header.pageSize.toNat) with
    | ok x => rw [page_truncated_partial hp hi hr]; rw [hr] at h; exact h
    | err e => rw [hr] at h; cases h
    | panic => rw [hr] at h; cases h
  · cases h

/-- C83: a table of the truncated file has the pages of the whole file: all of them, or those up to the first that
cannot be read. -/
theorem trail_truncated_partial {img full : Bytes} (hp : img <+: full) (hi : IsrcsEnd full) {db : DatabaseType}
    {c : LazyDatabase} {t : Table} {l l' : List (Nat × Page)} {r r' : Res Unit}
    (h : Database.TrailOf ⟨img, db, c⟩ t l r) (h' : Database.TrailOf ⟨full, db, c⟩ t l' r') :
    l <+: l' ∧ (r = .ok () → l' = l ∧ r' = .ok ()) := by
  unfold Database.TrailOf at h h'
  generalize 1 = lo at h h'
  generalize t.firstPage.val.toNat = n at h h'
  generalize t.lastPage.val.toNat = last at h h'
  induction h generalizing l' r' with
  | last hlo hv =>
    have := h'.unique (.last hlo (view_truncated_partial hp hi hv))
    obtain ⟨rfl, rfl⟩ := this
    exact ⟨List.prefix_refl _, fun _ => ⟨rfl, rfl⟩⟩
  | link hlo hne hv _ ih =>
    have hv' := view_truncated_partial hp hi hv
    cases h' with
    | last => exact absurd rfl hne
    | link _ _ h2 t' =>
      rw [hv'] at h2
      injection h2 with h2
      subst h2
      obtain ⟨h3, h4⟩ := ih t'
      refine ⟨(List.prefix_cons_inj _).2 h3, fun hr => ?_⟩
      obtain ⟨rfl, rfl⟩ := h4 hr
      exact ⟨rfl, rfl⟩
    | back hlo' => exact absurd hlo (Nat.not_le_of_lt hlo')
    | fails _ h2 => rw [hv'] at h2; cases h2
    | panics _ h2 => rw [hv'] at h2; cases h2
  | back => exact ⟨List.nil_prefix, fun h => by cases h⟩
  | fails => exact ⟨List.nil_prefix, fun h => by cases h⟩
  | panics => exact ⟨List.nil_prefix, fun h => by cases h⟩

/-- C83: a loop over a table that succeeds on the truncated file gives the same on the whole file. -/
theorem rows_truncated_partial {img full : Bytes} (hp : img <+: full) (hi : IsrcsEnd full) {db : DatabaseType}
    {c : LazyDatabase} {α β : Type} [RowVariant α] {f : α → Res β} {out : List β}
    (h : (Database.collectRows ⟨img, db, c⟩ α f).1 = .ok out) :
    (Database.collectRows ⟨full, db, c⟩ α f).1 = .ok out := by
  have h1 := (collect_rows_table ⟨img, db, c⟩ f).1
  rw [h] at h1
  obtain ⟨o, h2, hu⟩ := table_exists_unique ⟨full, db, c⟩ f
  rw [hu _ (collect_rows_table ⟨full, db, c⟩ f).1]
  refine (hu _ ?_).symm
  cases h1 with
  | rows ht hpt hb hl hv =>
    rename_i t l r
    have hr : r = .ok () := by
      generalize hx : Res.ok out = y at hv
      generalize (rowsOf l).map (fun x => x.2.2) = xs at hv
      clear h hl
      induction hv generalizing out with
      | done h => exact h
      | next _ _ _ ih => exact ih rfl
      | _ => cases hx
    obtain ⟨l', r', h3, -⟩ := trail_exists_unique ⟨full, db, c⟩ t
    obtain ⟨-, h4⟩ := trail_truncated_partial hp hi hl h3
    obtain ⟨rfl, rfl⟩ := h4 hr
    subst hr
    exact .rows ht hpt hb h3 hv

/-- C83: `list_playlists` with a truncated file prints nothing and reports a problem, or prints the same as with the
whole file. -/
theorem list_truncated_partial {img full : Bytes} (hp : img <+: full) (hi : IsrcsEnd full) (lossy : Bytes → String)
    (n : Nat) :
    (∃ o, o ≠ .ok () ∧ listPlaylists lossy n (some img) = ⟨[], some o⟩) ∨
      listPlaylists lossy n (some img) = listPlaylists lossy n (some full) := by
  rcases open_truncated_or_same hp 0 .plain with ⟨e, h⟩ | ⟨c, h, h'⟩
  · exact .inl ⟨.err e, by simp, by unfold listPlaylists; simp only; rw [h]⟩
  · unfold listPlaylists
    simp only
    rw [h, h']
    simp only
    unfold listPlaylistsOf
    obtain ⟨x1, h1, u1⟩ := table_exists_unique (α := PlaylistTreeNode) ⟨img, .plain, c⟩ Res.ok
    obtain ⟨x2, h2, u2⟩ := table_exists_unique (α := Artist) ⟨img, .plain, c⟩ Res.ok
    obtain ⟨x3, h3, u3⟩ := table_exists_unique (α := Track) ⟨img, .plain, c⟩ Res.ok
    obtain ⟨x4, h4, u4⟩ := table_exists_unique (α := PlaylistEntry) ⟨img, .plain, c⟩ Res.ok
    have up : ∀ {α : Type} [RowVariant α] {rows : List α}, Database.Table ⟨img, .plain, c⟩ Res.ok (.ok rows) →
        Database.Table ⟨full, .plain, c⟩ Res.ok (.ok rows) := by
      intro α _ rows h
      obtain ⟨o, -, hu⟩ := table_exists_unique (α := α) ⟨img, .plain, c⟩ Res.ok
      have := (collect_rows_table (α := α) ⟨img, .plain, c⟩ Res.ok).1
      have he : (Database.collectRows ⟨img, .plain, c⟩ α Res.ok).1 = .ok rows := by rw [hu _ this, hu _ h]
      have := (collect_rows_table (α := α) ⟨full, .plain, c⟩ Res.ok).1
      rw [rows_truncated_partial hp hi he] at this
      exact this
    rw [list_data_tables h1 h2 h3 h4]
    cases x1 with
    | err e => exact .inl ⟨.err e, by simp, rfl⟩
    | panic => exact .inl ⟨.panic, by simp, rfl⟩
    | ok y1 =>
      cases x2 with
      | err e => exact .inl ⟨.err e, by simp, rfl⟩
      | panic => exact .inl ⟨.panic, by simp, rfl⟩
      | ok y2 =>
        cases x3 with
        | err e => exact .inl ⟨.err e, by simp, rfl⟩
        | panic => exact .inl ⟨.panic, by simp, rfl⟩
        | ok y3 =>
          cases x4 with
          | err e => exact .inl ⟨.err e, by simp, rfl⟩
          | panic => exact .inl ⟨.panic, by simp, rfl⟩
          | ok y4 => exact .inr (by rw [list_data_tables (up h1) (up h2) (up h3) (up h4)])

/-! ### Examples and witnesses -/

/-- A test for the condition. -/
def isrcsEndTest (file : Bytes) (i : Nat) : Bool :=
  match file[i]?, file[i + 1]?, file[i + 2]?, file[i + 3]?, file[i + 4]? with
  | some 0x90, some lo, some hi, some 0, some 3 =>
    (lo.toNat + 256 * hi.toNat) % 2 != 0 ||
      (List.range (i + (lo.toNat + 256 * hi.toNat))).any fun z => decide (i + 5 ≤ z) && file[z]? == some 0
  | _, _, _, _, _ => true

theorem isrcsEnd_of_test {file : Bytes} (h : ((List.range file.length).all (isrcsEndTest file)) = true) :
    IsrcsEnd file := by
  intro i n h0 hn he h3 h4
  obtain ⟨lo, hi, h1, h2, rfl⟩ := hn
  have hl : i < file.length := by
    by_cases hl : i < file.length
    · exact hl
    · unfold ByteAt at h0; rw [List.getElem?_eq_none (by omega)] at h0; cases h0
  have := List.all_eq_true.1 h i (List.mem_range.2 hl)
  unfold ByteAt at h0 h3 h4
  unfold isrcsEndTest at this
  rw [h0, h1, h2, h3, h4] at this
  simp only [Bool.or_eq_true, bne_iff_ne, ne_eq, List.any_eq_true, List.mem_range, Bool.and_eq_true,
    decide_eq_true_eq, beq_iff_eq] at this
  rcases this with h | ⟨z, hz1, hz2, hz3⟩
  · exact absurd he h
  · exact ⟨z, hz2, hz1, hz3⟩

/-- The example file has an ISRC, and it ends within its length. -/
theorem smallFile_isrcs : IsrcsEnd smallFile := isrcsEnd_of_test (by decide +kernel)

theorem view_of_read_err {d : Database} {n : Nat} {s : UInt32} {e : Err} (hn : d.content.pages[n - 1]? = some .notLoaded)
    (hs : d.content.header.pageSize = s) (h : Page.read s.toNat d.dbType d.io (n * s.toNat) = .err e) :
    d.view n = .err e := by
  unfold Database.view
  rw [hn, hs, h]

/-- C83: cut behind the second page, the example file gives the tracks of the whole file. -/
example : ∃ d d', Database.openAt (smallFile.take 576) 0 .plain = .ok d ∧ Database.openAt smallFile 0 .plain = .ok d' ∧
    d.view 1 = .ok tracksPage ∧ d'.view 1 = .ok tracksPage ∧ (∃ e, d.view 2 = .err e) ∧ d'.view 2 = .ok nodesPage := by
  have hr : Page.read 288 .plain (smallFile.take 576) 288 = .ok (tracksPage, 576) := by decide +kernel
  have hv : Database.view ⟨smallFile.take 576, .plain, smallDb.content⟩ 1 = .ok tracksPage := view_of_read rfl rfl hr
  have hf : Page.read 288 .plain (smallFile.take 576) 576 = .err .eof := by decide +kernel
  have ho : Database.openAt (smallFile.take 576) 0 .plain = .ok ⟨smallFile.take 576, .plain, smallDb.content⟩ := by
    decide +kernel
  exact ⟨_, smallDb, ho, smallFile_open, hv,
    view_truncated_partial (List.take_prefix 576 smallFile) smallFile_isrcs hv, ⟨_, view_of_read_err rfl rfl hf⟩, smallDb_view2⟩

/-- The header of a file with one page of genres. -/
def runawayContent : LazyDatabase := ⟨⟨96, 1, ⟨2⟩, 5, 1, [⟨.plain .genres, 0, ⟨1⟩, ⟨1⟩⟩]⟩, [.notLoaded]⟩

/-- A file with one page whose only row, a genre, stands behind the page; the name of the genre is an ISRC that is
longer than its length says. -/
def runawayFile : Bytes :=
  runawayContent.header.enc ++ List.replicate 52 0 ++
    (pageOf .genres 1 12 [.plain (.genre ⟨7, .empty⟩)]).header.enc ++ [1, 0, 0, 0, 0, 0, 0, 0] ++
    List.replicate 20 0 ++ List.replicate 30 0 ++ [56, 0, 1, 0, 0, 0] ++
    [7, 0, 0, 0, 0x90, 6, 0, 0, 3, 0x41, 0x42, 0]

theorem view_rows {file : Bytes} {c : LazyDatabase} {rows : List Row} (h1 : c.pages[0]? = some .notLoaded)
    (h2 : c.header.pageSize = 96)
    (h : (match Page.read 96 .plain file 96 with
      | .ok (pg, _) => decide ((rowsOf [(1, pg)]).map (fun x => x.2.2) = rows)
      | _ => false) = true) :
    ∃ pg, Database.view ⟨file, .plain, c⟩ 1 = .ok pg ∧ (rowsOf [(1, pg)]).map (fun x => x.2.2) = rows := by
  split at h
  · rename_i pg q hr
    exact ⟨pg, view_of_read (size := 96) (by rw [h2]; rfl) h1 hr, of_decide_eq_true h⟩
  · cases h

/-- C83 is false without the condition: without its last two bytes, this file can be read, but the genre has another
name. -/
theorem truncated_database_misread : ∃ img d d' pg pg', img <+: runawayFile ∧
    Database.openAt img 0 .plain = .ok d ∧ Database.openAt runawayFile 0 .plain = .ok d' ∧
    d.view 1 = .ok pg ∧ d'.view 1 = .ok pg' ∧
    (rowsOf [(1, pg)]).map (fun x => x.2.2) = [.plain (.genre ⟨7, .long (.ucs2le [0x4103])⟩)] ∧
    (rowsOf [(1, pg')]).map (fun x => x.2.2) = [.plain (.genre ⟨7, .long (.isrc [0x41, 0x42])⟩)] := by
  have ho : Database.openAt (runawayFile.take 202) 0 .plain = .ok ⟨runawayFile.take 202, .plain, runawayContent⟩ := by
    decide +kernel
  have ho' : Database.openAt runawayFile 0 .plain = .ok ⟨runawayFile, .plain, runawayContent⟩ := by decide +kernel
  obtain ⟨pg, h1, h2⟩ := view_rows (file := runawayFile.take 202) (c := runawayContent)
    (rows := [.plain (.genre ⟨7, .long (.ucs2le [0x4103])⟩)]) rfl rfl (by decide +kernel)
  obtain ⟨pg', h3, h4⟩ := view_rows (file := runawayFile) (c := runawayContent)
    (rows := [.plain (.genre ⟨7, .long (.isrc [0x41, 0x42])⟩)]) rfl rfl (by decide +kernel)
  exact ⟨_, _, _, pg, pg', List.take_prefix 202 _, ho, ho', h1, h3, h2, h4⟩

end Rekordcrate
