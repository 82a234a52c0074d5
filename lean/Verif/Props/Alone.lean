import Verif.Lemmas.Merge
import Verif.Props.Isolation

/-! # C84: exactly when a page does not depend on the rest of the file -/

namespace Rekordcrate
open Rd

/-! ## Strings -/

theorem TextAt.end_eq {d d' : Bytes} {p : Nat} {v : DString} {q q' : Nat} (h : TextAt d p v q) (h' : TextAt d' p v q') :
    q' = q ∧ p ≤ q := by
  cases h <;> cases h' <;> exact ⟨rfl, by omega⟩

theorem hasAt_ext {d d' : Bytes} {lo p : Nat} {bs : Bytes} (he : ∀ i b, lo ≤ i → d[i]? = some b → d'[i]? = some b)
    (hp : lo ≤ p) (h : HasAt d p bs) : HasAt d' p bs := by
  intro i hi
  have := h i hi
  rw [List.getElem?_eq_getElem hi] at this ⊢
  exact he _ _ (by omega) this

theorem isrcText_tail {d d' : Bytes} {lo x : Nat} (he : ∀ i b, lo ≤ i → d[i]? = some b → d'[i]? = some b) (hx : lo ≤ x)
    (hl : x ≤ d.length) (h : IsrcText d' x) : IsrcText (d ++ [3, 0]) x := by
  obtain ⟨text, h0, h⟩ := h
  have hbyte : ∀ i, i < d.length → lo ≤ i → d[i]? = d'[i]? := by
    intro i hi hlo
    rw [he i _ hlo (List.getElem?_eq_getElem hi), List.getElem?_eq_getElem hi]
  rcases Nat.lt_or_ge (x + text.length + 1) d.length with hlt | hge
  · refine ⟨text, h0, fun i hi => ?_⟩
    have hi' : i ≤ text.length + 1 := by simpa using hi
    rw [← h i hi, List.getElem?_append_left (by omega), hbyte _ (by omega) (by omega)]
  · rcases Nat.eq_or_lt_of_le hl with rfl | hlt
    · refine ⟨[], by simp, fun i hi => ?_⟩
      rw [List.getElem?_append_right (by omega), show d.length + i - d.length = i by omega]
      rfl
    · refine ⟨d.drop (x + 1) ++ [3], ?_, ?_⟩
      · intro hm
        rcases List.mem_append.1 hm with hm | hm
        · obtain ⟨i, hi⟩ := List.getElem?_of_mem hm
          rw [List.getElem?_drop] at hi
          have hlt' : x + 1 + i < d.length := (List.getElem?_eq_some_iff.1 hi).1
          rw [hbyte _ hlt' (by omega), show x + 1 + i = x + (1 + i) by omega, h (1 + i) (by simp; omega),
            List.append_assoc, List.getElem?_append_right (by simp), List.getElem?_append_left (by simp; omega)] at hi
          simp only [List.length_cons, List.length_nil] at hi
          rw [show 1 + i - (0 + 1) = i by omega] at hi
          exact h0 (List.mem_of_getElem? hi)
        · simp at hm
      · have h3 : d[x]? = some 3 := by
          rw [hbyte _ hlt hx]
          have := h 0 (by simp)
          simpa using this
        have e : d ++ [3, 0] = d.take x ++ ([3] ++ (d.drop (x + 1) ++ [3]) ++ [0]) := by
          conv => lhs; rw [← List.take_append_drop x d, List.drop_eq_getElem_cons hlt]
          rw [List.getElem?_eq_getElem hlt] at h3
          injection h3 with h3
          rw [h3]
          simp
        intro i hi
        rw [e, List.getElem?_append_right (by rw [List.length_take]; omega)]
        simp only [List.length_take]
        rw [show x + i - min x d.length = i by omega]

theorem text_merge {d d' : Bytes} {lo x : Nat} (he : ∀ i b, lo ≤ i → d[i]? = some b → d'[i]? = some b) (hx : lo ≤ x)
    {v : DString} {e : Nat} (h : TextAt d x v e) (h' : TextAt (d ++ [3, 0]) x v e) : TextAt d' x v e := by
  have hd : ∀ {kind n}, LongHead d x kind n → LongHead d' x kind n ∧ x + 4 ≤ d.length := by
    rintro kind n ⟨h1, ⟨a, b, h2, h3, h4⟩, h5⟩
    have : x + 3 < d.length := (List.getElem?_eq_some_iff.1 h5).1
    exact ⟨⟨he _ _ hx h1, ⟨a, b, he _ _ (by omega) h2, he _ _ (by omega) h3, h4⟩, he _ _ (by omega) h5⟩, by omega⟩
  cases h with
  | short head text h1 h2 h3 => exact .short head text (he _ _ hx h1) h2 (hasAt_ext he (by omega) h3)
  | ascii n text h1 h2 h3 h4 => exact .ascii n text (hd h1).1 h2 h3 (hasAt_ext he (by omega) h4)
  | isrc n text h1 h2 h3 => exact .isrc n text (hd h1).1 h2 (hasAt_ext he (by omega) h3)
  | units n units h1 h2 h3 h4 h5 =>
    cases h' with
    | units n' _ g1 g2 g3 g4 g5 =>
      exact .units n units (hd h1).1 (fun hi => g2 (isrcText_tail he (by omega) (hd h1).2 hi)) h3 h4
        (hasAt_ext he (by omega) h5)

theorem sound_merge {d d' : Bytes} {lo x : Nat} (he : ∀ i b, lo ≤ i → d[i]? = some b → d'[i]? = some b) (hx : lo ≤ x)
    {v : DString} {e : Nat} (h : SoundTextAt d x v e) (h' : SoundTextAt (d ++ [3, 0]) x v e) : SoundTextAt d' x v e := by
  refine ⟨text_merge he hx h.1 h'.1, fun hb => h.2 ?_⟩
  obtain ⟨h, -⟩ := h
  have first : ∃ b, d[x]? = some b := by
    cases h with
    | short head text h1 => exact ⟨_, h1⟩
    | ascii n text h1 => exact ⟨_, h1.1⟩
    | isrc n text h1 => exact ⟨_, h1.1⟩
    | units n units h1 => exact ⟨_, h1.1⟩
  obtain ⟨b, hb0⟩ := first
  have hb' := he _ _ hx hb0
  rcases hb with hb | ⟨b', n, h1, h2, ⟨lo', hi', h3, h4, h5⟩, h6⟩
  · rw [hb'] at hb
    exact .inl (hb0.trans hb)
  · rw [hb'] at h1
    cases h1
    have long : ∃ k m, LongHead d x k m := by
      cases h with
      | short head text g1 g2 =>
        rw [hb0] at g1
        cases g1
        omega
      | ascii n text h1 => exact ⟨_, _, h1⟩
      | isrc n text h1 => exact ⟨_, _, h1⟩
      | units n units h1 => exact ⟨_, _, h1⟩
    obtain ⟨k, m, -, ⟨a, c, g1, g2, g3⟩, -⟩ := long
    have e1 := he _ _ (by omega) g1
    have e2 := he _ _ (by omega) g2
    rw [h3] at e1
    rw [h4] at e2
    cases e1
    cases e2
    exact .inr ⟨b, n, hb0, h2, ⟨lo', hi', g1, g2, h5⟩, h6⟩

/-! ## Pages -/

theorem take_agree {img img' : Bytes} {lo hi : Nat} (ha : AgreeOn img img' lo hi) :
    ∀ i b, lo ≤ i → (img.take hi)[i]? = some b → img'[i]? = some b := by
  intro i b hi' h
  have hlt : i < hi := by
    have := (List.getElem?_eq_some_iff.1 h).1
    rw [List.length_take] at this
    omega
  rw [List.getElem?_take, if_pos hlt] at h
  rw [← ha i hi' hlt, h]

theorem sound_pages_merge {img img' : Bytes} {lo hi : Nat} (ha : AgreeOn img img' lo hi) :
    Merge SoundTextAt SoundTextAt SoundTextAt (img.take hi) (img.take hi ++ [3, 0]) img' lo :=
  ⟨take_agree ha, fun _ _ _ _ h h' => h.1.end_eq h'.1, fun _ _ _ hx => sound_merge (take_agree ha) hx⟩

theorem text_pages_merge {img img' : Bytes} {lo hi : Nat} (ha : AgreeOn img img' lo hi) :
    Merge TextAt TextAt TextAt (img.take hi) (img.take hi ++ [3, 0]) img' lo :=
  ⟨take_agree ha, fun _ _ _ _ h h' => h.end_eq h', fun _ _ _ hx => text_merge (take_agree ha) hx⟩

theorem AgreeOn.take {img : Bytes} {lo hi : Nat} (tail : Bytes) (hi' : hi ≤ img.length) :
    AgreeOn img (img.take hi ++ tail) lo hi := by
  intro i _ h
  rw [List.getElem?_append_left (by rw [List.length_take]; omega), List.getElem?_take, if_pos h]

theorem AgreeOn.set {img : Bytes} {lo hi : Nat} (b : UInt8) (hl : 0 < lo) : AgreeOn img (img.set (lo - 1) b) lo hi := by
  intro i hi _
  rw [List.getElem?_set_ne (by omega)]

theorem groups_inside {S : StringRel} {size : Option Nat} {db : DatabaseType} {img : Bytes} {lo p q : Nat} {pg : Page}
    (hlo : lo ≤ p) (h : Page.At S size db img p pg q)
    (h' : 0 < lo → ∀ b, Page.At S size db (img.set (lo - 1) b) p pg q) {n : Nat} (hn : size = some n) (hs : 40 ≤ n)
    {c : DataPageContent} (hc : pg.content = .data c) :
    lo + 36 * ((pg.header.packedRowCounts.numRows.val + 15) / 16) ≤ p + n := by
  rcases Nat.lt_or_ge (p + n) (lo + 36 * ((pg.header.packedRowCounts.numRows.val + 15) / 16)) with hlt | hge
  swap
  · exact hge
  exfalso
  obtain ⟨⟨⟨b0, -, -, -, hb, -⟩, -⟩, h⟩ := h
  have hpl : p < img.length := (List.getElem?_eq_some_iff.1 hb).1
  rw [hc] at h
  obtain ⟨-, n1, hn1, ⟨-, -, -, -, g1, g2, g3, -⟩, -⟩ := h
  rw [hn] at hn1
  cases hn1
  have hl0 : 0 < lo := by omega
  have hl1 : lo - 1 < img.length := by omega
  obtain ⟨-, h3⟩ := h' hl0 (img[lo - 1] + 1)
  rw [hc] at h3
  obtain ⟨-, n2, hn2, ⟨-, -, -, -, -, -, k3, -⟩, -⟩ := h3
  rw [hn] at hn2
  cases hn2
  have hk : (p + n - lo) / 36 < c.rowGroups.length := by omega
  have a1 := (rowGroup_at_iff (by omega)).1 (g3 _ _ (List.getElem?_eq_getElem hk))
  have a2 := (rowGroup_at_iff (by omega)).1 (k3 _ _ (List.getElem?_eq_getElem hk))
  generalize hK : (p + n - lo) / 36 = K at *
  obtain ⟨al, a1⟩ := a1
  obtain ⟨-, a2⟩ := a2
  have hlen : lo - 1 - (p + n - 36 * K - 36) < ((c.rowGroups[K].rowOffsets.flatMap encU16) ++
      (encU16 c.rowGroups[K].rowPresenceFlags ++ encU16 c.rowGroups[K].unknown)).length := by
    simp only [List.length_append, flatMap_encU16_length, al, encU16_length]
    omega
  have e1 := a1 _ hlen
  have e2 := a2 _ hlen
  rw [← e1, show p + n - 36 * K - 36 + (lo - 1 - (p + n - 36 * K - 36)) = lo - 1 by omega,
    List.getElem?_set_self (by omega), List.getElem?_eq_getElem hl1] at e2
  injection e2 with e2
  generalize img[lo - 1] = b at e2
  have e2 := congrArg UInt8.toNat e2
  rw [UInt8.toNat_add, show UInt8.toNat 1 = 1 from rfl] at e2
  omega

/-- C84, exact: a page does not depend on what the file holds outside the range from `lo` to `hi` exactly if it can be
read when the file ends there, also if the bytes 3 and 0 follow, and its row groups do not begin before `lo`. -/
theorem page_isolated_iff {pageSize : Nat} {db : DatabaseType} {img : Bytes} {lo hi p q : Nat} {pg : Page}
    (hlo : lo ≤ p) (hhi : hi ≤ img.length) :
    (∀ img', AgreeOn img img' lo hi → Page.read pageSize db img' p = .ok (pg, q)) ↔
      Page.read pageSize db (img.take hi) p = .ok (pg, q) ∧
      Page.read pageSize db (img.take hi ++ [3, 0]) p = .ok (pg, q) ∧
      ∀ c, pg.content = .data c → lo + 36 * ((pg.header.packedRowCounts.numRows.val + 15) / 16) ≤ p + pageSize := by
  constructor
  · intro h
    refine ⟨h _ (by simpa using AgreeOn.take (lo := lo) [] hhi), h _ (AgreeOn.take _ hhi), fun c hc => ?_⟩
    have h1 := page_read_iff.1 (h img fun _ _ _ => rfl)
    have hsize : 40 ≤ pageSize := by
      have h1 := h1.2
      rw [hc] at h1
      obtain ⟨-, n, hn, -⟩ := h1
      unfold soundSize at hn
      split at hn
      · assumption
      · cases hn
    exact groups_inside hlo h1 (fun hl b => page_read_iff.1 (h _ (.set b hl))) (if_pos hsize) hsize hc
  · rintro ⟨h1, h2, h3⟩ img' ha
    rw [page_read_iff] at h1 h2 ⊢
    refine (sound_pages_merge ha).page hlo (fun n c hn hc => ?_) h1 h2
    unfold soundSize at hn
    split at hn
    · cases hn; exact h3 c hc
    · cases hn

/-- C84, exact, in builds without overflow checks. -/
theorem page_release_isolated_iff {pageSize : Nat} (hps : pageSize < 2 ^ 32) {db : DatabaseType} {img : Bytes}
    {lo hi p q : Nat} {pg : Page} (hlo : lo ≤ p) (hhi : hi ≤ img.length) (hl : img.length < 2 ^ 64 - 3) :
    (∀ img', img'.length < 2 ^ 64 - 1 → AgreeOn img img' lo hi → Page.readWrap pageSize db img' p = .ok (pg, q)) ↔
      Page.readWrap pageSize db (img.take hi) p = .ok (pg, q) ∧
      Page.readWrap pageSize db (img.take hi ++ [3, 0]) p = .ok (pg, q) ∧
      ∀ c, pg.content = .data c → lo + 36 * ((pg.header.packedRowCounts.numRows.val + 15) / 16) ≤
        p + if 40 ≤ pageSize then pageSize else pageSize + 2 ^ 32 := by
  have l1 : (img.take hi).length < 2 ^ 64 - 1 := by rw [List.length_take]; omega
  have l2 : (img.take hi ++ [3, 0]).length < 2 ^ 64 - 1 := by
    rw [List.length_append, List.length_take]
    simp only [List.length_cons, List.length_nil]
    omega
  constructor
  · intro h
    refine ⟨h _ l1 (by simpa using AgreeOn.take (lo := lo) [] hhi), h _ l2 (AgreeOn.take _ hhi), fun c hc => ?_⟩
    have h1 := (page_release_read_iff (by omega) hps).1 (h img (by omega) fun _ _ _ => rfl)
    exact groups_inside hlo h1 (fun hl' b => (page_release_read_iff (by rw [List.length_set]; omega) hps).1
      (h _ (by rw [List.length_set]; omega) (.set b hl'))) rfl (by split <;> omega) hc
  · rintro ⟨h1, h2, h3⟩ img' hl' ha
    rw [page_release_read_iff l1 hps] at h1
    rw [page_release_read_iff l2 hps] at h2
    rw [page_release_read_iff hl' hps]
    refine (text_pages_merge ha).page hlo (fun n c hn hc => ?_) h1 h2
    injection hn with hn
    rw [← hn]
    exact h3 c hc

/-! ## Files that were cut off -/

theorem agree_prefix_iff {img img' : Bytes} : AgreeOn img img' 0 img.length ↔ img <+: img' := by
  constructor
  · intro h
    rw [List.prefix_iff_getElem?]
    intro i hi
    rw [← h i (Nat.zero_le _) hi, List.getElem?_eq_getElem hi]
  · rintro ⟨tail, rfl⟩ i - hi
    rw [List.getElem?_append_left hi]

/-- C83, exact: a page of a file that was cut off is the page of the full file, whatever the full file is, exactly if
it can also be read with the bytes 3 and 0 put behind the file that was cut off. -/
theorem page_truncated_iff {pageSize : Nat} {db : DatabaseType} {img : Bytes} {p q : Nat} {pg : Page} :
    (∀ full, img <+: full → Page.read pageSize db full p = .ok (pg, q)) ↔
      Page.read pageSize db img p = .ok (pg, q) ∧ Page.read pageSize db (img ++ [3, 0]) p = .ok (pg, q) := by
  have := page_isolated_iff (pageSize := pageSize) (db := db) (pg := pg) (q := q) (Nat.zero_le p) (Nat.le_refl img.length)
  rw [List.take_length] at this
  constructor
  · intro h
    exact ⟨h _ (List.prefix_refl _), h _ (List.prefix_append ..)⟩
  · rintro ⟨h1, h2⟩ full hf
    refine this.2 ⟨h1, h2, fun c hc => ?_⟩ full (agree_prefix_iff.2 hf)
    have h := (page_read_iff.1 h1).2
    rw [hc] at h
    obtain ⟨-, n, hn, ⟨-, -, -, -, g1, g2, -⟩, -⟩ := h
    unfold soundSize at hn
    split at hn
    · cases hn
      omega
    · cases hn

/-! ## Tables -/

/-- The page can be read without the rest of the file: from its own bytes, also if 3 and 0 follow, and its row groups
do not begin before it. -/
def Page.Alone (pageSize : Nat) (db : DatabaseType) (file : Bytes) (p : Nat) (pg : Page) : Prop :=
  p + pageSize ≤ file.length ∧ (∃ q, Page.read pageSize db (file.take (p + pageSize)) p = .ok (pg, q) ∧
    Page.read pageSize db (file.take (p + pageSize) ++ [3, 0]) p = .ok (pg, q)) ∧
  ∀ c, pg.content = .data c → 36 * ((pg.header.packedRowCounts.numRows.val + 15) / 16) ≤ pageSize

/-- C84: these pages are those that stay the same, whatever happens outside their bytes. -/
theorem page_alone_iff {pageSize : Nat} {db : DatabaseType} {file : Bytes} {p : Nat} {pg : Page}
    (hl : p + pageSize ≤ file.length) :
    pg.Alone pageSize db file p ↔
      ∃ q, ∀ file', AgreeOn file file' p (p + pageSize) → Page.read pageSize db file' p = .ok (pg, q) := by
  constructor
  · rintro ⟨-, ⟨q, h1, h2⟩, h3⟩
    exact ⟨q, (page_isolated_iff (Nat.le_refl _) hl).2 ⟨h1, h2, fun c hc => Nat.add_le_add_left (h3 c hc) p⟩⟩
  · rintro ⟨q, h⟩
    obtain ⟨h1, h2, h3⟩ := (page_isolated_iff (Nat.le_refl _) hl).1 h
    exact ⟨hl, ⟨q, h1, h2⟩, fun c hc => Nat.le_of_add_le_add_left (h3 c hc)⟩

/-- C84: a table whose pages can be read without the rest of the file has the same pages in every file that agrees on
them. -/
theorem trail_isolated {db : DatabaseType} {file file' : Bytes} {c : LazyDatabase} {t : Table} {l : List (Nat × Page)}
    (hl : Database.TrailOf ⟨file, db, c⟩ t l (.ok ())) (hn : ∀ x ∈ c.pages, x = .notLoaded)
    (hs : ∀ x ∈ l, x.2.Alone c.header.pageSize.toNat db file (x.1 * c.header.pageSize.toNat))
    (ha : ∀ x ∈ l, AgreeOn file file' (x.1 * c.header.pageSize.toNat)
      (x.1 * c.header.pageSize.toNat + c.header.pageSize.toNat)) :
    Database.TrailOf ⟨file', db, c⟩ t l (.ok ()) := by
  have view : ∀ {n : Nat} {pg : Page}, Database.view ⟨file, db, c⟩ n = .ok pg →
      pg.Alone c.header.pageSize.toNat db file (n * c.header.pageSize.toNat) →
      AgreeOn file file' (n * c.header.pageSize.toNat) (n * c.header.pageSize.toNat + c.header.pageSize.toNat) →
      Database.view ⟨file', db, c⟩ n = .ok pg := by
    intro n pg hv hs ha
    obtain ⟨q, hr⟩ := (page_alone_iff hs.1).1 hs
    unfold Database.view at hv ⊢
    simp only at hv ⊢
    cases hp : c.pages[n - 1]? with
    | none => rw [hp] at hv; cases hv
    | some x =>
      have := hn x (List.mem_of_getElem? hp)
      subst this
      simp only
      rw [hr _ ha]
  unfold Database.TrailOf at hl ⊢
  generalize hr : (Res.ok () : Res Unit) = r at hl
  generalize 1 = lo at hl ⊢
  generalize t.firstPage.val.toNat = n at hl ⊢
  generalize t.lastPage.val.toNat = last at hl ⊢
  subst hr
  generalize hr : (Res.ok () : Res Unit) = r at hl ⊢
  induction hl with
  | last hlo hv => exact .last hlo (view hv (hs _ (List.mem_cons_self ..)) (ha _ (List.mem_cons_self ..)))
  | link hlo hne hv _ ih =>
    exact .link hlo hne (view hv (hs _ (List.mem_cons_self ..)) (ha _ (List.mem_cons_self ..)))
      (ih (fun x hx => hs x (List.mem_cons_of_mem _ hx)) (fun x hx => ha x (List.mem_cons_of_mem _ hx)) hr)
  | back => cases hr
  | fails => cases hr
  | panics => cases hr

/-- C84: whatever happens to the file outside the header and the pages of a table, loops over this table give the same
results, if its pages can be read without the rest of the file. -/
theorem rows_isolated {db : DatabaseType} {file file' : Bytes} {d : Database}
    (ho : Database.openAt file 0 db = .ok d) (hh : AgreeOn file file' 0 d.content.header.enc.length)
    {α : Type} [RowVariant α] {before after : List Table} {t : Table} {l : List (Nat × Page)}
    (ht : d.content.header.tables = before ++ t :: after) (hp : t.pageType = RowVariant.pageType α)
    (hb : ∀ t' ∈ before, t'.pageType ≠ RowVariant.pageType α) (hl : d.TrailOf t l (.ok ()))
    (hs : ∀ x ∈ l, x.2.Alone d.content.header.pageSize.toNat db file (x.1 * d.content.header.pageSize.toNat))
    (ha : ∀ x ∈ l, AgreeOn file file' (x.1 * d.content.header.pageSize.toNat)
      (x.1 * d.content.header.pageSize.toNat + d.content.header.pageSize.toNat)) :
    ∃ d', Database.openAt file' 0 db = .ok d' ∧ ∀ (β : Type) (f : α → Res β),
      (d'.collectRows α f).1 = (d.collectRows α f).1 := by
  refine ⟨_, open_isolated ho hh, fun β f => ?_⟩
  obtain ⟨-, hio, hdb, -, hnl⟩ := open_reads_header ho
  obtain ⟨io, db', c⟩ := d
  simp only at hio hdb ht hs ha
  subst hio hdb
  have hn : ∀ x ∈ c.pages, x = .notLoaded := by
    intro x hx
    cases x with
    | notLoaded => rfl
    | loaded pg =>
      obtain ⟨i, hi⟩ := List.mem_iff_getElem?.1 hx
      exact absurd ⟨by omega, pg, hi⟩ (hnl (i + 1))
  have h1 := trail_isolated hl hn hs ha
  obtain ⟨out, h3, hu⟩ := table_exists_unique (α := α) (⟨io, db', c⟩ : Database) f
  obtain ⟨out', -, hu'⟩ := table_exists_unique (α := α) (⟨file', db', c⟩ : Database) f
  rw [hu' _ (collect_rows_table _ f).1, hu _ (collect_rows_table _ f).1]
  refine (hu' _ ?_).symm
  cases h3 with
  | missing hm => exact absurd hp (hm t (by rw [ht]; simp))
  | rows ht' hp' hb' hl' hv =>
    rename_i t' l2 r
    have := first_unique (ht'.symm.trans ht) hp' hp hb' hb
    subst this
    obtain ⟨rfl, rfl⟩ := hl'.unique hl
    exact .rows ht hp hb h1 hv

/-! ## Examples -/

/-- C84: a page with a genre and a byte in its free space that the writer would not put there. It can be read without
the rest of the file. -/
example : Page.Alone 96 .plain (List.replicate 96 0xee ++ genrePageBytes.set 50 0x55 ++ [0xaa, 0xbb]) 96 genrePageRead :=
  ⟨by decide +kernel, ⟨192, by decide +kernel, by decide +kernel⟩, fun _ _ => by decide +kernel⟩

/-- C84: a page whose only row is a genre with the name "ă", in UTF-16, followed by bytes other than 0. -/
def scanPageBytes : Bytes :=
  [0, 0, 0, 0, 1, 0, 0, 0, 1, 0, 0, 0, 2, 0, 0, 0, 0, 0, 0, 0, 0, 0, 0, 0, 9, 32, 0, 0x24, 0, 0, 8, 0] ++
    [1, 0, 0, 0, 0, 0, 0, 0] ++ List.replicate 257 0 ++ [7, 0, 0, 0, 0x90, 6, 0, 0, 3, 1] ++
    List.replicate 32 1 ++ [1, 1, 1, 1]

def scanPageRead (name : DString) : Page :=
  { header :=
      { pageIndex := ⟨1⟩, pageType := .plain .genres, nextPage := ⟨2⟩, unknown1 := 0, unknown2 := 0
        packedRowCounts := ⟨9, 1⟩, pageFlags := .newDataPage, freeSize := 0, usedSize := 8 }
    content := .data
      { header := ⟨1, 0, 0, 0⟩
        rowGroups := [⟨List.replicate 16 257, 257, 257⟩]
        rows := [(257, .plain (.genre { id := 7, name }))] } }

/-- C84 is false in full even for rows that lie inside their page: the same page holds the genre "ă" at the end of a
file and a genre of 37 control characters if a byte 0 follows. So the file with 3 and 0 behind the page is needed in the
theorem. -/
theorem row_inside_page_damaged :
    Page.read 343 .plain scanPageBytes 0 = .ok (scanPageRead (.long (.ucs2le [0x103])), 343) ∧
    Page.read 343 .plain (scanPageBytes ++ [0]) 0 =
      .ok (scanPageRead (.long (.isrc (List.replicate 37 1))), 343) := by
  constructor <;> decide +kernel

/-- C84: no more than that, it is not one of the pages that can be read without the rest of the file. -/
example : ¬ ∃ pg, Page.Alone 343 .plain (scanPageBytes ++ [0]) 0 pg := by
  rintro ⟨pg, h⟩
  obtain ⟨q, hq⟩ := (page_alone_iff h.1).1 h
  have h1 := hq (scanPageBytes ++ [0]) fun _ _ _ => rfl
  have h2 := hq scanPageBytes fun i _ hi => by
    rw [List.getElem?_append_left (by rw [show scanPageBytes.length = 343 by decide +kernel]; exact hi)]
  rw [row_inside_page_damaged.1] at h2
  rw [row_inside_page_damaged.2, ← h2] at h1
  injection h1 with h1
  injection h1 with h1
  simp [scanPageRead] at h1

/-- C84: the tracks of the example file can be read if the page with the playlists is overwritten. -/
example : ∃ d', Database.openAt (smallFile.take 576 ++ List.replicate 288 0xff) 0 .plain = .ok d' ∧
    ∀ (β : Type) (f : Track → Res β), (d'.collectRows Track f).1 = (smallDb.collectRows Track f).1 := by
  have agree : ∀ {hi : Nat}, hi ≤ 576 → ∀ {lo : Nat}, AgreeOn smallFile (smallFile.take 576 ++ List.replicate 288 0xff) lo hi := by
    intro hi hh lo i _ h2
    have hlen : (smallFile.take 576).length = 576 := by decide +kernel
    rw [List.getElem?_append_left (by omega), List.getElem?_take, if_pos (by omega)]
  refine rows_isolated (α := Track) (l := [(1, tracksPage)]) (before := []) smallFile_open (agree (by decide)) rfl rfl
    (fun _ h => by cases h) (.last (Nat.le_refl 1) smallDb_view1) ?_ ?_
  · intro x hx
    rw [List.mem_singleton] at hx
    subst hx
    exact ⟨by decide +kernel, ⟨576, by decide +kernel, by decide +kernel⟩, fun _ _ => by decide +kernel⟩
  · intro x hx
    rw [List.mem_singleton] at hx
    subst hx
    exact agree (by decide)

end Rekordcrate
