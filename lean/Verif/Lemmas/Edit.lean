import Verif.Spec.Edit
import Verif.Lemmas.Flush
import Verif.Props.RowIter

/-! # Helper lemmas about editing rows and storing whole databases -/

namespace Rekordcrate

/-! ## Pointwise relations -/

theorem Pointwise.imp {α β : Type} {R S : α → β → Prop} {as : List α} {bs : List β} (h : Pointwise R as bs)
    (hi : ∀ a ∈ as, ∀ b ∈ bs, R a b → S a b) : Pointwise S as bs := by
  induction h with
  | nil => exact .nil
  | @cons a b as bs hr _ ih =>
    exact .cons (hi a (List.mem_cons_self ..) b (List.mem_cons_self ..) hr)
      (ih fun a' ha b' hb => hi a' (List.mem_cons_of_mem _ ha) b' (List.mem_cons_of_mem _ hb))

theorem Pointwise.mem_right {α β : Type} {R : α → β → Prop} {as : List α} {bs : List β} (h : Pointwise R as bs)
    {b : β} (hb : b ∈ bs) : ∃ a ∈ as, R a b := by
  induction h with
  | nil => cases hb
  | @cons a b' as bs hr _ ih =>
    rcases List.mem_cons.1 hb with rfl | hb
    · exact ⟨a, List.mem_cons_self .., hr⟩
    · obtain ⟨a', ha, hr⟩ := ih hb
      exact ⟨a', List.mem_cons_of_mem _ ha, hr⟩

theorem Pointwise.mem_left {α β : Type} {R : α → β → Prop} {as : List α} {bs : List β} (h : Pointwise R as bs)
    {a : α} (ha : a ∈ as) : ∃ b ∈ bs, R a b := by
  induction h with
  | nil => cases ha
  | @cons a' b as bs hr _ ih =>
    rcases List.mem_cons.1 ha with rfl | ha
    · exact ⟨b, List.mem_cons_self .., hr⟩
    · obtain ⟨b', hb, hr⟩ := ih ha
      exact ⟨b', List.mem_cons_of_mem _ hb, hr⟩

theorem Pointwise.trans {α β γ : Type} {R : α → β → Prop} {S : β → γ → Prop} {as : List α} {bs : List β}
    {cs : List γ} (h : Pointwise R as bs) (h' : Pointwise S bs cs) :
    Pointwise (fun a c => ∃ b, R a b ∧ S b c) as cs := by
  induction h generalizing cs with
  | nil => cases h'; exact .nil
  | cons hr _ ih =>
    cases h' with
    | cons hs t => exact .cons ⟨_, hr, hs⟩ (ih t)

theorem Pointwise.map_map {α β γ δ : Type} {R : α → β → Prop} {S : γ → δ → Prop} {as : List α} {bs : List β}
    (h : Pointwise R as bs) (f : α → γ) (g : β → δ) (hi : ∀ a b, R a b → S (f a) (g b)) :
    Pointwise S (as.map f) (bs.map g) := by
  induction h with
  | nil => exact .nil
  | cons hr _ ih => exact .cons (hi _ _ hr) ih

theorem Pointwise.pairwise {α β : Type} {R : α → β → Prop} {P : α → α → Prop} {Q : β → β → Prop} {as : List α}
    {bs : List β} (h : Pointwise R as bs) (hp : as.Pairwise P)
    (hi : ∀ a ∈ as, ∀ b ∈ bs, ∀ a' ∈ as, ∀ b' ∈ bs, R a b → R a' b' → P a a' → Q b b') : bs.Pairwise Q := by
  induction h with
  | nil => exact .nil
  | @cons a b as bs hr t ih =>
    obtain ⟨h1, h2⟩ := List.pairwise_cons.1 hp
    refine List.pairwise_cons.2 ⟨fun b' hb => ?_, ih h2 fun a ha b hb a' ha' b' hb' =>
      hi a (List.mem_cons_of_mem _ ha) b (List.mem_cons_of_mem _ hb) a' (List.mem_cons_of_mem _ ha') b'
        (List.mem_cons_of_mem _ hb')⟩
    obtain ⟨a', ha', hr'⟩ := t.mem_right hb
    exact hi a (List.mem_cons_self ..) b (List.mem_cons_self ..) a' (List.mem_cons_of_mem _ ha') b'
      (List.mem_cons_of_mem _ hb) hr hr' (h1 a' ha')

/-! ## Storing whole databases -/

theorem Row.Resolved.fits {r r' : Row} (h : r.Resolved r') {t : PageType} (hf : r.Fits t) : r'.Fits t := by
  cases r with
  | plain r => cases r <;> (first | (obtain ⟨x, -, rfl⟩ := h; exact hf) | (cases h; exact hf))
  | ext r => cases r <;> (first | (obtain ⟨x, -, rfl⟩ := h; exact hf) | (cases h; exact hf))
  | unknown => cases h; exact hf

namespace Database

theorem view_loaded {d : Database} {n : Nat} {pg : Page} (h : d.content.pages[n - 1]? = some (.loaded pg)) :
    d.view n = .ok pg := by
  unfold view
  rw [h]

theorem view_cases {d : Database} {n : Nat} {pg : Page} (h : d.view n = .ok pg) :
    d.content.pages[n - 1]? = some (.loaded pg) ∨
      (d.content.pages[n - 1]? = some .notLoaded ∧
        ∃ q, Page.read d.content.header.pageSize.toNat d.dbType d.io
          (n * d.content.header.pageSize.toNat) = .ok (pg, q)) := by
  unfold view at h
  split at h
  · rename_i hp
    injection h with h
    subst h
    exact .inl hp
  · rename_i hp
    split at h
    · rename_i pg' q hr
      injection h with h
      subst h
      exact .inr ⟨hp, q, hr⟩
    · cases h
    · cases h
  · cases h

theorem view_congr {d d' : Database} {n : Nat} (h : d'.content.pages[n - 1]? = d.content.pages[n - 1]?)
    (hh : d'.content.header = d.content.header) (hio : d'.io = d.io) (hdb : d'.dbType = d.dbType) :
    d'.view n = d.view n := by
  unfold view
  rw [h, hh, hio, hdb]

theorem Intact.sound {d : Database} (h : d.Intact) {n : Nat} (hn : 1 ≤ n) {pg : Page} (hv : d.view n = .ok pg) :
    pg.Sound d.content.header.pageSize.toNat d.dbType := by
  rcases view_cases hv with hp | ⟨hp, q, hr⟩
  · exact h.storable.pages _ _ hp
  · exact (h.file n pg q hn hp hr).1

/-- The database that is found when the file is opened again. -/
def reopened (d : Database) (file : Bytes) : Database where
  io := file
  dbType := d.dbType
  content := { header := d.content.header
               pages := List.replicate (d.content.header.nextUnusedPage.val.toNat - 1) .notLoaded }

theorem Intact.reopen_written {d : Database} (h : d.Intact) :
    ∃ d' d2, d.flush = .ok d' ∧ d'.content = d.content ∧ Database.openAt d'.io 0 d.dbType = .ok d2 ∧
      d2 = d.reopened d'.io ∧
      ∀ n pg, 1 ≤ n → d.view n = .ok pg → ∃ pg', d2.view n = .ok pg' ∧ pg.ReadBack pg' ∧
        ∃ q a, pg.write d.content.header.pageSize.toNat (n * d.content.header.pageSize.toNat) = .ok ((), q, a) ∧
          Contains d'.io a := by
  obtain ⟨ps, h1, h2, h3, h4, h5⟩ := h.storable.writes
  have hcont := h2.contains_applyPatches d.io
  refine ⟨_, d.reopened (applyPatches d.io ps), flush_eq h1, rfl, ?_, rfl, ?_⟩
  · unfold Database.openAt LazyDatabase.read
    have hh : HasAt (applyPatches d.io ps) 0 d.content.header.enc :=
      hcont ⟨0, d.content.header.enc⟩ (h4 _ (List.mem_cons_self ..))
    rw [Rd.bind_of_ok (header_roundtrip d.dbType _ h.storable.header _ _ hh)]
    rfl
  · intro n pg hn hv
    have hlt := view_lt hv
    rw [h.length] at hlt
    have key : ∃ a, pg.write d.content.header.pageSize.toNat (n * d.content.header.pageSize.toNat) =
        .ok ((), n * d.content.header.pageSize.toNat + d.content.header.pageSize.toNat, a) ∧
        Contains (applyPatches d.io ps) a := by
      rcases view_cases hv with hp | ⟨hp, q, hr⟩
      · obtain ⟨a, ha1, ha2⟩ := h5 _ pg hp
        rw [Nat.sub_add_cancel hn] at ha1
        exact ⟨a, ha1, fun q hq => hcont q (ha2 q hq)⟩
      · obtain ⟨hso, hcan⟩ := h.file n pg q hn hp hr
        obtain ⟨a, ha1, ha2⟩ := page_rewrite_contained hr hcan
        obtain ⟨a', hw, hin, -, -⟩ := page_roundtrip hso (n * d.content.header.pageSize.toNat)
        rw [ha1] at hw
        simp only [Res.ok.injEq, Prod.mk.injEq, true_and] at hw
        subst hw
        refine ⟨a, ha1, fun q hq i hi => ?_⟩
        have hold := ha2 q hq i hi
        have hin := hin q hq
        obtain ⟨S, hS⟩ : ∃ S, S = d.content.header.pageSize.toNat := ⟨_, rfl⟩
        rw [← hS] at hin
        have hlen : q.off + i < d.io.length := by
          rcases Nat.lt_or_ge (q.off + i) d.io.length with h | h
          · exact h
          · rw [List.getElem?_eq_none h] at hold
            have := List.getElem?_eq_none_iff.1 hold.symm
            omega
        rw [applyPatches_of_not_covers hlen, hold]
        intro r hr' hc
        obtain ⟨c1, c2⟩ := hc
        have hn1 : 1 * S ≤ n * S := Nat.mul_le_mul_right S hn
        rcases h3 r hr' with h | ⟨m, hm, h6, h7⟩
        · rw [← hS] at h
          omega
        · rw [← hS] at h6 h7
          rcases Nat.lt_trichotomy m n with hlt | rfl | hgt
          · have : (m + 1) * S ≤ n * S := Nat.mul_le_mul_right S hlt
            omega
          · obtain ⟨-, pg0, hpg⟩ := hm
            rw [hp] at hpg
            cases hpg
          · have : (n + 1) * S ≤ m * S := Nat.mul_le_mul_right S hgt
            rw [Nat.add_mul] at this
            omega
    obtain ⟨a, ha1, ha2⟩ := key
    obtain ⟨a', hw, -, -, hr⟩ := page_roundtrip (h.sound hn hv) (n * d.content.header.pageSize.toNat)
    rw [ha1] at hw
    simp only [Res.ok.injEq, Prod.mk.injEq, true_and] at hw
    subst hw
    obtain ⟨pg', q, hr1, hr2⟩ := hr _ ha2
    refine ⟨pg', ?_, hr2, _, a, ha1, ha2⟩
    unfold Database.view reopened
    simp only
    rw [List.getElem?_replicate, if_pos (by omega)]
    simp only
    rw [hr1]

theorem Intact.reopen {d : Database} (h : d.Intact) :
    ∃ d' d2, d.flush = .ok d' ∧ d'.content = d.content ∧ Database.openAt d'.io 0 d.dbType = .ok d2 ∧
      d2 = d.reopened d'.io ∧
      ∀ n pg, 1 ≤ n → d.view n = .ok pg → ∃ pg', d2.view n = .ok pg' ∧ pg.ReadBack pg' := by
  obtain ⟨d', d2, h1, h2, h3, h4, h5⟩ := h.reopen_written
  refine ⟨d', d2, h1, h2, h3, h4, fun n pg hn hv => ?_⟩
  obtain ⟨pg', g1, g2, -⟩ := h5 n pg hn hv
  exact ⟨pg', g1, g2⟩

/-- The pages of a chain are still a chain if each of them has a counterpart with the same link. -/
theorem Chain.transport_link {d d' : Database} {R : Nat → Page → Page → Prop}
    (hR : ∀ n pg pg', R n pg pg' → pg'.header.nextPage = pg.header.nextPage)
    {last n : Nat} {l : List (Nat × Page)} (hc : d.Chain last n l)
    (h : ∀ x ∈ l, ∃ pg', d'.view x.1 = .ok pg' ∧ R x.1 x.2 pg') :
    ∃ l', d'.Chain last n l' ∧ Pointwise (fun x y => y.1 = x.1 ∧ R x.1 x.2 y.2) l l' := by
  induction hc with
  | @last pg hn hv =>
    obtain ⟨pg', h1, h2⟩ := h _ (List.mem_singleton.2 rfl)
    exact ⟨[(last, pg')], .last hn h1, .cons ⟨rfl, h2⟩ .nil⟩
  | @link n pg l hn hv hne hlt _ ih =>
    obtain ⟨pg', h1, h2⟩ := h _ (List.mem_cons_self ..)
    obtain ⟨l', h3, h4⟩ := ih fun x hx => h x (List.mem_cons_of_mem _ hx)
    have hh := hR _ _ _ h2
    exact ⟨(n, pg') :: l', .link hn h1 hne (by rw [hh]; exact hlt) (by rw [hh]; exact h3), .cons ⟨rfl, h2⟩ h4⟩

/-- The pages of a chain are still a chain if each of them has a counterpart with the same header. -/
theorem Chain.transport {d d' : Database} {R : Page → Page → Prop} (hR : ∀ pg pg', R pg pg' → pg'.header = pg.header)
    {last n : Nat} {l : List (Nat × Page)} (hc : d.Chain last n l)
    (h : ∀ x ∈ l, ∃ pg', d'.view x.1 = .ok pg' ∧ R x.2 pg') :
    ∃ l', d'.Chain last n l' ∧ Pointwise (fun x y => y.1 = x.1 ∧ R x.2 y.2) l l' :=
  hc.transport_link (R := fun _ => R) (fun _ pg pg' h => by rw [hR pg pg' h]) h

theorem Chain.view {d : Database} {last n : Nat} {l : List (Nat × Page)} (hc : d.Chain last n l) :
    ∀ x ∈ l, n ≤ x.1 ∧ 1 ≤ x.1 ∧ d.view x.1 = .ok x.2 := by
  induction hc with
  | last hn h =>
    intro x hx
    rw [List.mem_singleton] at hx
    subst hx
    exact ⟨Nat.le_refl _, hn, h⟩
  | link hn h _ hlt _ ih =>
    intro x hx
    rcases List.mem_cons.1 hx with rfl | hx
    · exact ⟨Nat.le_refl _, hn, h⟩
    · obtain ⟨h1, h2, h3⟩ := ih x hx
      exact ⟨by omega, h2, h3⟩

end Database

/-- The rows of related pages are related. -/
theorem rowsOf_pointwise {R : Nat → UInt16 × Row → UInt16 × Row → Prop} {P : Nat → Page → Page → Prop}
    (hP : ∀ n pg pg', P n pg pg' → match pg.content with
      | .data c => ∃ c', pg'.content = .data c' ∧ Pointwise (R n) c.rows c'.rows
      | .index _ => ∃ c', pg'.content = .index c')
    {l l' : List (Nat × Page)} (h : Pointwise (fun x y => y.1 = x.1 ∧ P x.1 x.2 y.2) l l') :
    Pointwise (fun x y => y.1 = x.1 ∧ R x.1 x.2 y.2) (rowsOf l) (rowsOf l') := by
  induction h with
  | nil => exact .nil
  | @cons x y l l' hxy _ ih =>
    unfold rowsOf at ih ⊢
    rw [List.flatMap_cons, List.flatMap_cons]
    refine Pointwise.append ?_ ih
    obtain ⟨h1, h2⟩ := hxy
    have h3 := hP _ _ _ h2
    cases hc : x.2.content with
    | data c =>
      rw [hc] at h3
      obtain ⟨c', hc', h3⟩ := h3
      rw [hc']
      exact h3.map_map _ _ fun a b hab => ⟨h1, hab⟩
    | index c =>
      rw [hc] at h3
      obtain ⟨c', hc'⟩ := h3
      rw [hc']
      exact .nil

/-! ## Editing rows -/

/-- Another page at a place of the vector. -/
def PageIterator.withPage (it : PageIterator) (slot : Nat) (pg : Page) : PageIterator :=
  { it with pages := it.pages.set slot (.loaded pg) }

namespace RowIterator

variable {α : Type} [RowVariant α] [RowAssign α] {f : Nat → UInt16 → α → α}

theorem Edits.of_next {it it0 it' : RowIterator} (h : it.next α = it0.next α) (hr : Edits α f it0 it') :
    Edits α f it it' := by
  cases hr with
  | done h1 => exact .done (h.trans h1)
  | step h1 t => exact .step (h.trans h1) t

/-- The rows of one page. -/
theorem edits_rest (hm : RowAssign.Lawful α) {it : PageIterator} {slot : Nat} {pg : Page} {c : DataPageContent}
    {done rest : RowMap}
    (hp : it.pages[slot]? = some (.loaded { pg with content := .data { c with rows := done ++ rest } }))
    (hnd : ((done ++ rest).map Prod.fst).Nodup)
    (hs : ∀ x ∈ rest, (RowVariant.fromRow (α := α) x.2).isSome = true) :
    ∃ rest', Pointwise (RowEdited f (slot + 1)) rest rest' ∧
      ∀ it', Edits α f ⟨it.withPage slot { pg with content := .data { c with rows := done ++ rest' } }, slot, []⟩ it' →
        Edits α f ⟨it, slot, rest⟩ it' := by
  induction rest generalizing it done with
  | nil =>
    refine ⟨[], .nil, fun it' h => ?_⟩
    obtain ⟨hl, he⟩ := List.getElem?_eq_some_iff.1 hp
    unfold PageIterator.withPage at h
    rw [← he, List.set_getElem_self] at h
    exact h
  | cons x rest ih =>
    obtain ⟨k, r⟩ := x
    obtain ⟨a, ha⟩ := Option.isSome_iff_exists.1 (hs (k, r) (List.mem_cons_self ..))
    obtain ⟨r', hr1, hr2⟩ := hm r a (f (slot + 1) k a) ha
    have hlt := (List.getElem?_eq_some_iff.1 hp).1
    rw [List.map_append, List.map_cons] at hnd
    have hd1 : ∀ y ∈ done, y.1 ≠ k := fun y hy he => by
      have := (List.nodup_append.1 hnd).2.2 y.1 (List.mem_map_of_mem hy) k (List.mem_cons_self ..)
      exact this he
    have hd2 : ∀ y ∈ rest, y.1 ≠ k := fun y hy he => by
      have := (List.nodup_cons.1 (List.nodup_append.1 hnd).2.1).1
      exact this (List.mem_map.2 ⟨y, hy, he⟩)
    have hmap : (done ++ (k, r) :: rest).map (fun x => if x.1 = k then
        (x.1, (RowAssign.assign x.2 (f (slot + 1) k a)).getD x.2) else x) = done ++ (k, r') :: rest := by
      rw [List.map_append, List.map_cons]
      congr 1
      · conv => rhs; rw [← List.map_id done]
        exact List.map_congr_left fun y hy => by rw [if_neg (hd1 y hy)]; rfl
      · congr 1
        · simp only [if_true, hr1, Option.getD_some]
        · conv => rhs; rw [← List.map_id rest]
          exact List.map_congr_left fun y hy => by rw [if_neg (hd2 y hy)]; rfl
    have hass : ((it.pages.getD slot .notLoaded).assignRow k (f (slot + 1) k a)) =
        .loaded { pg with content := .data { c with rows := (done ++ [(k, r')]) ++ rest } } := by
      rw [List.getD_eq_getElem?_getD, hp]
      simp only [Option.getD_some, LazyPage.assignRow]
      rw [hmap]
      simp
    obtain ⟨rest', h1, h2⟩ := ih (it := it.withPage slot
        { pg with content := .data { c with rows := (done ++ [(k, r')]) ++ rest } })
      (done := done ++ [(k, r')]) (by unfold PageIterator.withPage; simp only; rw [List.getElem?_set_self hlt])
      (by simpa using hnd) fun y hy => hs y (List.mem_cons_of_mem _ hy)
    refine ⟨(k, r') :: rest', .cons ⟨rfl, a, ha, hr2⟩ h1, fun it' h => ?_⟩
    refine .step (next_cons_some (it := ⟨it, slot, (k, r) :: rest⟩) rfl ha) ?_
    unfold RowIterator.assign
    simp only
    rw [hass]
    refine h2 it' ?_
    unfold PageIterator.withPage at h ⊢
    simp only [List.set_set]
    simpa using h

end RowIterator

theorem RowMap.Sorted.nodup {m : RowMap} (h : m.Sorted) : (m.map Prod.fst).Nodup := by
  unfold RowMap.Sorted at h
  rw [List.Nodup, List.pairwise_map]
  exact h.imp fun hab he => by
    rw [he] at hab
    exact absurd hab (by rw [UInt16.lt_iff_toNat_lt]; omega)

/-- Editing while following a chain. -/
theorem RowIterator.edits_chain {α : Type} [RowVariant α] [RowAssign α] {f : Nat → UInt16 → α → α}
    (hm : RowAssign.Lawful α) {d0 : Database} {last n : Nat} {l : List (Nat × Page)} (hc : d0.Chain last n l)
    (hs : ∀ x ∈ l, ∀ c, x.2.content = .data c → c.rows.Sorted ∧
      ∀ y ∈ c.rows, (RowVariant.fromRow (α := α) y.2).isSome = true)
    {d : Database} {it : PageIterator} (hd : ∀ m, n ≤ m → d.view m = d0.view m) (hit : it.At d last n) (s : Nat) :
    ∃ it' : RowIterator, RowIterator.Edits α f ⟨it, s, []⟩ it' ∧
      it'.pages.pages.length = it.pages.length ∧
      (∀ x ∈ l, ∃ pg', it'.pages.pages[x.1 - 1]? = some (.loaded pg') ∧ PageEdited f x.1 x.2 pg') ∧
      ∀ m, 1 ≤ m → (∀ x ∈ l, x.1 ≠ m) → it'.pages.pages[m - 1]? = it.pages[m - 1]? := by
  -- one page
  have page : ∀ {n : Nat} {pg : Page} {d : Database} {it : PageIterator} (s : Nat), 1 ≤ n → it.At d last n →
      d.view n = .ok pg →
      (∀ c, pg.content = .data c → c.rows.Sorted ∧
        ∀ y ∈ c.rows, (RowVariant.fromRow (α := α) y.2).isSome = true) →
      ∃ it1 pg', PageEdited f n pg pg' ∧ it1.pages = it.pages.set (n - 1) (.loaded pg') ∧
        (n = last → it1.nextPage = none) ∧
        (n ≠ last → n < pg.header.nextPage.val.toNat →
          it1.At (d.after it1) last pg.header.nextPage.val.toNat) ∧
        ∀ it', RowIterator.Edits α f ⟨it1, n - 1, []⟩ it' → RowIterator.Edits α f ⟨it, s, []⟩ it' := by
    intro n pg d it s hn hit hv hs
    obtain ⟨it1, h1, h2, h3, h4, h5⟩ := hit.yields hv
    have h3 : it1.pages = it.pages.set (n - 1) (.loaded pg) := by rw [h3, hit.pages]; rfl
    have hfirst : ∀ it', RowIterator.Edits α f ⟨it1, n - 1, (LazyPage.loaded pg).rows⟩ it' →
        RowIterator.Edits α f ⟨it, s, []⟩ it' := fun it' h => by
      refine h.of_next ?_
      rw [RowIterator.next_nil rfl, h1]
      simp only
      rw [List.getD_eq_getElem?_getD, h2]
      rfl
    cases hcont : pg.content with
    | index c =>
      refine ⟨it1, pg, ⟨rfl, by rw [hcont]⟩, h3, h4, fun hne hlt => (h5 hne).resolve_right fun h => h hlt,
        fun it' h => hfirst it' ?_⟩
      simpa [LazyPage.rows, PageContent.asData, hcont] using h
    | data c =>
      obtain ⟨hsort, htyped⟩ := hs c hcont
      have hpg : ({ pg with content := .data { c with rows := [] ++ c.rows } } : Page) = pg := by
        cases pg; cases c; simp only at hcont; rw [hcont]; rfl
      obtain ⟨rows, g1, g2⟩ := RowIterator.edits_rest (f := f) hm (it := it1) (slot := n - 1) (pg := pg) (c := c)
        (done := []) (rest := c.rows) (by rw [hpg]; exact h2) hsort.nodup htyped
      rw [show n - 1 + 1 = n by omega] at g1
      simp only [List.nil_append] at g2
      refine ⟨it1.withPage (n - 1) { pg with content := .data { c with rows } },
        { pg with content := .data { c with rows } }, ⟨rfl, ?_⟩, ?_, h4, ?_, fun it' h => hfirst it' ?_⟩
      · rw [hcont]
        exact ⟨rows, rfl, g1⟩
      · unfold PageIterator.withPage
        simp only
        rw [h3, List.set_set]
      · intro hne hlt
        have hat := (h5 hne).resolve_right fun h => h hlt
        exact ⟨rfl, hat.io, hat.size, hat.db, by
          have := hat.slice
          unfold PageIterator.withPage
          simp only [List.length_set]
          exact this, hat.off, hat.le, hat.last, hat.next⟩
      · have : (LazyPage.loaded pg).rows = c.rows := by simp [LazyPage.rows, PageContent.asData, hcont]
        rw [this]
        exact g2 it' h
  induction hc generalizing d it s with
  | @last pg hn hv =>
    have hv := (hd _ (Nat.le_refl _)).trans hv
    obtain ⟨it1, pg', h1, h2, h3, -, h5⟩ := page s hn hit hv (hs _ (List.mem_singleton.2 rfl))
    have hlt := Database.view_lt hv
    rw [← hit.pages] at hlt
    refine ⟨⟨it1, last - 1, []⟩, h5 _ (.done ?_), by rw [h2, List.length_set], ?_, ?_⟩
    · rw [RowIterator.next_nil rfl, PageIterator.next_of_none (h3 rfl)]
    · intro x hx
      rw [List.mem_singleton] at hx
      subst hx
      exact ⟨pg', by rw [h2, List.getElem?_set_self hlt], h1⟩
    · intro m hm' hx
      have := hx _ (List.mem_singleton.2 rfl)
      simp only at this
      rw [h2, List.getElem?_set_ne (by omega)]
  | @link n pg l hn hv hne hlt t ih =>
    have hv := (hd _ (Nat.le_refl _)).trans hv
    obtain ⟨it1, pg', h1, h2, -, h4, h5⟩ := page s hn hit hv (hs _ (List.mem_cons_self ..))
    have hlt' := Database.view_lt hv
    rw [← hit.pages] at hlt'
    obtain ⟨it', g1, g2, g3, g4⟩ := ih (fun x hx => hs x (List.mem_cons_of_mem _ hx)) (d := d.after it1)
      (it := it1) (fun m hm' => by
        rw [← hd m (by omega)]
        refine Database.view_congr ?_ rfl rfl rfl
        show it1.pages[m - 1]? = _
        rw [h2, hit.pages, List.getElem?_set_ne (by omega)]) (h4 hne hlt) (n - 1)
    have hgt : ∀ x ∈ l, x.1 ≠ n := fun x hx => by
      have := (t.view x hx).1
      omega
    refine ⟨it', h5 _ g1, by rw [g2, h2, List.length_set], ?_, ?_⟩
    · intro x hx
      rcases List.mem_cons.1 hx with rfl | hx
      · exact ⟨pg', by rw [g4 n hn hgt, h2, List.getElem?_set_self hlt'], h1⟩
      · exact g3 x hx
    · intro m hm' hx
      have := hx _ (List.mem_cons_self ..)
      simp only at this
      rw [g4 m hm' fun x h => hx x (List.mem_cons_of_mem _ h), h2, List.getElem?_set_ne (by omega)]

end Rekordcrate
