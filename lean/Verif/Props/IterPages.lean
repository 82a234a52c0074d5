import Verif.Props.HeaderEdit

/-! # C29: the pages of a table, by page type and by index -/

namespace Rekordcrate

theorem findTable_of_first {h : Header} {pt : PageType} {k : Nat} {t : Table} (ht : h.tables[k]? = some t)
    (hp : t.pageType = pt) (hf : ∀ j t', j < k → h.tables[j]? = some t' → t'.pageType ≠ pt) :
    h.findTable pt = some (k, t) := by
  obtain ⟨h1, h2⟩ := find_table_first h pt
  cases hr : h.findTable pt with
  | none => exact absurd hp (h1.1 hr t (List.mem_of_getElem? ht))
  | some x =>
    obtain ⟨k', t'⟩ := x
    obtain ⟨g1, g2, g3⟩ := h2 k' t' hr
    rcases Nat.lt_trichotomy k k' with hlt | rfl | hgt
    · exact absurd hp (g3 k hlt t ht)
    · rw [ht] at g1
      injection g1 with g1
      rw [g1]
    · exact absurd g2 (hf k' t' hgt g1)

/-- C29: `iter_pages` goes through the pages of the first table of the page type, whatever other tables there are:
if the chain from the first page of this table to the last is increasing and readable, it gives exactly the pages
of the chain and then ends, and every page of the database looks the same as before. -/
theorem iter_pages_chain {d : Database} {pt : PageType} {k : Nat} {t : Table} {l : List (Nat × Page)}
    (ht : d.content.header.tables[k]? = some t) (hp : t.pageType = pt)
    (hf : ∀ j t', j < k → d.content.header.tables[j]? = some t' → t'.pageType ≠ pt)
    (hc : d.Chain t.lastPage.val.toNat t.firstPage.val.toNat l) :
    ∃ it it', d.iterPages pt = .ok it ∧ it.Runs l it' ∧ ∀ n, 1 ≤ n → (d.after it').view n = d.view n := by
  obtain ⟨it', h1, -, h3⟩ := page_iteration_follows_chain hc
  refine ⟨_, it', ?_, h1, h3⟩
  unfold Database.iterPages
  rw [findTable_of_first ht hp hf]

/-- C29: `iter_pages` fails exactly if there is no table of the page type, with this error, and never panics. -/
theorem iter_pages_error_iff (d : Database) (pt : PageType) :
    ((∀ t ∈ d.content.header.tables, t.pageType ≠ pt) ↔ d.iterPages pt = .err .tableTypeNotPresent) ∧
    ((∃ t ∈ d.content.header.tables, t.pageType = pt) ↔ ∃ it, d.iterPages pt = .ok it) := by
  obtain ⟨h1, h2⟩ := find_table_first d.content.header pt
  unfold Database.iterPages
  cases hr : d.content.header.findTable pt with
  | none =>
    have := h1.1 hr
    refine ⟨⟨fun _ => rfl, fun _ => this⟩, ⟨fun ⟨t, ht, he⟩ => absurd he (this t ht), ?_⟩⟩
    rintro ⟨it, h⟩
    cases h
  | some x =>
    obtain ⟨k', t'⟩ := x
    obtain ⟨g1, g2, -⟩ := h2 k' t' hr
    refine ⟨⟨fun h => absurd g2 (h t' (List.mem_of_getElem? g1)), fun h => by cases h⟩,
      ⟨fun _ => ⟨_, rfl⟩, fun _ => ⟨t', List.mem_of_getElem? g1, g2⟩⟩⟩

/-- C29: `iter_pages_for_table` goes through the pages of the table with this index in the same way. -/
theorem iter_pages_for_table_chain {d : Database} {k : Nat} {t : Table} {l : List (Nat × Page)}
    (ht : d.content.header.tables[k]? = some t)
    (hc : d.Chain t.lastPage.val.toNat t.firstPage.val.toNat l) :
    ∃ it it', d.iterPagesForTable k = .ok it ∧ it.Runs l it' ∧ ∀ n, 1 ≤ n → (d.after it').view n = d.view n := by
  obtain ⟨it', h1, -, h3⟩ := page_iteration_follows_chain hc
  refine ⟨_, it', ?_, h1, h3⟩
  unfold Database.iterPagesForTable
  rw [ht]

/-- C29: `iter_pages_for_table` fails exactly if the index is not that of a table, and says so. -/
theorem iter_pages_for_table_error_iff (d : Database) (k : Nat) :
    (d.content.header.tables.length ≤ k ↔ d.iterPagesForTable k = .err (.tableNotPresent k)) ∧
    (k < d.content.header.tables.length ↔ ∃ it, d.iterPagesForTable k = .ok it) := by
  unfold Database.iterPagesForTable
  cases hr : d.content.header.tables[k]? with
  | none =>
    have := List.getElem?_eq_none_iff.1 hr
    exact ⟨⟨fun _ => rfl, fun _ => this⟩, ⟨fun h => by omega, fun ⟨_, h⟩ => by cases h⟩⟩
  | some t =>
    obtain ⟨this, -⟩ := List.getElem?_eq_some_iff.1 hr
    exact ⟨⟨fun h => by omega, fun h => by cases h⟩, ⟨fun _ => ⟨_, rfl⟩, fun _ => this⟩⟩

/-! ## Cases -/

/-- C29: the second table of the small database, by its type and by its index. -/
example : ∃ it it', smallDb.iterPages (.plain .playlistTree) = .ok it ∧ it.Runs [(2, nodesPage)] it' ∧
    ∀ n, 1 ≤ n → (smallDb.after it').view n = smallDb.view n := by
  refine iter_pages_chain (k := 1) (t := ⟨.plain .playlistTree, 0, ⟨2⟩, ⟨2⟩⟩) rfl rfl ?_
    (.last (by decide) (view_of_read (size := 288) rfl rfl smallFile_read2))
  intro j t' hj ht
  have : j = 0 := by omega
  subst this
  change some (⟨.plain .tracks, 0, ⟨1⟩, ⟨1⟩⟩ : Table) = some t' at ht
  injection ht with ht
  rw [← ht]
  decide

example : ∃ it it', smallDb.iterPagesForTable 1 = .ok it ∧ it.Runs [(2, nodesPage)] it' ∧
    ∀ n, 1 ≤ n → (smallDb.after it').view n = smallDb.view n :=
  iter_pages_for_table_chain (t := ⟨.plain .playlistTree, 0, ⟨2⟩, ⟨2⟩⟩) rfl
    (.last (by decide) (view_of_read (size := 288) rfl rfl smallFile_read2))

example : smallDb.iterPages (.plain .keys) = .err .tableTypeNotPresent :=
  (iter_pages_error_iff _ _).1.1 (by decide)

example : smallDb.iterPagesForTable 2 = .err (.tableNotPresent 2) :=
  (iter_pages_for_table_error_iff _ _).1.1 (by decide)

end Rekordcrate
