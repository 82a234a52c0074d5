import Verif.Lemmas.Listing
import Verif.Props.CliFile

/-! # C68: the command `list-playlists` -/

namespace Rekordcrate

/-- No node that is linked to the root is below itself. -/
def LoopFree (rows : List PlaylistTreeNode) : Prop := ∀ id, Linked rows id → ¬ Under rows id id

/-- Everything that is to be listed can be displayed: the names of all nodes that are linked to the root, and
titles and artists of their entries. -/
def AllShowable (lossy : Bytes → String) (nodes : List PlaylistTreeNode) (artists : List Artist) (tracks : List Track)
    (entries : List PlaylistEntry) : Prop :=
  ∀ r ∈ nodes, Linked nodes r.parentId → Displayable lossy r.name ∧
    ∀ i t, trackAt entries r.id i = some t → ∃ s, TrackText lossy artists tracks t s

section
variable {lossy : Bytes → String} {d : Database} {nodes : List PlaylistTreeNode} {artists : List Artist}
  {tracks : List Track} {entries : List PlaylistEntry}

theorem listPlaylistsOf_eq (hd : listData d = .ok (nodes, artists, tracks, entries)) (n : Nat) :
    listPlaylistsOf lossy n d = printChildren lossy (ChildMap.build nodes) (EntryMap.build entries)
      (rowWith Artist.id artists) (rowWith Track.id tracks) n 0 0 := by
  unfold listPlaylistsOf
  rw [hd]
  simp only [idMap_eq]

/-- C68: what was printed when the command comes to an end: exactly the nodes that are linked to the root, every
node below its parent, one level deeper and in the order of the table, with a line for every entry in the
order of the indices.  This holds for any table. -/
theorem listing_text (hd : listData d = .ok (nodes, artists, tracks, entries)) {text : List Char}
    (h : ListingReturns lossy d (text, .ok ())) :
    ∃ hs paras, Outline nodes 0 (nodes.filter fun r => r.parentId = 0) hs ∧
      (∀ r, (∃ k, (k, r) ∈ hs) ↔ r ∈ nodes ∧ Linked nodes r.parentId) ∧
      Pointwise (NodeText lossy artists tracks entries) hs paras ∧ text = linesText paras.flatten := by
  obtain ⟨n, h⟩ := h
  rw [listPlaylistsOf_eq hd] at h
  obtain ⟨hs, paras, h1, h2, h3⟩ := printChildren_ok h
  exact ⟨hs, paras, h1, fun r => h1.mem_of_parent r, h2, h3⟩

/-- C68: with unique ids other than 0, and if everything can be displayed, the command comes to an end, and every
node that is linked to the root is printed exactly once. -/
theorem listing_complete_partial (hd : listData d = .ok (nodes, artists, tracks, entries)) (hp : ProperIds nodes)
    (hs : AllShowable lossy nodes artists tracks entries) :
    ∃ hs paras, ListingReturns lossy d (linesText paras.flatten, .ok ()) ∧
      Outline nodes 0 (nodes.filter fun r => r.parentId = 0) hs ∧ (hs.map fun x => x.2.id).Nodup ∧
      (∀ r, (∃ k, (k, r) ∈ hs) ↔ r ∈ nodes ∧ Linked nodes r.parentId) ∧
      Pointwise (NodeText lossy artists tracks entries) hs paras := by
  have hc : LoopFree nodes := fun id h h' =>
    hp.asFolders.cycleFree id (linked_iff.1 h) (under_iff.1 h')
  obtain ⟨n, hn⟩ : ∃ n, belowCount (asFolders nodes) 0 < n := ⟨_, Nat.lt_succ_self _⟩
  have h1 := printChildren_some (lossy := lossy) (m := EntryMap.build entries) (am := rowWith Artist.id artists)
    (tm := rowWith Track.id tracks) hc (level := 0) (.inl rfl) hn
  obtain ⟨x, hx⟩ := Option.isSome_iff_exists.1 h1
  have hok : x = .ok () := by
    apply Classical.byContradiction
    intro hne
    obtain ⟨-, r, g1, g2, g3⟩ := printChildren_fail (.inl rfl) hx hne
    exact g3 (hs r g1 g2)
  subst hok
  rw [← listPlaylistsOf_eq hd] at hx
  have hret : ListingReturns lossy d ((listPlaylistsOf lossy n d).text, .ok ()) := ⟨n, by rw [← hx]⟩
  obtain ⟨os, paras, a1, a2, a3, a4⟩ := listing_text hd hret
  rw [a4] at hret
  refine ⟨os, paras, hret, a1, a1.nodup hp (p := 0) (.inl rfl) ?_ ?_, a2, a3⟩
  · intro r hr
    rw [List.mem_filter] at hr
    exact ⟨hr.1, by simpa using hr.2⟩
  · exact hp.unique.sublist (List.Sublist.map _ List.filter_sublist)

/-- C68: the command comes to an end if no node linked to the root is below itself. -/
theorem listing_returns (hd : listData d = .ok (nodes, artists, tracks, entries)) (hc : LoopFree nodes) :
    ∃ p, ListingReturns lossy d p := by
  have h1 := printChildren_some (lossy := lossy) (m := EntryMap.build entries) (am := rowWith Artist.id artists)
    (tm := rowWith Track.id tracks) hc (level := 0) (.inl rfl) (Nat.lt_succ_self _)
  rw [← listPlaylistsOf_eq hd] at h1
  obtain ⟨x, hx⟩ := Option.isSome_iff_exists.1 h1
  exact ⟨(_, x), _, by rw [← hx]⟩

/-- C68: if it comes to an end, then successfully exactly if everything can be displayed; otherwise it panics. -/
theorem listing_outcome (hd : listData d = .ok (nodes, artists, tracks, entries)) {text : List Char} {x : Res Unit}
    (h : ListingReturns lossy d (text, x)) :
    (x = .ok () ↔ AllShowable lossy nodes artists tracks entries) ∧ (x = .ok () ∨ x = .panic) := by
  have hfail : x ≠ .ok () → x = .panic ∧ ¬ AllShowable lossy nodes artists tracks entries := by
    intro hne
    obtain ⟨n, h⟩ := h
    rw [listPlaylistsOf_eq hd] at h
    obtain ⟨h1, r, g1, g2, g3⟩ := printChildren_fail (x := x) (.inl rfl) (by rw [h]) hne
    exact ⟨h1, fun hs => g3 (hs r g1 g2)⟩
  refine ⟨⟨?_, fun hs => Classical.byContradiction fun hne => (hfail hne).2 hs⟩, ?_⟩
  · rintro rfl
    obtain ⟨hs, paras, -, h2, h3, -⟩ := listing_text hd h
    intro r hr hl
    obtain ⟨k, hk⟩ := (h2 r).2 ⟨hr, hl⟩
    obtain ⟨lines, -, name, l, texts, h4, h5, h6, -⟩ := h3.mem_left hk
    refine ⟨⟨name, h4⟩, fun i t ht => ?_⟩
    obtain ⟨_, -, s, h7, -⟩ := h6.mem_left ((h5.2 i t).2 ht)
    exact ⟨s, h7⟩
  · by_cases hx : x = .ok ()
    · exact .inl hx
    · exact .inr (hfail hx).1

/-- C68: if everything can be displayed, the command comes to an end exactly if no node linked to the root is
below itself. -/
theorem listing_returns_iff (hd : listData d = .ok (nodes, artists, tracks, entries))
    (hs : AllShowable lossy nodes artists tracks entries) : (∃ p, ListingReturns lossy d p) ↔ LoopFree nodes := by
  refine ⟨?_, listing_returns hd⟩
  rintro ⟨⟨text, x⟩, h⟩ id hl hu
  have hx := (listing_outcome hd h).1.2 hs
  subst hx
  obtain ⟨os, -, h1, -⟩ := listing_text hd h
  rcases hl with rfl | hl
  · exact h1.no_cycle hu
  · obtain ⟨d', os', h2, -⟩ := h1.shorter_under hl
    exact h2.no_cycle hu

/-- C68: if a table cannot be read, nothing is printed and the failure is reported. -/
theorem listing_fails_early (h : ∀ x, listData d ≠ .ok x) (n : Nat) :
    (listPlaylistsOf lossy n d).text = [] ∧
    ((∃ e, listData d = .err e ∧ (listPlaylistsOf lossy n d).outcome = some (.err e)) ∨
      (listData d = .panic ∧ (listPlaylistsOf lossy n d).outcome = some .panic)) := by
  unfold listPlaylistsOf
  cases hd : listData d with
  | ok x => exact absurd hd (h x)
  | err e => exact ⟨rfl, .inl ⟨e, rfl, rfl⟩⟩
  | panic => exact ⟨rfl, .inr ⟨rfl, rfl⟩⟩

end

end Rekordcrate
