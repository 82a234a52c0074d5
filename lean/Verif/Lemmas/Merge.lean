import Verif.Props.PageAt

/-! # Rows and pages that are stored in two files are stored in a third -/

namespace Rekordcrate
open Rd

/-- What is stored in two files from `lo` on is stored in a third. -/
structure Merge (S₁ S₂ S₃ : StringRel) (d₁ d₂ d₃ : Bytes) (lo : Nat) : Prop where
  bytes : ∀ i b, lo ≤ i → d₁[i]? = some b → d₃[i]? = some b
  ends : ∀ x v e₁ e₂, S₁ d₁ x v e₁ → S₂ d₂ x v e₂ → e₂ = e₁ ∧ x ≤ e₁
  text : ∀ x v e, lo ≤ x → S₁ d₁ x v e → S₂ d₂ x v e → S₃ d₃ x v e

namespace Merge
variable {S₁ S₂ S₃ : StringRel} {d₁ d₂ d₃ : Bytes} {lo : Nat}

theorem byte (m : Merge S₁ S₂ S₃ d₁ d₂ d₃ lo) {x : Nat} {b : UInt8} (hx : lo ≤ x) (h : ByteAt d₁ x b) : ByteAt d₃ x b :=
  m.bytes _ _ hx h

theorem u16 (m : Merge S₁ S₂ S₃ d₁ d₂ d₃ lo) {x n : Nat} (hx : lo ≤ x) : U16At d₁ x n → U16At d₃ x n :=
  fun ⟨a, b, h1, h2, h3⟩ => ⟨a, b, m.bytes _ _ hx h1, m.bytes _ _ (by omega) h2, h3⟩

theorem u32 (m : Merge S₁ S₂ S₃ d₁ d₂ d₃ lo) {x n : Nat} (hx : lo ≤ x) : U32At d₁ x n → U32At d₃ x n :=
  fun ⟨a, b, c, d, h1, h2, h3, h4, h5⟩ => ⟨a, b, c, d, m.bytes _ _ hx h1, m.bytes _ _ (by omega) h2,
    m.bytes _ _ (by omega) h3, m.bytes _ _ (by omega) h4, h5⟩

theorem u24 (m : Merge S₁ S₂ S₃ d₁ d₂ d₃ lo) {x n : Nat} (hx : lo ≤ x) : U24At d₁ x n → U24At d₃ x n :=
  fun ⟨a, b, c, h1, h2, h3, h4⟩ => ⟨a, b, c, m.bytes _ _ hx h1, m.bytes _ _ (by omega) h2,
    m.bytes _ _ (by omega) h3, h4⟩

theorem offset (m : Merge S₁ S₂ S₃ d₁ d₂ d₃ lo) {x : Nat} {w : OffsetSize} {o : Nat} (hx : lo ≤ x)
    (h : OffsetAt d₁ x w o) : OffsetAt d₃ x w o := by
  cases w with
  | u8 => obtain ⟨b, h1, h2⟩ := h; exact ⟨b, m.byte hx h1, h2⟩
  | u16 => exact m.u16 hx h

theorem str (m : Merge S₁ S₂ S₃ d₁ d₂ d₃ lo) {x : Nat} {v : DString} {e₁ e₂ : Nat} (hx : lo ≤ x) (h : S₁ d₁ x v e₁)
    (h' : S₂ d₂ x v e₂) : S₃ d₃ x v e₁ := by
  obtain ⟨rfl, -⟩ := m.ends _ _ _ _ h h'
  exact m.text _ _ _ hx h h'

theorem offsets_eq {S : StringRel} {d : Bytes} {p at_ : Nat} {w : OffsetSize} {vs : List DString} {os : List Nat}
    (hl : os.length = vs.length)
    (h : ∀ (i o : Nat) (v : DString), os[i]? = some o → vs[i]? = some v →
      OffsetAt d (p + at_ + (i + 1) * w.bytes) w o ∧ ∃ e, S d (p + o) v e) : (OffsetArray.ofNats os w).seeks = os := by
  refine OffsetArray.ofNats_seeks fun o ho => ?_
  obtain ⟨i, hi⟩ := List.getElem?_of_mem ho
  have hlt : i < os.length := (List.getElem?_eq_some_iff.1 hi).1
  exact (h i o _ hi (List.getElem?_eq_getElem (hl ▸ hlt))).1.lt

theorem array (m : Merge S₁ S₂ S₃ d₁ d₂ d₃ lo) {p at_ : Nat} {w : OffsetSize} {vs : List DString}
    {a : Option OffsetArray} (hp : lo ≤ p) (h : ArrayAt S₁ d₁ p at_ w vs a) (h' : ArrayAt S₂ d₂ p at_ w vs a) :
    ArrayAt S₃ d₃ p at_ w vs a := by
  obtain ⟨h1, os, h2, h3, h4⟩ := h
  obtain ⟨-, os', g2, g3, g4⟩ := h'
  have : os' = os := by
    rw [← offsets_eq h2 h4, ← offsets_eq g2 g4]
    rw [h3] at g3
    injection g3 with g3
    rw [g3]
  subst this
  refine ⟨m.offset (by omega) h1, os', h2, h3, fun i o v ho hv => ?_⟩
  obtain ⟨a1, e, a2⟩ := h4 i o v ho hv
  obtain ⟨-, e', b2⟩ := g4 i o v ho hv
  exact ⟨m.offset (by omega) a1, e, m.str (by omega) a2 b2⟩

theorem album (m : Merge S₁ S₂ S₃ d₁ d₂ d₃ lo) {p : Nat} {r : Album} {q q' : Nat} (hp : lo ≤ p)
    (h : Album.At S₁ d₁ p r q) (h' : Album.At S₂ d₂ p r q') : Album.At S₃ d₃ p r q := by
  obtain ⟨h1, h2, h3, h4, h5, h6, h7, hq⟩ := h
  obtain ⟨-, -, -, -, -, -, g7, -⟩ := h'
  exact ⟨m.u16 (by omega) h1, m.u16 (by omega) h2, m.u32 (by omega) h3, m.u32 (by omega) h4, m.u32 (by omega) h5,
    m.u32 (by omega) h6, m.array hp h7 g7, hq⟩

theorem artist (m : Merge S₁ S₂ S₃ d₁ d₂ d₃ lo) {p : Nat} {r : Artist} {q q' : Nat} (hp : lo ≤ p)
    (h : Artist.At S₁ d₁ p r q) (h' : Artist.At S₂ d₂ p r q') : Artist.At S₃ d₃ p r q := by
  obtain ⟨h1, h2, h3, h4, hq⟩ := h
  obtain ⟨-, -, -, g4, -⟩ := h'
  exact ⟨m.u16 (by omega) h1, m.u16 (by omega) h2, m.u32 (by omega) h3, m.array hp h4 g4, hq⟩

theorem artwork (m : Merge S₁ S₂ S₃ d₁ d₂ d₃ lo) {p : Nat} {r : Artwork} {q q' : Nat} (hp : lo ≤ p)
    (h : Artwork.At S₁ d₁ p r q) (h' : Artwork.At S₂ d₂ p r q') : Artwork.At S₃ d₃ p r q := by
  obtain ⟨h1, h2⟩ := h
  obtain ⟨-, g2⟩ := h'
  exact ⟨m.u32 (by omega) h1, m.str (by omega) h2 g2⟩

theorem color (m : Merge S₁ S₂ S₃ d₁ d₂ d₃ lo) {p : Nat} {r : Color} {q q' : Nat} (hp : lo ≤ p)
    (h : Color.At S₁ d₁ p r q) (h' : Color.At S₂ d₂ p r q') : Color.At S₃ d₃ p r q := by
  obtain ⟨h1, h2, h3, h4, h5⟩ := h
  obtain ⟨-, -, -, -, g5⟩ := h'
  exact ⟨m.u32 (by omega) h1, m.byte (by omega) h2, m.byte (by omega) h3, m.u16 (by omega) h4,
    m.str (by omega) h5 g5⟩

theorem genre (m : Merge S₁ S₂ S₃ d₁ d₂ d₃ lo) {p : Nat} {r : Genre} {q q' : Nat} (hp : lo ≤ p)
    (h : Genre.At S₁ d₁ p r q) (h' : Genre.At S₂ d₂ p r q') : Genre.At S₃ d₃ p r q := by
  obtain ⟨h1, h2⟩ := h
  obtain ⟨-, g2⟩ := h'
  exact ⟨m.u32 (by omega) h1, m.str (by omega) h2 g2⟩

theorem historyPlaylist (m : Merge S₁ S₂ S₃ d₁ d₂ d₃ lo) {p : Nat} {r : HistoryPlaylist} {q q' : Nat} (hp : lo ≤ p)
    (h : HistoryPlaylist.At S₁ d₁ p r q) (h' : HistoryPlaylist.At S₂ d₂ p r q') : HistoryPlaylist.At S₃ d₃ p r q := by
  obtain ⟨h1, h2⟩ := h
  obtain ⟨-, g2⟩ := h'
  exact ⟨m.u32 (by omega) h1, m.str (by omega) h2 g2⟩

theorem historyEntry (m : Merge S₁ S₂ S₃ d₁ d₂ d₃ lo) {p : Nat} {r : HistoryEntry} {q : Nat} (hp : lo ≤ p)
    (h : HistoryEntry.At d₁ p r q) : HistoryEntry.At d₃ p r q := by
  obtain ⟨h1, h2, h3, hq⟩ := h
  exact ⟨m.u32 (by omega) h1, m.u32 (by omega) h2, m.u32 (by omega) h3, hq⟩

theorem history (m : Merge S₁ S₂ S₃ d₁ d₂ d₃ lo) {p : Nat} {r : History} {q q' : Nat} (hp : lo ≤ p)
    (h : History.At S₁ d₁ p r q) (h' : History.At S₂ d₂ p r q') : History.At S₃ d₃ p r q := by
  obtain ⟨e1, e2, h1, h2, h3, h4, h5, h6, h7, h8⟩ := h
  obtain ⟨e1', e2', -, -, -, -, g5, -, g7, g8⟩ := h'
  obtain ⟨rfl, l5⟩ := m.ends _ _ _ _ h5 g5
  obtain ⟨rfl, l7⟩ := m.ends _ _ _ _ h7 g7
  exact ⟨_, _, m.u16 (by omega) h1, m.u16 (by omega) h2, m.u32 (by omega) h3, m.u32 (by omega) h4,
    m.str (by omega) h5 g5, m.u16 (by omega) h6, m.str (by omega) h7 g7, m.str (by omega) h8 g8⟩

theorem key (m : Merge S₁ S₂ S₃ d₁ d₂ d₃ lo) {p : Nat} {r : Key} {q q' : Nat} (hp : lo ≤ p)
    (h : Key.At S₁ d₁ p r q) (h' : Key.At S₂ d₂ p r q') : Key.At S₃ d₃ p r q := by
  obtain ⟨h1, h2, h3⟩ := h
  obtain ⟨-, -, g3⟩ := h'
  exact ⟨m.u32 (by omega) h1, m.u32 (by omega) h2, m.str (by omega) h3 g3⟩

theorem label (m : Merge S₁ S₂ S₃ d₁ d₂ d₃ lo) {p : Nat} {r : Label} {q q' : Nat} (hp : lo ≤ p)
    (h : Label.At S₁ d₁ p r q) (h' : Label.At S₂ d₂ p r q') : Label.At S₃ d₃ p r q := by
  obtain ⟨h1, h2⟩ := h
  obtain ⟨-, g2⟩ := h'
  exact ⟨m.u32 (by omega) h1, m.str (by omega) h2 g2⟩

theorem playlistTreeNode (m : Merge S₁ S₂ S₃ d₁ d₂ d₃ lo) {p : Nat} {r : PlaylistTreeNode} {q q' : Nat} (hp : lo ≤ p)
    (h : PlaylistTreeNode.At S₁ d₁ p r q) (h' : PlaylistTreeNode.At S₂ d₂ p r q') : PlaylistTreeNode.At S₃ d₃ p r q := by
  obtain ⟨h1, h2, h3, h4, h5, h6⟩ := h
  obtain ⟨-, -, -, -, -, g6⟩ := h'
  exact ⟨m.u32 (by omega) h1, m.u32 (by omega) h2, m.u32 (by omega) h3, m.u32 (by omega) h4, m.u32 (by omega) h5,
    m.str (by omega) h6 g6⟩

theorem playlistEntry (m : Merge S₁ S₂ S₃ d₁ d₂ d₃ lo) {p : Nat} {r : PlaylistEntry} {q : Nat} (hp : lo ≤ p)
    (h : PlaylistEntry.At d₁ p r q) : PlaylistEntry.At d₃ p r q := by
  obtain ⟨h1, h2, h3, hq⟩ := h
  exact ⟨m.u32 (by omega) h1, m.u32 (by omega) h2, m.u32 (by omega) h3, hq⟩

theorem columnEntry (m : Merge S₁ S₂ S₃ d₁ d₂ d₃ lo) {p : Nat} {r : ColumnEntry} {q q' : Nat} (hp : lo ≤ p)
    (h : ColumnEntry.At S₁ d₁ p r q) (h' : ColumnEntry.At S₂ d₂ p r q') : ColumnEntry.At S₃ d₃ p r q := by
  obtain ⟨h1, h2, h3⟩ := h
  obtain ⟨-, -, g3⟩ := h'
  exact ⟨m.u16 (by omega) h1, m.u16 (by omega) h2, m.str (by omega) h3 g3⟩

theorem menu (m : Merge S₁ S₂ S₃ d₁ d₂ d₃ lo) {p : Nat} {r : Menu} {q : Nat} (hp : lo ≤ p)
    (h : Menu.At d₁ p r q) : Menu.At d₃ p r q := by
  obtain ⟨h1, h2, h3, h4, h4c, h5, hq⟩ := h
  exact ⟨m.u16 (by omega) h1, m.u16 (by omega) h2, m.byte (by omega) h3, m.byte (by omega) h4, h4c,
    m.u16 (by omega) h5, hq⟩

theorem track (m : Merge S₁ S₂ S₃ d₁ d₂ d₃ lo) {p : Nat} {r : Track} {q q' : Nat} (hp : lo ≤ p)
    (h : Track.At S₁ d₁ p r q) (h' : Track.At S₂ d₂ p r q') : Track.At S₃ d₃ p r q := by
  obtain ⟨h1, h2, h3, h4, h5, h6, h7, h8, h9, h10, h11, h12, h13, h14, h15, h16, h17, h18, h19, h20, h21, h22, h23,
    h24, h25, h26, h27, h28, h29, h30, h30c, h31, hq⟩ := h
  obtain ⟨-, -, -, -, -, -, -, -, -, -, -, -, -, -, -, -, -, -, -, -, -, -, -, -, -, -, -, -, -, -, -, g31, -⟩ := h'
  exact ⟨m.u16 (by omega) h1, m.u16 (by omega) h2, m.u32 (by omega) h3, m.u32 (by omega) h4, m.u32 (by omega) h5,
    m.u32 (by omega) h6, m.u32 (by omega) h7, m.u16 (by omega) h8, m.u16 (by omega) h9, m.u32 (by omega) h10,
    m.u32 (by omega) h11, m.u32 (by omega) h12, m.u32 (by omega) h13, m.u32 (by omega) h14,
    m.u32 (by omega) h15, m.u32 (by omega) h16, m.u32 (by omega) h17, m.u32 (by omega) h18,
    m.u32 (by omega) h19, m.u32 (by omega) h20, m.u32 (by omega) h21, m.u16 (by omega) h22,
    m.u16 (by omega) h23, m.u16 (by omega) h24, m.u16 (by omega) h25, m.u16 (by omega) h26,
    m.u16 (by omega) h27, m.byte (by omega) h28, m.byte (by omega) h29, m.u16 (by omega) h30, h30c,
    m.array hp h31 g31, hq⟩

theorem tagOrCategory (m : Merge S₁ S₂ S₃ d₁ d₂ d₃ lo) {p : Nat} {r : TagOrCategory} {q q' : Nat} (hp : lo ≤ p)
    (h : TagOrCategory.At S₁ d₁ p r q) (h' : TagOrCategory.At S₂ d₂ p r q') : TagOrCategory.At S₃ d₃ p r q := by
  obtain ⟨h1, h2, h3, h4, h5, h6, h7, h8, h9, hq⟩ := h
  obtain ⟨-, -, -, -, -, -, -, -, g9, -⟩ := h'
  exact ⟨m.u16 (by omega) h1, m.u16 (by omega) h2, m.u32 (by omega) h3, m.u32 (by omega) h4, m.u32 (by omega) h5,
    m.u32 (by omega) h6, m.u32 (by omega) h7, m.u32 (by omega) h8, m.array hp h9 g9, hq⟩

theorem trackTag (m : Merge S₁ S₂ S₃ d₁ d₂ d₃ lo) {p : Nat} {r : TrackTag} {q : Nat} (hp : lo ≤ p)
    (h : TrackTag.At d₁ p r q) : TrackTag.At d₃ p r q := by
  obtain ⟨h1, h2, h3, h4, hq⟩ := h
  exact ⟨m.u32 (by omega) h1, m.u32 (by omega) h2, m.u32 (by omega) h3, m.u32 (by omega) h4, hq⟩

theorem row (m : Merge S₁ S₂ S₃ d₁ d₂ d₃ lo) {p : Nat} {t : PageType} {r : Row} {q q' : Nat} (hp : lo ≤ p)
    (h : Row.At S₁ d₁ p t r q) (h' : Row.At S₂ d₂ p t r q') : Row.At S₃ d₃ p t r q := by
  unfold Row.At at h h' ⊢
  split at h
  · exact m.album hp h h'
  · exact m.artist hp h h'
  · exact m.artwork hp h h'
  · exact m.color hp h h'
  · exact m.genre hp h h'
  · exact m.historyPlaylist hp h h'
  · exact m.historyEntry hp h
  · exact m.history hp h h'
  · exact m.key hp h h'
  · exact m.label hp h h'
  · exact m.playlistTreeNode hp h h'
  · exact m.playlistEntry hp h
  · exact m.columnEntry hp h h'
  · exact m.menu hp h
  · exact m.track hp h h'
  · exact m.tagOrCategory hp h h'
  · exact m.trackTag hp h
  · exact h
  · exact h.elim

theorem pageType (m : Merge S₁ S₂ S₃ d₁ d₂ d₃ lo) {db : DatabaseType} {p : Nat} {t : PageType} (hp : lo ≤ p) :
    PageType.At db d₁ p t → PageType.At db d₃ p t := fun ⟨c, h1, h2⟩ => ⟨c, m.u32 hp h1, h2⟩

theorem pageHeader (m : Merge S₁ S₂ S₃ d₁ d₂ d₃ lo) {db : DatabaseType} {p : Nat} {h : PageHeader} (hp : lo ≤ p)
    (hh : PageHeader.At db d₁ p h) : PageHeader.At db d₃ p h := by
  obtain ⟨h0, h1, h2, h3, h4, h5, h6, ⟨b, h7, h7'⟩, h8, h9⟩ := hh
  exact ⟨m.u32 (by omega) h0, m.u32 (by omega) h1, m.pageType (by omega) h2, m.u32 (by omega) h3, m.u32 (by omega) h4,
    m.u32 (by omega) h5, m.u24 (by omega) h6, ⟨b, m.byte (by omega) h7, h7'⟩, m.u16 (by omega) h8, m.u16 (by omega) h9⟩

theorem rowGroup (m : Merge S₁ S₂ S₃ d₁ d₂ d₃ lo) {e : Nat} {g : RowGroup} (he : lo + 36 ≤ e) :
    RowGroup.At d₁ e g → RowGroup.At d₃ e g :=
  fun ⟨h1, h2, h3, h4⟩ => ⟨h1, fun s hs => m.u16 (by omega) (h2 s hs), m.u16 (by omega) h3, m.u16 (by omega) h4⟩

theorem listed {d : Bytes} {e n : Nat} {gs : List RowGroup} (hn : gs.length = (n + 15) / 16)
    (h : ∀ (k : Nat) g, gs[k]? = some g → RowGroup.At d (e - 36 * k) g) {d' : Bytes}
    (h' : ∀ (k : Nat) g, gs[k]? = some g → RowGroup.At d' (e - 36 * k) g) (o : UInt16) :
    OffsetListed d e n o.toNat ↔ OffsetListed d' e n o.toNat := by
  rw [← listed_iff hn h, ← listed_iff hn h']

/-- A page whose row groups lie behind the start `lo`. -/
theorem page (m : Merge S₁ S₂ S₃ d₁ d₂ d₃ lo) {size : Option Nat} {db : DatabaseType} {p : Nat} {pg : Page} {q q' : Nat} (hp : lo ≤ p)
    (hg : ∀ n c, size = some n → pg.content = .data c →
      lo + 36 * ((pg.header.packedRowCounts.numRows.val + 15) / 16) ≤ p + n)
    (h : Page.At S₁ size db d₁ p pg q) (h' : Page.At S₂ size db d₂ p pg q') : Page.At S₃ size db d₃ p pg q := by
  obtain ⟨h1, h2⟩ := h
  obtain ⟨-, g2⟩ := h'
  refine ⟨m.pageHeader hp h1, ?_⟩
  cases hc : pg.content with
  | index c =>
    rw [hc] at h2
    obtain ⟨h2, ⟨a0, a1, a2, a3, a4, a5, a6, a7, a8, a9, a10, a11⟩, h4⟩ := h2
    exact ⟨h2, ⟨m.u16 (by omega) a0, m.u16 (by omega) a1, m.u16 (by omega) a2, m.u16 (by omega) a3, m.u32 (by omega) a4,
      m.u32 (by omega) a5, m.u32 (by omega) a6, m.u32 (by omega) a7, m.u16 (by omega) a8, m.u16 (by omega) a9, a10,
      fun i x hi => m.u32 (by omega) (a11 i x hi)⟩, h4⟩
  | data c =>
    rw [hc] at h2 g2
    obtain ⟨h2, n, h3, ⟨a0, a1, a2, a3, a4, a5, a6, a7, a8, a9, a10⟩, h4⟩ := h2
    obtain ⟨-, n', g3, ⟨-, -, -, -, -, -, -, -, -, b9, -⟩, -⟩ := g2
    rw [h3] at g3
    injection g3 with g3
    subst g3
    have hg := hg n c h3 hc
    have hgs : ∀ (k : Nat) g, c.rowGroups[k]? = some g → RowGroup.At d₃ (p + n - 36 * k) g := by
      intro k g hk
      have : k < c.rowGroups.length := (List.getElem?_eq_some_iff.1 hk).1
      exact m.rowGroup (by omega) (a6 k g hk)
    refine ⟨h2, n, h3, ⟨m.u16 (by omega) a0, m.u16 (by omega) a1, m.u16 (by omega) a2, m.u16 (by omega) a3, a4, a5, hgs,
      a7, fun o => (a8 o).trans (listed a4 a6 hgs o), fun o row ho => ?_, a10⟩, h4⟩
    obtain ⟨q1, r1⟩ := a9 o row ho
    obtain ⟨q2, r2⟩ := b9 o row ho
    exact ⟨q1, m.row (by omega) r1 r2⟩

end Merge

end Rekordcrate
