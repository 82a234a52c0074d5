import Verif.Lemmas.RowAt

/-! # C94: exactly which bytes are read as a row

`row_read_iff` describes the reader of rows for every file, also one that was not written by this library: the reader gives
a row exactly if every field of the row is at its documented position, the row has the kind of the page, and each string
is stored where the offset array of the row points. -/

namespace Rekordcrate

open Rd

private theorem wrapped_iff {α β : Type} {r : Rd α} {f : α → β} {d : Bytes} {p : Nat} {y : β} {q : Nat} :
    (do let x ← r; pure (f x) : Rd β) d p = .ok (y, q) ↔ ∃ x, r d p = .ok (x, q) ∧ f x = y := by
  rw [bind_eq_ok]
  constructor
  · rintro ⟨x, q', h, h'⟩
    rw [pure_eq_ok] at h'
    obtain ⟨rfl, rfl⟩ := h'
    exact ⟨x, h, rfl⟩
  · rintro ⟨x, h, rfl⟩
    exact ⟨x, q, h, rfl⟩

private theorem Row.at_albums {S : StringRel} {d : Bytes} {p q : Nat} {row : Row} :
    (∃ x, Album.At S d p x q ∧ Row.plain (.album x) = row) ↔ Row.At S d p (.plain .albums) row q :=
  ⟨fun ⟨_, h, e⟩ => e ▸ h, fun h => by
    cases row with
    | unknown => exact h.elim
    | plain r => cases r <;> first | exact h.elim | exact ⟨_, h, rfl⟩
    | ext r => cases r <;> first | exact h.elim | exact ⟨_, h, rfl⟩⟩

private theorem Row.at_artists {S : StringRel} {d : Bytes} {p q : Nat} {row : Row} :
    (∃ x, Artist.At S d p x q ∧ Row.plain (.artist x) = row) ↔ Row.At S d p (.plain .artists) row q :=
  ⟨fun ⟨_, h, e⟩ => e ▸ h, fun h => by
    cases row with
    | unknown => exact h.elim
    | plain r => cases r <;> first | exact h.elim | exact ⟨_, h, rfl⟩
    | ext r => cases r <;> first | exact h.elim | exact ⟨_, h, rfl⟩⟩

private theorem Row.at_artwork {S : StringRel} {d : Bytes} {p q : Nat} {row : Row} :
    (∃ x, Artwork.At S d p x q ∧ Row.plain (.artwork x) = row) ↔ Row.At S d p (.plain .artwork) row q :=
  ⟨fun ⟨_, h, e⟩ => e ▸ h, fun h => by
    cases row with
    | unknown => exact h.elim
    | plain r => cases r <;> first | exact h.elim | exact ⟨_, h, rfl⟩
    | ext r => cases r <;> first | exact h.elim | exact ⟨_, h, rfl⟩⟩

private theorem Row.at_colors {S : StringRel} {d : Bytes} {p q : Nat} {row : Row} :
    (∃ x, Color.At S d p x q ∧ Row.plain (.color x) = row) ↔ Row.At S d p (.plain .colors) row q :=
  ⟨fun ⟨_, h, e⟩ => e ▸ h, fun h => by
    cases row with
    | unknown => exact h.elim
    | plain r => cases r <;> first | exact h.elim | exact ⟨_, h, rfl⟩
    | ext r => cases r <;> first | exact h.elim | exact ⟨_, h, rfl⟩⟩

private theorem Row.at_genres {S : StringRel} {d : Bytes} {p q : Nat} {row : Row} :
    (∃ x, Genre.At S d p x q ∧ Row.plain (.genre x) = row) ↔ Row.At S d p (.plain .genres) row q :=
  ⟨fun ⟨_, h, e⟩ => e ▸ h, fun h => by
    cases row with
    | unknown => exact h.elim
    | plain r => cases r <;> first | exact h.elim | exact ⟨_, h, rfl⟩
    | ext r => cases r <;> first | exact h.elim | exact ⟨_, h, rfl⟩⟩

private theorem Row.at_historyPlaylists {S : StringRel} {d : Bytes} {p q : Nat} {row : Row} :
    (∃ x, HistoryPlaylist.At S d p x q ∧ Row.plain (.historyPlaylist x) = row) ↔ Row.At S d p (.plain .historyPlaylists) row q :=
  ⟨fun ⟨_, h, e⟩ => e ▸ h, fun h => by
    cases row with
    | unknown => exact h.elim
    | plain r => cases r <;> first | exact h.elim | exact ⟨_, h, rfl⟩
    | ext r => cases r <;> first | exact h.elim | exact ⟨_, h, rfl⟩⟩

private theorem Row.at_historyEntries {S : StringRel} {d : Bytes} {p q : Nat} {row : Row} :
    (∃ x, HistoryEntry.At d p x q ∧ Row.plain (.historyEntry x) = row) ↔ Row.At S d p (.plain .historyEntries) row q :=
  ⟨fun ⟨_, h, e⟩ => e ▸ h, fun h => by
    cases row with
    | unknown => exact h.elim
    | plain r => cases r <;> first | exact h.elim | exact ⟨_, h, rfl⟩
    | ext r => cases r <;> first | exact h.elim | exact ⟨_, h, rfl⟩⟩

private theorem Row.at_history {S : StringRel} {d : Bytes} {p q : Nat} {row : Row} :
    (∃ x, History.At S d p x q ∧ Row.plain (.history x) = row) ↔ Row.At S d p (.plain .history) row q :=
  ⟨fun ⟨_, h, e⟩ => e ▸ h, fun h => by
    cases row with
    | unknown => exact h.elim
    | plain r => cases r <;> first | exact h.elim | exact ⟨_, h, rfl⟩
    | ext r => cases r <;> first | exact h.elim | exact ⟨_, h, rfl⟩⟩

private theorem Row.at_keys {S : StringRel} {d : Bytes} {p q : Nat} {row : Row} :
    (∃ x, Key.At S d p x q ∧ Row.plain (.key x) = row) ↔ Row.At S d p (.plain .keys) row q :=
  ⟨fun ⟨_, h, e⟩ => e ▸ h, fun h => by
    cases row with
    | unknown => exact h.elim
    | plain r => cases r <;> first | exact h.elim | exact ⟨_, h, rfl⟩
    | ext r => cases r <;> first | exact h.elim | exact ⟨_, h, rfl⟩⟩

private theorem Row.at_labels {S : StringRel} {d : Bytes} {p q : Nat} {row : Row} :
    (∃ x, Label.At S d p x q ∧ Row.plain (.label x) = row) ↔ Row.At S d p (.plain .labels) row q :=
  ⟨fun ⟨_, h, e⟩ => e ▸ h, fun h => by
    cases row with
    | unknown => exact h.elim
    | plain r => cases r <;> first | exact h.elim | exact ⟨_, h, rfl⟩
    | ext r => cases r <;> first | exact h.elim | exact ⟨_, h, rfl⟩⟩

private theorem Row.at_playlistTree {S : StringRel} {d : Bytes} {p q : Nat} {row : Row} :
    (∃ x, PlaylistTreeNode.At S d p x q ∧ Row.plain (.playlistTreeNode x) = row) ↔ Row.At S d p (.plain .playlistTree) row q :=
  ⟨fun ⟨_, h, e⟩ => e ▸ h, fun h => by
    cases row with
    | unknown => exact h.elim
    | plain r => cases r <;> first | exact h.elim | exact ⟨_, h, rfl⟩
    | ext r => cases r <;> first | exact h.elim | exact ⟨_, h, rfl⟩⟩

private theorem Row.at_playlistEntries {S : StringRel} {d : Bytes} {p q : Nat} {row : Row} :
    (∃ x, PlaylistEntry.At d p x q ∧ Row.plain (.playlistEntry x) = row) ↔ Row.At S d p (.plain .playlistEntries) row q :=
  ⟨fun ⟨_, h, e⟩ => e ▸ h, fun h => by
    cases row with
    | unknown => exact h.elim
    | plain r => cases r <;> first | exact h.elim | exact ⟨_, h, rfl⟩
    | ext r => cases r <;> first | exact h.elim | exact ⟨_, h, rfl⟩⟩

private theorem Row.at_columns {S : StringRel} {d : Bytes} {p q : Nat} {row : Row} :
    (∃ x, ColumnEntry.At S d p x q ∧ Row.plain (.columnEntry x) = row) ↔ Row.At S d p (.plain .columns) row q :=
  ⟨fun ⟨_, h, e⟩ => e ▸ h, fun h => by
    cases row with
    | unknown => exact h.elim
    | plain r => cases r <;> first | exact h.elim | exact ⟨_, h, rfl⟩
    | ext r => cases r <;> first | exact h.elim | exact ⟨_, h, rfl⟩⟩

private theorem Row.at_menu {S : StringRel} {d : Bytes} {p q : Nat} {row : Row} :
    (∃ x, Menu.At d p x q ∧ Row.plain (.menu x) = row) ↔ Row.At S d p (.plain .menu) row q :=
  ⟨fun ⟨_, h, e⟩ => e ▸ h, fun h => by
    cases row with
    | unknown => exact h.elim
    | plain r => cases r <;> first | exact h.elim | exact ⟨_, h, rfl⟩
    | ext r => cases r <;> first | exact h.elim | exact ⟨_, h, rfl⟩⟩

private theorem Row.at_tracks {S : StringRel} {d : Bytes} {p q : Nat} {row : Row} :
    (∃ x, Track.At S d p x q ∧ Row.plain (.track x) = row) ↔ Row.At S d p (.plain .tracks) row q :=
  ⟨fun ⟨_, h, e⟩ => e ▸ h, fun h => by
    cases row with
    | unknown => exact h.elim
    | plain r => cases r <;> first | exact h.elim | exact ⟨_, h, rfl⟩
    | ext r => cases r <;> first | exact h.elim | exact ⟨_, h, rfl⟩⟩

private theorem Row.at_tag {S : StringRel} {d : Bytes} {p q : Nat} {row : Row} :
    (∃ x, TagOrCategory.At S d p x q ∧ Row.ext (.tag x) = row) ↔ Row.At S d p (.ext .tag) row q :=
  ⟨fun ⟨_, h, e⟩ => e ▸ h, fun h => by
    cases row with
    | unknown => exact h.elim
    | plain r => cases r <;> first | exact h.elim | exact ⟨_, h, rfl⟩
    | ext r => cases r <;> first | exact h.elim | exact ⟨_, h, rfl⟩⟩

private theorem Row.at_trackTag {S : StringRel} {d : Bytes} {p q : Nat} {row : Row} :
    (∃ x, TrackTag.At d p x q ∧ Row.ext (.trackTag x) = row) ↔ Row.At S d p (.ext .trackTag) row q :=
  ⟨fun ⟨_, h, e⟩ => e ▸ h, fun h => by
    cases row with
    | unknown => exact h.elim
    | plain r => cases r <;> first | exact h.elim | exact ⟨_, h, rfl⟩
    | ext r => cases r <;> first | exact h.elim | exact ⟨_, h, rfl⟩⟩

/-- C94: a row is read at `p` in a page of the type `t` exactly if it is stored there: it is of the kind of the page, its
fields are at their positions, and its strings are where the offsets point and declare a possible length. -/
theorem row_read_iff {d : Bytes} {p : Nat} {t : PageType} {row : Row} {q : Nat} :
    Row.read t d p = .ok (row, q) ↔ Row.At SoundTextAt d p t row q := by
  have one : ∀ {α : Type} {r : Rd α} {A : α → Prop} {f : α → Row} {y : Row},
      (∀ {x}, r d p = .ok (x, q) ↔ A x) → ((∃ x, r d p = .ok (x, q) ∧ f x = y) ↔ ∃ x, A x ∧ f x = y) :=
    fun h => exists_congr fun _ => and_congr h Iff.rfl
  have two : ∀ {α : Type} {r : Rd α} {f : α → PlainRow} {y : Row},
      (∃ z, (∃ x, r d p = .ok (x, q) ∧ f x = z) ∧ Row.plain z = y) ↔ ∃ x, r d p = .ok (x, q) ∧ Row.plain (f x) = y :=
    ⟨fun ⟨_, ⟨x, h, e⟩, e'⟩ => ⟨x, h, e ▸ e'⟩, fun ⟨x, h, e⟩ => ⟨_, ⟨x, h, rfl⟩, e⟩⟩
  have three : ∀ {α : Type} {r : Rd α} {f : α → ExtRow} {y : Row},
      (∃ z, (∃ x, r d p = .ok (x, q) ∧ f x = z) ∧ Row.ext z = y) ↔ ∃ x, r d p = .ok (x, q) ∧ Row.ext (f x) = y :=
    ⟨fun ⟨_, ⟨x, h, e⟩, e'⟩ => ⟨x, h, e ▸ e'⟩, fun ⟨x, h, e⟩ => ⟨_, ⟨x, h, rfl⟩, e⟩⟩
  cases t with
  | plain t =>
    unfold Row.read
    rw [wrapped_iff]
    cases t with
    | albums => simp only [PlainRow.read, wrapped_iff, two]; exact (one (album_row_read_iff)).trans Row.at_albums
    | artists => simp only [PlainRow.read, wrapped_iff, two]; exact (one (artist_row_read_iff)).trans Row.at_artists
    | artwork => simp only [PlainRow.read, wrapped_iff, two]; exact (one (artwork_row_read_iff)).trans Row.at_artwork
    | colors => simp only [PlainRow.read, wrapped_iff, two]; exact (one (color_row_read_iff)).trans Row.at_colors
    | genres => simp only [PlainRow.read, wrapped_iff, two]; exact (one (genre_row_read_iff)).trans Row.at_genres
    | historyPlaylists => simp only [PlainRow.read, wrapped_iff, two]; exact (one (historyPlaylist_row_read_iff)).trans Row.at_historyPlaylists
    | historyEntries => simp only [PlainRow.read, wrapped_iff, two]; exact (one (historyEntry_row_read_iff)).trans Row.at_historyEntries
    | history => simp only [PlainRow.read, wrapped_iff, two]; exact (one (history_row_read_iff)).trans Row.at_history
    | keys => simp only [PlainRow.read, wrapped_iff, two]; exact (one (key_row_read_iff)).trans Row.at_keys
    | labels => simp only [PlainRow.read, wrapped_iff, two]; exact (one (label_row_read_iff)).trans Row.at_labels
    | playlistTree => simp only [PlainRow.read, wrapped_iff, two]; exact (one (playlistTreeNode_row_read_iff)).trans Row.at_playlistTree
    | playlistEntries => simp only [PlainRow.read, wrapped_iff, two]; exact (one (playlistEntry_row_read_iff)).trans Row.at_playlistEntries
    | columns => simp only [PlainRow.read, wrapped_iff, two]; exact (one (columnEntry_row_read_iff)).trans Row.at_columns
    | menu => simp only [PlainRow.read, wrapped_iff, two]; exact (one (menu_row_read_iff)).trans Row.at_menu
    | tracks => simp only [PlainRow.read, wrapped_iff, two]; exact (one (track_row_read_iff)).trans Row.at_tracks
  | ext t =>
    unfold Row.read
    rw [wrapped_iff]
    cases t with
    | tag => simp only [ExtRow.read, wrapped_iff, three]; exact (one (tagOrCategory_row_read_iff)).trans Row.at_tag
    | trackTag => simp only [ExtRow.read, wrapped_iff, three]; exact (one trackTag_row_read_iff).trans Row.at_trackTag
  | unknown c =>
    unfold Row.read
    rw [pure_eq_ok]
    constructor
    · rintro ⟨rfl, rfl⟩; rfl
    · intro h
      cases row with
      | unknown => exact ⟨rfl, h.symm⟩
      | plain r => cases r <;> exact h.elim
      | ext r => cases r <;> exact h.elim

/-- C94, release build: the same without the condition on the lengths that the strings declare. -/
theorem row_release_read_iff {d : Bytes} (hd : d.length < 2 ^ 64 - 1) {p : Nat} {t : PageType} {row : Row} {q : Nat} :
    Row.readWrap t d p = .ok (row, q) ↔ Row.At TextAt d p t row q := by
  have one : ∀ {α : Type} {r : Rd α} {A : α → Prop} {f : α → Row} {y : Row},
      (∀ {x}, r d p = .ok (x, q) ↔ A x) → ((∃ x, r d p = .ok (x, q) ∧ f x = y) ↔ ∃ x, A x ∧ f x = y) :=
    fun h => exists_congr fun _ => and_congr h Iff.rfl
  have two : ∀ {α : Type} {r : Rd α} {f : α → PlainRow} {y : Row},
      (∃ z, (∃ x, r d p = .ok (x, q) ∧ f x = z) ∧ Row.plain z = y) ↔ ∃ x, r d p = .ok (x, q) ∧ Row.plain (f x) = y :=
    ⟨fun ⟨_, ⟨x, h, e⟩, e'⟩ => ⟨x, h, e ▸ e'⟩, fun ⟨x, h, e⟩ => ⟨_, ⟨x, h, rfl⟩, e⟩⟩
  have three : ∀ {α : Type} {r : Rd α} {f : α → ExtRow} {y : Row},
      (∃ z, (∃ x, r d p = .ok (x, q) ∧ f x = z) ∧ Row.ext z = y) ↔ ∃ x, r d p = .ok (x, q) ∧ Row.ext (f x) = y :=
    ⟨fun ⟨_, ⟨x, h, e⟩, e'⟩ => ⟨x, h, e ▸ e'⟩, fun ⟨x, h, e⟩ => ⟨_, ⟨x, h, rfl⟩, e⟩⟩
  cases t with
  | plain t =>
    unfold Row.readWrap
    rw [wrapped_iff]
    cases t with
    | albums => simp only [PlainRow.readWrap, wrapped_iff, two]; exact (one (album_row_release_read_iff hd)).trans Row.at_albums
    | artists => simp only [PlainRow.readWrap, wrapped_iff, two]; exact (one (artist_row_release_read_iff hd)).trans Row.at_artists
    | artwork => simp only [PlainRow.readWrap, wrapped_iff, two]; exact (one (artwork_row_release_read_iff hd)).trans Row.at_artwork
    | colors => simp only [PlainRow.readWrap, wrapped_iff, two]; exact (one (color_row_release_read_iff hd)).trans Row.at_colors
    | genres => simp only [PlainRow.readWrap, wrapped_iff, two]; exact (one (genre_row_release_read_iff hd)).trans Row.at_genres
    | historyPlaylists => simp only [PlainRow.readWrap, wrapped_iff, two]; exact (one (historyPlaylist_row_release_read_iff hd)).trans Row.at_historyPlaylists
    | historyEntries => simp only [PlainRow.readWrap, wrapped_iff, two]; exact (one (historyEntry_row_read_iff)).trans Row.at_historyEntries
    | history => simp only [PlainRow.readWrap, wrapped_iff, two]; exact (one (history_row_release_read_iff hd)).trans Row.at_history
    | keys => simp only [PlainRow.readWrap, wrapped_iff, two]; exact (one (key_row_release_read_iff hd)).trans Row.at_keys
    | labels => simp only [PlainRow.readWrap, wrapped_iff, two]; exact (one (label_row_release_read_iff hd)).trans Row.at_labels
    | playlistTree => simp only [PlainRow.readWrap, wrapped_iff, two]; exact (one (playlistTreeNode_row_release_read_iff hd)).trans Row.at_playlistTree
    | playlistEntries => simp only [PlainRow.readWrap, wrapped_iff, two]; exact (one (playlistEntry_row_read_iff)).trans Row.at_playlistEntries
    | columns => simp only [PlainRow.readWrap, wrapped_iff, two]; exact (one (columnEntry_row_release_read_iff hd)).trans Row.at_columns
    | menu => simp only [PlainRow.readWrap, wrapped_iff, two]; exact (one (menu_row_read_iff)).trans Row.at_menu
    | tracks => simp only [PlainRow.readWrap, wrapped_iff, two]; exact (one (track_row_release_read_iff hd)).trans Row.at_tracks
  | ext t =>
    unfold Row.readWrap
    rw [wrapped_iff]
    cases t with
    | tag => simp only [ExtRow.readWrap, wrapped_iff, three]; exact (one (tagOrCategory_row_release_read_iff hd)).trans Row.at_tag
    | trackTag => simp only [ExtRow.readWrap, wrapped_iff, three]; exact (one trackTag_row_read_iff).trans Row.at_trackTag
  | unknown c =>
    unfold Row.readWrap
    rw [pure_eq_ok]
    constructor
    · rintro ⟨rfl, rfl⟩; rfl
    · intro h
      cases row with
      | unknown => exact ⟨rfl, h.symm⟩
      | plain r => cases r <;> exact h.elim
      | ext r => cases r <;> exact h.elim

/-- C94: the bytes determine the row. -/
theorem row_unambiguous {d : Bytes} {p : Nat} {t : PageType} {row row' : Row} {q q' : Nat}
    (h : Row.At SoundTextAt d p t row q) (h' : Row.At SoundTextAt d p t row' q') : row = row' ∧ q = q' := by
  have := (row_read_iff.2 h).symm.trans (row_read_iff.2 h')
  simpa using this

/-- An artist whose name "Ab" is ten bytes behind the start of the row, after the number 3 and its offset. -/
def artistBytes : Bytes := [0x60, 0, 0, 0, 5, 0, 0, 0, 3, 10, 7, 65, 66]

example : Row.read (.plain .artists) artistBytes 0 = .ok (.plain (.artist
    { subtype := 0x60, indexShift := 0, id := 5
      offsets := { inner := { name := .short [65, 66] }, offsets := some (OffsetArray.ofNats [10] .u8) } }), 0) := by
  refine row_read_iff.2 ⟨⟨0x60, 0, rfl, rfl, rfl⟩, ⟨0, 0, rfl, rfl, rfl⟩, ⟨5, 0, 0, 0, rfl, rfl, rfl, rfl, rfl⟩, ?_, rfl⟩
  refine ⟨?_, [10], rfl, rfl, ?_⟩
  · exact ⟨3, rfl, rfl⟩
  · intro i o v ho hv
    cases i with
    | succ i => simp at ho
    | zero =>
      simp only [List.getElem?_cons_zero, Option.some.injEq] at ho hv
      subst ho hv
      refine ⟨⟨10, rfl, rfl⟩, 13, .short 7 [65, 66] rfl rfl ?_, ?_⟩
      · intro i hi
        match i with
        | 0 => rfl
        | 1 => rfl
        | i + 2 => simp at hi
      · rintro (h | ⟨b, n, h, hb, -⟩)
        · cases h
        · simp only [artistBytes] at h
          cases h
          exact absurd hb (by decide)

/-- The number in front of the offsets must be 3. -/
example : ∀ row q, Row.read (.plain .artists) [0x60, 0, 0, 0, 5, 0, 0, 0, 4, 10, 7, 65, 66] 0 ≠ .ok (row, q) := by
  intro row q h
  have h := row_read_iff.1 h
  have hs := h
  cases row with
  | unknown => exact h.elim
  | ext r => cases r <;> exact h.elim
  | plain r =>
    cases r with
    | artist r =>
      obtain ⟨⟨a, b, h1, h2, h3⟩, -, -, ⟨h, -⟩, -⟩ := h
      cases h1
      cases h2
      have : r.subtype = 0x60 := UInt16.toNat_inj.1 (h3.trans (by decide))
      rw [this] at h
      obtain ⟨c, h4, h5⟩ := h
      cases h4
      exact absurd h5 (by decide)
    | _ => exact hs.elim

/-- A row that only a release build reads: its name declares a length below the four bytes of its header, but is an
ISRC. -/
example : Row.At TextAt [9, 0, 0, 0, 0x90, 0, 0, 0, 3, 65, 66, 0] 0 (.plain .genres)
      (.plain (.genre { id := 9, name := .long (.isrc [65, 66]) })) 12 ∧
    BadString [9, 0, 0, 0, 0x90, 0, 0, 0, 3, 65, 66, 0] 4 :=
  ⟨⟨⟨9, 0, 0, 0, rfl, rfl, rfl, rfl, rfl⟩, .isrc 0 [65, 66] ⟨rfl, ⟨0, 0, rfl, rfl, rfl⟩, rfl⟩ (by decide)
    (by intro i hi; match i with | 0 => rfl | 1 => rfl | 2 => rfl | 3 => rfl | i + 4 => simp at hi)⟩,
    .inr ⟨0x90, 0, rfl, by decide, ⟨0, 0, rfl, rfl, rfl⟩, by decide⟩⟩

end Rekordcrate
