import Verif.Props.RowLayout
import Verif.Props.Rows

/-! # Concrete cases for the layouts of rows (C64)

For each type a row, and an image that contains what it writes at position 3; these meet the hypotheses of the layout
of the type. -/

namespace Rekordcrate

/-- The writer works at `p`, and the image contains what it writes. -/
def Stored (w : Wr Unit) (p : Nat) (img : Bytes) : Prop :=
  ∃ p' ps, w p = .ok ((), p', ps) ∧ Contains img ps

theorem stored_of {w : Wr Unit} {p : Nat} {img : Bytes}
    (h : (match w p with
      | .ok (_, _, ps) => ps.all fun q => decide (∀ i, i < q.bytes.length → img[q.off + i]? = q.bytes[i]?)
      | _ => false) = true) : Stored w p img := by
  cases hw : w p with
  | ok x =>
    obtain ⟨⟨⟩, p', ps⟩ := x
    rw [hw] at h
    refine ⟨p', ps, hw, fun q hq => ?_⟩
    have := List.all_eq_true.1 h q hq
    rw [decide_eq_true_eq] at this
    exact this
  | err e => rw [hw] at h; cases h
  | panic => rw [hw] at h; cases h

/-- C64: an album with the name "AB" of artist 3, with wide offsets. -/
example : Stored (Album.write ⟨0x84, 0x20, 0, 3, 2, 0, ⟨none, ⟨.short [65, 66]⟩⟩⟩) 3
    ([9, 9, 9] ++ [0x84, 0, 0x20, 0, 0, 0, 0, 0, 3, 0, 0, 0, 2, 0, 0, 0, 0, 0, 0, 0] ++ [3, 0, 24, 0] ++ [7, 65, 66]) :=
  stored_of (by decide +kernel)

/-- C64: an artist with the given offset 12, so that there are two bytes between the offset and the name. -/
example : Stored (Artist.write ⟨0x60, 0x20, 2, ⟨some (.u8 [12]), ⟨.short [65, 66]⟩⟩⟩) 3
    ([9, 9, 9] ++ [0x60, 0, 0x20, 0, 2, 0, 0, 0] ++ [3, 12] ++ [8, 8] ++ [7, 65, 66]) :=
  stored_of (by decide +kernel)

/-- C64: an artwork. -/
example : Stored (Artwork.write ⟨258, .short [47, 97]⟩) 3 ([9, 9, 9] ++ [2, 1, 0, 0] ++ [7, 47, 97]) :=
  stored_of (by decide +kernel)

/-- C64: the color orange. -/
example : Stored (Color.write ⟨0, 3, .orange, 0, .short [79]⟩) 3 ([9, 9, 9] ++ [0, 0, 0, 0, 3, 3, 0, 0] ++ [5, 79]) :=
  stored_of (by decide +kernel)

/-- C64: a genre with a name in UTF-16. -/
example : Stored (Genre.write ⟨7, .long (.ucs2le [0xC4, 0x72])⟩) 3
    ([9, 9, 9] ++ [7, 0, 0, 0] ++ [0x90, 8, 0, 0, 0xC4, 0, 0x72, 0]) := stored_of (by decide +kernel)

/-- C64: a history playlist. -/
example : Stored (HistoryPlaylist.write ⟨7, .short [72]⟩) 3 ([9, 9, 9] ++ [7, 0, 0, 0] ++ [5, 72]) :=
  stored_of (by decide +kernel)

/-- C64: a history entry. -/
example : Stored (HistoryEntry.write ⟨1, 2, 3⟩) 3 ([9, 9, 9] ++ [1, 0, 0, 0, 2, 0, 0, 0, 3, 0, 0, 0]) :=
  stored_of (by decide +kernel)

/-- C64: a history row with the date "20", the version "1" and an empty label. -/
example : Stored (History.write ⟨0x280, 0x20, 11, .short [50, 48], .short [49], .empty⟩) 3
    ([9, 9, 9] ++ [0x80, 2, 0x20, 0, 11, 0, 0, 0, 0, 0, 0, 0] ++ [7, 50, 48] ++ [0x19, 0x1e] ++ [5, 49] ++ [3]) :=
  stored_of (by decide +kernel)

/-- C64: the key "Am". -/
example : Stored (Key.write ⟨1, 1, .short [65, 109]⟩) 3 ([9, 9, 9] ++ [1, 0, 0, 0, 1, 0, 0, 0] ++ [7, 65, 109]) :=
  stored_of (by decide +kernel)

/-- C64: a label. -/
example : Stored (Label.write ⟨1, .short [76]⟩) 3 ([9, 9, 9] ++ [1, 0, 0, 0] ++ [5, 76]) :=
  stored_of (by decide +kernel)

/-- C64: a folder with the id 4 below the node 3. -/
example : Stored (PlaylistTreeNode.write ⟨3, 0, 2, 4, 1, .short [70]⟩) 3
    ([9, 9, 9] ++ [3, 0, 0, 0, 0, 0, 0, 0, 2, 0, 0, 0, 4, 0, 0, 0, 1, 0, 0, 0] ++ [5, 70]) :=
  stored_of (by decide +kernel)

/-- C64: track 2 as the first entry of playlist 4. -/
example : Stored (PlaylistEntry.write ⟨1, 2, 4⟩) 3 ([9, 9, 9] ++ [1, 0, 0, 0, 2, 0, 0, 0, 4, 0, 0, 0]) :=
  stored_of (by decide +kernel)

/-- C64: a column. -/
example : Stored (ColumnEntry.write ⟨1, 0x80, .long (.ucs2le [0xfffa, 0x47, 0xfffb])⟩) 3
    ([9, 9, 9] ++ [1, 0, 0x80, 0] ++ [0x90, 10, 0, 0, 0xfa, 0xff, 0x47, 0, 0xfb, 0xff]) := stored_of (by decide +kernel)

/-- C64: a hidden entry of the menu. -/
example : Stored (Menu.write ⟨1, 2, 0x63, .hidden, 5⟩) 3 ([9, 9, 9] ++ [1, 0, 2, 0, 0x63, 1, 5, 0]) :=
  stored_of (by decide +kernel)

/-- C64: the tag with the id 7 in the category 6. -/
example : Stored (TagOrCategory.write ⟨0x680, 0x20, 0, 0, 6, 1, 7, 0, ⟨none, ⟨.short [65, 66], .empty⟩⟩⟩) 3
    ([9, 9, 9] ++ [0x80, 6, 0x20, 0, 0, 0, 0, 0, 0, 0, 0, 0, 6, 0, 0, 0, 1, 0, 0, 0, 7, 0, 0, 0, 0, 0, 0, 0] ++
      [3, 31, 34] ++ [7, 65, 66] ++ [3]) := stored_of (by decide +kernel)

/-- C64: track 1 has tag 7. -/
example : Stored (TrackTag.write ⟨1, 7, 3⟩) 3 ([9, 9, 9] ++ [0, 0, 0, 0, 1, 0, 0, 0, 7, 0, 0, 0, 3, 0, 0, 0]) :=
  stored_of (by decide +kernel)

/-- What `exampleTrack` is written as. -/
def trackImage : Bytes :=
  [9, 9, 9] ++
  [36, 0, 160, 0, 0, 7, 12, 0, 68, 172, 0, 0, 0, 0, 0, 0, 168, 71, 105, 0, 218, 177, 193, 12, 128, 250, 231, 5, 0, 0,
    0, 0, 5, 0, 0, 0, 0, 0, 0, 0, 1, 0, 0, 0, 0, 0, 0, 0, 64, 1, 0, 0, 0, 0, 0, 0, 0, 50, 0, 0, 0, 0, 0, 0, 0, 0, 0, 0,
    1, 0, 0, 0, 1, 0, 0, 0, 0, 0, 0, 0, 0, 0, 16, 0, 172, 0, 41, 0, 0, 0, 1, 0] ++
  [3, 0, 136, 0, 154, 0, 155, 0, 157, 0, 159, 0, 160, 0, 161, 0, 162, 0, 165, 0, 166, 0, 167, 0, 172, 0, 173, 0, 174,
    0, 175, 0, 178, 0, 181, 0, 184, 0, 192, 0, 193, 0, 195, 0] ++
  [144, 18, 0, 0, 3, 71, 66, 65, 89, 69, 54, 55, 48, 48, 49, 52, 57, 0] ++ [3] ++ [5, 51] ++ [5, 51] ++ [3] ++ [3] ++
  [3] ++ [7, 79, 78] ++ [3] ++ [3] ++ [11, 50, 48, 49, 56] ++ [3] ++ [3] ++ [3] ++ [7, 47, 80] ++ [7, 50, 48] ++ [3] ++
  [0, 0] ++ [144, 8, 0, 0, 196, 0, 114, 0] ++ [3] ++ [5, 109] ++ [7, 47, 109]

/-- C64: a track with 21 strings; the title is aligned. -/
theorem exampleTrack_stored : Stored exampleTrack.write 3 trackImage := stored_of (by decide +kernel)

/-- C64: where the title of this track is found. -/
example : U16At trackImage (3 + 0x54) 172 ∧ StringVia trackImage 3 (3 + 0x5c) .u16 17 (.long (.ucs2le [0xC4, 0x72])) := by
  obtain ⟨p', ps, h, hi⟩ := exampleTrack_stored
  obtain ⟨-, -, -, -, -, -, -, -, -, -, -, -, -, -, -, -, -, -, -, -, -, -, -, -, -, h1, -, -, -, -, -, -, -, -, -, -, -,
    -, -, -, -, -, -, -, -, -, -, h2, -⟩ := track_row_layout (fun a ha => by cases ha) h hi
  exact ⟨h1, h2⟩

end Rekordcrate
