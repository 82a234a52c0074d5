import Verif.Lemmas.Xor

/-!
# Properties of the XOR stream (C41, C42, C43)
-/

namespace Rekordcrate
open XorStream

/-- **C42.** A XOR stream created at position `p0` of a file behaves, under any sequence of complete
reads, complete writes and seeks, like a plain file whose contents are the wrapped file's contents
xored position by position with the key anchored at `p0`: every call returns the same, the positions
agree, and the wrapped file afterwards is the xor of the plain file afterwards. -/
theorem xor_stream_behaves_like_plain_file (key data : Bytes) (p0 : Nat) (ops : List Op)
    (f' : PlainFile) (outs : List Out)
    (h : (PlainFile.mk (xorImage key p0 data) p0).run ops = some (f', outs)) :
    ((withKey data p0 key).run ops).2 = outs ∧
    ((withKey data p0 key).run ops).1.pos = f'.pos ∧
    ((withKey data p0 key).run ops).1.data = xorImage key p0 f'.data := by
  obtain ⟨h1, h2⟩ := xorSim_run (xorSim_init key data p0) h
  exact ⟨h1, h2.pos_eq, h2.data_eq⟩

/-- Non-vacuity: reading forwards, seeking back over the creation point, overwriting and reading
again is a run of the plain file. -/
example : (PlainFile.mk (xorImage [1, 2, 3] 2 [9, 9, 9, 9, 9, 9]) 2).run
    [.read 3, .seek (.current (-4)), .read 2, .seek (.start 1), .write [7, 7], .seek (.end (-5)), .read 2]
    = some (⟨[9 ^^^ 2, 7, 7, 9 ^^^ 2, 9 ^^^ 3, 9 ^^^ 1], 3⟩,
        [.data [9 ^^^ 1, 9 ^^^ 2, 9 ^^^ 3], .pos 1, .data [9 ^^^ 3, 9 ^^^ 1], .pos 1, .count 2,
         .pos 1, .data [7, 7]]) := by decide

/-- **C41.** Writing data in any chunks through a XOR stream positioned at the end of a file, and
reading it back in any chunks through a XOR stream with the same key opened at the same position,
returns the data; what lies in the file in between is the data xored with the repeating key. -/
theorem xor_write_read_roundtrip (key pre : Bytes) (ws : List Bytes) (rs : List Nat)
    (hsum : rs.sum = ws.flatten.length) :
    let written := ((withKey pre pre.length key).run (ws.map .write)).1.data
    let outs := ((withKey written pre.length key).run (rs.map .read)).2
    written.length = pre.length + ws.flatten.length ∧
    (∀ i, i < pre.length → written[i]? = pre[i]?) ∧
    (∀ i b, ws.flatten[i]? = some b →
      written[pre.length + i]? = some (b ^^^ (if key = [] then 0 else key.getD (i % key.length) 0))) ∧
    readBytesOf outs = ws.flatten := by
  intro written outs
  obtain ⟨os, hw⟩ := plain_writes ⟨xorImage key pre.length pre, pre.length⟩ ws (by simp)
  have hwr := xor_stream_behaves_like_plain_file key pre pre.length _ _ _ hw
  have hd : written = xorImage key pre.length (xorImage key pre.length pre ++ ws.flatten) := hwr.2.2
  have hl : written.length = pre.length + ws.flatten.length := by rw [hd]; simp
  refine ⟨hl, ?_, ?_, ?_⟩
  · intro i hi
    rw [hd, xorImage_getElem?, List.getElem?_append_left (by simpa using hi), ← xorImage_getElem?,
      xorImage_xorImage]
  · intro i b hb
    rw [hd, xorImage_getElem?, List.getElem?_append_right (by simp)]
    simp only [xorImage_length, Nat.add_sub_cancel_left, hb, Option.map_some]
    congr 2
    unfold keyByteAt
    split
    · rfl
    · congr 1
      have : ((pre.length + i : Nat) : Int) - pre.length = i := by omega
      rw [this]; omega
  · have hp : (PlainFile.mk (xorImage key pre.length written) pre.length).pos + rs.sum ≤
        (PlainFile.mk (xorImage key pre.length written) pre.length).data.length := by
      simp [hl, hsum]
    obtain ⟨f', os', hr, hb⟩ := plain_reads ⟨xorImage key pre.length written, pre.length⟩ rs hp
    have hrr := xor_stream_behaves_like_plain_file key written pre.length _ _ _ hr
    show readBytesOf ((withKey written pre.length key).run (rs.map .read)).2 = _
    rw [hrr.1, hb]
    simp only
    rw [hd, xorImage_xorImage, List.drop_append_of_le_length (by simp)]
    rw [List.drop_of_length_le (by simp)]
    simp [hsum, List.take_of_length_le]

/-- Non-vacuity: chunk lists of equal total size exist, with different chunking. -/
example : ([1, 0, 4] : List Nat).sum = ([[1, 2], [], [3, 4, 5]] : List Bytes).flatten.length := by decide

/-- **C43 is false of the code.** If the wrapped stream delivers a read in two parts, the second
part is deciphered with the wrong key bytes: `read` advances the key by the size of the whole
buffer although fewer bytes were transferred. -/
theorem xor_short_read_corrupts :
    ∃ (key data : Bytes) (n : Nat) (ks : List Nat),
      ((withKey data 0 key).readExact n ks).2 ≠ (xorImage key 0 data).take n ∧
      ks.sum = n ∧ n = data.length := by
  refine ⟨[1, 2, 4], [0, 0, 0], 3, [1, 2], ?_, by decide, by decide⟩
  decide

/-- **C43 is false of the code**, for writes: a short inner write desynchronises the key. -/
theorem xor_short_write_corrupts :
    ∃ (key plain : Bytes) (ks : List Nat),
      ((withKey [] 0 key).writeAll plain ks).data ≠ xorImage key 0 plain ∧
      ks.sum = plain.length := by
  refine ⟨[1, 2, 4], [0, 0, 0], [1, 2], ?_, by decide⟩
  decide

/-- **C43, partial.** Missing: transfers that are split (see the two theorems above).  What holds:
if the wrapped stream transfers a whole buffer at once, `read_exact` and `write_all` give correctly
(de)ciphered data; and however a read is split, the *first* part is deciphered correctly. -/
theorem xor_first_transfer_correct_partial (key data : Bytes) (p0 n k : Nat)
    (hn : p0 + n ≤ data.length) (hk : k ≤ n) :
    let r := (withKey data p0 key).read (List.replicate n 0) k
    r.2.2 = k ∧ r.2.1.take k = ((xorImage key p0 data).drop p0).take k := by
  have hgot : ((data.drop p0).take (min k n)).length = k := by simp; omega
  have hmin : min k n = k := by omega
  simp only [XorStream.read, withKey, List.length_replicate, hgot]
  refine ⟨trivial, ?_⟩
  rw [xorBuf_take, List.take_append_of_le_length (by simp; omega), hmin, List.take_take, Nat.min_self]
  apply List.ext_getElem?
  intro j
  have hal : KeyAligned (if key.isEmpty then [0] else key) p0 0 p0 := by simp [KeyAligned]
  have hkb := keyByte_eq (key_ne key) hal j
  rw [Nat.zero_add] at hkb
  rw [xorBuf_getElem?, Nat.zero_add, hkb, keyByteAt_norm, List.getElem?_take, List.getElem?_take]
  split
  · rw [List.getElem?_drop, List.getElem?_drop, xorImage_getElem?]
  · rfl

example : (2 : Nat) + 3 ≤ ([1, 2, 3, 4, 5] : Bytes).length ∧ (2 : Nat) ≤ 3 := by decide

end Rekordcrate
