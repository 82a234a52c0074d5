import Verif.Lemmas.DString

/-! # Properties C01–C07: DeviceSQL strings -/

namespace Rekordcrate
open Rd

private theorem asciiText_iff (s : String) : isAscii s = true ↔ AsciiText s := isAscii_iff s

/-! ## C02 -/

/-- C02: `new` fails exactly for texts of more than 32767 UTF-8 bytes, and otherwise picks the
representation by ASCII-ness and length. -/
theorem string_new_accepts (s : String) :
    (32767 < (utf8 s).length → DString.new s = .err .tooLong) ∧
    ((utf8 s).length ≤ 32767 →
      (AsciiText s → (utf8 s).length ≤ 126 → DString.new s = .ok (.short (utf8 s))) ∧
      (AsciiText s → 126 < (utf8 s).length → DString.new s = .ok (.long (.ascii (utf8 s)))) ∧
      (¬ AsciiText s → DString.new s = .ok (.long (.ucs2le (encodeUtf16 s))))) := by
  unfold DString.new maxShortStr
  rw [← asciiText_iff]
  refine ⟨fun h => ?_, fun h => ⟨fun ha hl => ?_, fun ha hl => ?_, fun ha => ?_⟩⟩
  · simp only
    rw [if_neg (by omega), if_neg (by omega)]
  · simp [ha, hl]
  · simp only
    rw [if_neg (by omega), if_pos h, if_pos ha]
  · simp only
    rw [if_neg (fun hh => ha hh.1), if_pos h, if_neg ha]

/-- C02: `new_isrc` accepts exactly the empty text and ASCII texts of twelve characters. -/
theorem string_new_isrc_accepts (s : String) :
    (s = "" → DString.newIsrc s = .ok (.short [])) ∧
    (s.length = 12 ∧ AsciiText s → DString.newIsrc s = .ok (.long (.isrc (utf8 s)))) ∧
    (s ≠ "" → ¬ (s.length = 12 ∧ AsciiText s) → DString.newIsrc s = .err .invalidIsrc) := by
  have hlen : AsciiText s → (utf8 s).length = s.length := by
    intro ha
    rw [utf8_eq_flatMap, ← String.length_toList]
    unfold AsciiText at ha
    generalize s.toList = l at ha
    induction l with
    | nil => rfl
    | cons c l ih =>
      rw [List.flatMap_cons, List.length_append, ih (fun c hc => ha c (by simp [hc])),
        utf8EncodeChar_lt c (ha c (by simp))]
      simp; omega
  have hzero : (utf8 s).length = 0 ↔ s = "" := by
    constructor
    · intro h
      apply utf8_inj
      rw [List.length_eq_zero_iff] at h
      rw [h]; rfl
    · rintro rfl; rfl
  unfold DString.newIsrc
  refine ⟨fun h => ?_, fun ⟨h, ha⟩ => ?_, fun h hn => ?_⟩
  · rw [if_pos (hzero.2 h)]; rfl
  · have := hlen ha
    rw [if_neg (by omega), if_neg]
    rintro (h' | h')
    · omega
    · exact h' ((asciiText_iff s).2 ha)
  · rw [if_neg (fun h' => h (hzero.1 h')), if_pos]
    by_cases ha : AsciiText s
    · left; intro h'; exact hn ⟨by rw [← hlen ha, h'], ha⟩
    · right; exact fun h' => ha ((asciiText_iff s).1 h')

example : DString.new "Track" = .ok (.short [84, 114, 97, 99, 107]) := by decide +kernel
example : DString.new "ä" = .ok (.long (.ucs2le [0xE4])) := by decide +kernel
example : DString.newIsrc "GBAYE6700149" = .ok (.long (.isrc (utf8 "GBAYE6700149"))) := by
  decide +kernel
example : DString.newIsrc "short" = .err .invalidIsrc := by decide +kernel

/-- What `new` can return, as a case distinction. -/
private theorem new_cases {s : String} {v : DString} (h : DString.new s = .ok v) :
    (utf8 s).length ≤ 32767 ∧
    ((isAscii s = true ∧ (utf8 s).length ≤ 126 ∧ v = .short (utf8 s)) ∨
     (isAscii s = true ∧ 126 < (utf8 s).length ∧ v = .long (.ascii (utf8 s))) ∨
     (isAscii s = false ∧ v = .long (.ucs2le (encodeUtf16 s)))) := by
  unfold DString.new maxShortStr at h
  simp only at h
  split at h
  · rename_i h'; injection h with h
    exact ⟨by omega, .inl ⟨h'.1, h'.2, h.symm⟩⟩
  · rename_i h'
    split at h
    · rename_i hl
      refine ⟨hl, ?_⟩
      split at h
      · rename_i ha; injection h with h
        exact .inr (.inl ⟨ha, by simp [ha] at h'; omega, h.symm⟩)
      · rename_i ha; injection h with h
        exact .inr (.inr ⟨by simpa using ha, h.symm⟩)
    · cases h

private theorem ucs2_ne_nil {s : String} (h : isAscii s = false) : encodeUtf16 s ≠ [] := by
  intro h'
  have : s.toList = [] := by
    unfold encodeUtf16 at h'
    cases hl : s.toList with
    | nil => rfl
    | cons c l =>
      rw [hl, List.flatMap_cons] at h'
      have : 1 ≤ (utf16Char c).length := by unfold utf16Char; split <;> simp
      simp at h'
      rw [h'.1] at this
      simp at this
  have h2 : isAscii s = true := (isAscii_iff s).2 (by simp [this])
  rw [h] at h2; cases h2

/-! ## C01 -/

/-- C01 (proved part, exact): a text accepted by `new` can be written and comes back from the place
it was written to, whatever else the file holds, exactly when it is ASCII or its UTF-16 form has
at most 32765 units and does not start with a unit whose low byte is 3.
Missing from the full property: the excluded texts, for which it is false. -/
theorem string_text_roundtrip_partial {s : String} {v : DString} (h : DString.new s = .ok v) :
    (∃ bs, v.enc = .ok bs ∧ ∀ d p, HasAt d p bs →
        ∃ v', DString.read d p = .ok (v', p + bs.length) ∧ v'.intoString = .ok s) ↔
      (AsciiText s ∨
        ((encodeUtf16 s).length ≤ 32765 ∧ ¬ StartsLikeIsrc (encodeUtf16 s))) := by
  rw [← asciiText_iff]
  obtain ⟨hlen, ⟨ha, hl, rfl⟩ | ⟨ha, hl, rfl⟩ | ⟨ha, rfl⟩⟩ := new_cases h
  · simp only [ha, true_or, iff_true]
    obtain ⟨bs, he, hr⟩ := DString.storable_rt (v := .short (utf8 s)) (by simpa [DString.Storable] using hl)
    exact ⟨bs, he, fun d p hd => ⟨_, hr d p hd, by simp [DString.intoString, fromUtf8_utf8, Res.ofOption]⟩⟩
  · simp only [ha, true_or, iff_true]
    obtain ⟨bs, he, hr⟩ := DString.storable_rt (v := .long (.ascii (utf8 s)))
      (by simp only [DString.Storable]; omega)
    exact ⟨bs, he, fun d p hd => ⟨_, hr d p hd, by simp [DString.intoString, fromUtf8_utf8, Res.ofOption]⟩⟩
  · simp only [ha, Bool.false_eq_true, false_or]
    constructor
    · rintro ⟨bs, he, hr⟩
      have hbs := DString.enc_eq_ok he
      rcases hbs with ⟨c, hc, -⟩ | ⟨b, hb, hl, hbs⟩
      · cases hc
      injection hb with hb
      subst hb
      refine ⟨?_, fun h3 => ?_⟩
      · simp only [LongBody.enc, flatMap_encU16_length] at hl; omega
      · obtain ⟨v', hv', hs⟩ := hr (bs ++ [0]) 0 (HasAt.append_iff.1 (hasAt_self _)).1
        exact DString.ucs2_misread h3 he hv' hs (by simp)
    · rintro ⟨hl, h3⟩
      obtain ⟨bs, he, hr⟩ := DString.storable_rt (v := .long (.ucs2le (encodeUtf16 s)))
        ⟨ucs2_ne_nil ha, hl, h3⟩
      exact ⟨bs, he, fun d p hd => ⟨_, hr d p hd, by
        simp [DString.intoString, fromUtf16_encodeUtf16, Res.ofOption]⟩⟩

/-- C01 is false in full: the text "七a" is accepted and written, and read back as "Na". -/
theorem string_text_roundtrip_fails :
    ∃ (s : String) (v : DString) (bs : Bytes), DString.new s = .ok v ∧ v.enc = .ok bs ∧
      ∃ v', DString.read bs 0 = .ok (v', bs.length) ∧ v'.intoString = .ok "Na" ∧ s ≠ "Na" :=
  ⟨"七a", .long (.ucs2le [0x4E03, 0x61]), [0x90, 8, 0, 0, 3, 0x4E, 0x61, 0], by decide +kernel,
    by decide +kernel, .long (.isrc [0x4E, 0x61]), by decide +kernel, by decide +kernel,
    by decide +kernel⟩

example : DString.new "Größe" = .ok (.long (.ucs2le (encodeUtf16 "Größe"))) ∧
    (encodeUtf16 "Größe").length ≤ 32765 ∧ (encodeUtf16 "Größe").head? = some 0x47 := by
  decide +kernel

/-! ## C03 -/

/-- C03 (proved part, exact): for an accepted text, writing and `heap_bytes_required` both succeed,
or both panic, and they panic exactly for non-ASCII texts whose UTF-16 form has more than 32765
units.  Missing from the full property: those texts. -/
theorem string_write_no_panic_partial {s : String} {v : DString} (h : DString.new s = .ok v) :
    (AsciiText s ∨ (encodeUtf16 s).length ≤ 32765 →
      (∃ bs, v.enc = .ok bs) ∧ ∃ n, v.heapBytes = .ok n) ∧
    (¬ AsciiText s ∧ 32765 < (encodeUtf16 s).length → v.enc = .panic ∧ v.heapBytes = .panic) := by
  rw [← asciiText_iff]
  have long_ok : ∀ b : LongBody, b.enc.length + 4 < 65536 →
      (∃ bs, (DString.long b).enc = .ok bs) ∧ ∃ n, (DString.long b).heapBytes = .ok n := fun b hb =>
    ⟨⟨_, DString.enc_long (LongBody.byteCount_ok (by omega)) hb⟩,
      ⟨_, DString.heapBytes_long (LongBody.byteCount_ok (by omega)) hb⟩⟩
  obtain ⟨hlen, ⟨ha, hl, rfl⟩ | ⟨ha, hl, rfl⟩ | ⟨ha, rfl⟩⟩ := new_cases h
  · simp only [ha, true_or, not_true, false_and, false_implies, and_true, forall_const]
    refine ⟨⟨_, rfl⟩, ⟨1 + (utf8 s).length % 65536, ?_⟩⟩
    simp only [DString.heapBytes, addU16]
    rw [if_pos (by omega)]
  · simp only [ha, true_or, not_true, false_and, false_implies, and_true, forall_const]
    exact long_ok _ (by simp only [LongBody.enc]; omega)
  · simp only [ha, Bool.false_eq_true, false_or, not_false_eq_true, true_and]
    refine ⟨fun hl => long_ok _ (by simp only [LongBody.enc, flatMap_encU16_length]; omega), fun hl => ?_⟩
    have hp : ∀ n, (LongBody.ucs2le (encodeUtf16 s)).byteCount = .ok n → 65536 ≤ n + 4 := by
      intro n hn
      have := LongBody.byteCount_eq_ok hn
      simp only [LongBody.enc, flatMap_encU16_length] at this
      omega
    exact ⟨DString.enc_long_panic hp, DString.heapBytes_long_panic hp⟩

/-- C03, a sufficient condition in terms of the input only: every text of at most 32766 UTF-8 bytes
can be written (so exactly one accepted length, 32767 bytes, is problematic). -/
theorem string_write_no_panic_of_length_partial {s : String} {v : DString}
    (h : DString.new s = .ok v) (hl : (utf8 s).length ≤ 32766) :
    (∃ bs, v.enc = .ok bs) ∧ ∃ n, v.heapBytes = .ok n := by
  apply (string_write_no_panic_partial h).1
  rw [← asciiText_iff]
  cases ha : isAscii s with
  | true => exact .inl rfl
  | false => right; have := encodeUtf16_length_lt s ha; omega

/-- C03 for `new_isrc`: never a panic. -/
theorem isrc_write_no_panic {s : String} {v : DString} (h : DString.newIsrc s = .ok v) :
    (∃ bs, v.enc = .ok bs) ∧ ∃ n, v.heapBytes = .ok n := by
  unfold DString.newIsrc at h
  split at h
  · injection h with h; subst h; exact ⟨⟨_, rfl⟩, ⟨_, rfl⟩⟩
  · split at h
    · cases h
    · rename_i _ hc
      injection h with h; subst h
      have hl : (utf8 s).length = 12 := by
        apply Classical.byContradiction; intro hn; exact hc (.inl hn)
      have hb : (LongBody.isrc (utf8 s)).enc.length + 4 < 65536 := by
        simp [LongBody.enc, encNullString, hl]
      exact ⟨⟨_, DString.enc_long (LongBody.byteCount_ok (by omega)) hb⟩,
        ⟨_, DString.heapBytes_long (LongBody.byteCount_ok (by omega)) hb⟩⟩

private theorem longText (n : Nat) :
    (utf8 (String.ofList ('é' :: List.replicate n 'a'))).length = n + 2 ∧
    (encodeUtf16 (String.ofList ('é' :: List.replicate n 'a'))).length = n + 1 ∧
    ¬ AsciiText (String.ofList ('é' :: List.replicate n 'a')) := by
  have h8 : ∀ n, ((List.replicate n 'a').flatMap String.utf8EncodeChar).length = n := by
    intro n; induction n with
    | zero => rfl
    | succ n ih =>
      rw [List.replicate_succ, List.flatMap_cons, List.length_append, ih,
        show (String.utf8EncodeChar 'a').length = 1 by decide]; omega
  have h16 : ∀ n, ((List.replicate n 'a').flatMap utf16Char).length = n := by
    intro n; induction n with
    | zero => rfl
    | succ n ih =>
      rw [List.replicate_succ, List.flatMap_cons, List.length_append, ih,
        show (utf16Char 'a').length = 1 by decide]; omega
  refine ⟨?_, ?_, ?_⟩
  · rw [utf8_eq_flatMap, String.toList_ofList, List.flatMap_cons, List.length_append, h8,
      show (String.utf8EncodeChar 'é').length = 2 by decide]; omega
  · rw [encodeUtf16, String.toList_ofList, List.flatMap_cons, List.length_append, h16,
      show (utf16Char 'é').length = 1 by decide]; omega
  · intro h
    have := h 'é' (by rw [String.toList_ofList]; exact List.mem_cons_self)
    revert this; decide

/-- C03 is false in full: 'é' followed by 32765 times 'a' is accepted but can neither be written nor
measured. -/
theorem string_write_panics :
    ∃ (s : String) (v : DString), DString.new s = .ok v ∧ v.enc = .panic ∧ v.heapBytes = .panic := by
  obtain ⟨h8, h16, hna⟩ := longText 32765
  have hn := ((string_new_accepts _).2 (by omega)).2.2 hna
  exact ⟨_, _, hn, (string_write_no_panic_partial hn).2 ⟨hna, by omega⟩⟩

/-! ## C04 -/

/-- C04: for every value that constructors or the parser can produce and that can be written,
`heap_bytes_required` is the number of bytes written. -/
theorem string_heap_bytes_eq_written {v : DString} (hv : v.Reachable) {bs : Bytes}
    (he : v.enc = .ok bs) : v.heapBytes = .ok bs.length := by
  rcases DString.enc_eq_ok he with ⟨c, rfl, rfl⟩ | ⟨b, rfl, hl, rfl⟩
  · have hc : c.length ≤ 32767 := by
      cases hv with
      | new s v h =>
        obtain ⟨hlen, ⟨_, _, hh⟩ | ⟨_, _, hh⟩ | ⟨_, hh⟩⟩ := new_cases h
        · injection hh with hh; rw [hh]; exact hlen
        · cases hh
        · cases hh
      | newIsrc s v h =>
        unfold DString.newIsrc at h
        split at h
        · injection h with h; injection h with h; rw [← h]; simp
        · split at h
          · cases h
          · injection h with h; cases h
      | parsed d p p' v h =>
        obtain ⟨bs, _, _, hp⟩ := DString.read_inv _ _ _ _ h
        cases hp with
        | short c h => omega
    simp only [DString.heapBytes, addU16]
    rw [if_pos (by omega)]
    simp; omega
  · rw [DString.heapBytes_long (LongBody.byteCount_ok (by omega)) hl]
    simp [longBytes]; omega

example : (DString.short [72, 105]).Reachable ∧ (DString.short [72, 105]).enc = .ok [7, 72, 105] :=
  ⟨.new "Hi" _ (by decide +kernel), by decide +kernel⟩
example : (DString.long (.isrc [0x4E, 0x61])).Reachable :=
  .parsed [0x90, 8, 0, 0, 3, 0x4E, 0x61, 0] 0 8 _ (by decide +kernel)

/-! ## C05 -/

/-- C05 (proved part, exact): the parser panics exactly when the first byte is 1, or the first byte
is even and the 16-bit length behind it is below 4.  Missing from the full property: those inputs. -/
theorem string_parser_panic_partial (d : Bytes) (p : Nat) :
    DString.read d p = .panic ↔
      d[p]? = some 1 ∨ ∃ b n, d[p]? = some b ∧ b.toNat % 2 = 0 ∧ U16At d (p + 1) n ∧ n < 4 := by
  unfold DString.read Rd.orElse
  cases hs : DString.readShort d p with
  | ok r =>
    simp only [reduceCtorEq, false_iff]
    obtain ⟨b, hb, ho⟩ := DString.readShort_ok_odd hs
    rintro (h | ⟨b', n, h, he, _⟩)
    · rw [(DString.readShort_panic_iff d p).2 h] at hs; cases hs
    · rw [hb] at h; injection h with h; subst h; omega
  | panic =>
    simp only [true_iff]
    exact .inl ((DString.readShort_panic_iff d p).1 hs)
  | err e =>
    simp only [DString.readLong_panic_iff]
    constructor
    · exact .inr
    · rintro (h | h)
      · rw [(DString.readShort_panic_iff d p).2 h] at hs; cases hs
      · exact h

/-- C05 is false in full: the single byte 1 makes the parser panic. -/
theorem string_parser_panics : DString.read [1] 0 = .panic := by decide +kernel

/-- C05 (proved part): a parsed long string other than an ISRC consumed exactly the declared number
of bytes.  Missing: ISRC strings, whose declared length is ignored. -/
theorem string_parser_consumes_declared_partial {d : Bytes} {p p' : Nat} {b : LongBody}
    (h : DString.read d p = .ok (.long b, p')) (hi : ¬ (DString.long b).IsIsrc) :
    ∃ n, U16At d (p + 1) n ∧ p' = p + n := by
  obtain ⟨bs, hb, rfl, hp⟩ := DString.read_inv _ _ _ _ h
  have key : ∀ (f : UInt8) (n : Nat) (body : Bytes), n < 65536 → HasAt d p (longBytes f n body) →
      U16At d (p + 1) n := by
    intro f n body hn hd
    have h2 : HasAt d (p + 1) (encU16 (UInt16.ofNat n)) := by
      unfold longBytes at hd
      rw [HasAt.append_iff, HasAt.append_iff] at hd
      exact hd.2.1
    have := (u16_ok_iff.1 (RT.u16 _ d _ h2)).1
    rwa [encU16_ofNat_of_lt hn] at this
  cases hp with
  | ascii c hc => exact ⟨_, key _ _ _ (by omega) hb, by simp [longBytes]; omega⟩
  | ucs2le us hu =>
    refine ⟨_, key _ _ _ (by omega) hb, ?_⟩
    simp only [longBytes, List.length_append, List.length_cons, List.length_nil, encU16_length,
      flatMap_encU16_length]
    omega
  | isrc c len h4 hl h0 => exact absurd trivial hi

/-- C05 is false in full for the declared length, too: an ISRC of declared length 4 consumes seven
bytes. -/
theorem string_parser_overruns :
    DString.read [0x90, 4, 0, 0, 3, 65, 0] 0 = .ok (.long (.isrc [65]), 7) := by decide +kernel

example : DString.read [0x40, 6, 0, 0, 72, 105, 9] 0 = .ok (.long (.ascii [72, 105]), 6) := by
  decide +kernel

/-! ## C06 -/

/-- C06 (proved part): a parsed string that is not an ISRC is written back as exactly the bytes it
was parsed from; an ISRC is, when its declared length is the number of bytes it consumed.
Missing: ISRC strings with another declared length. -/
theorem string_parse_write_identity_partial {d : Bytes} {p p' : Nat} {v : DString}
    (h : DString.read d p = .ok (v, p')) (hi : v.IsIsrc → ∃ n, U16At d (p + 1) n ∧ p' = p + n) :
    ∃ bs, v.enc = .ok bs ∧ HasAt d p bs ∧ p' = p + bs.length := by
  obtain ⟨bs, hb, rfl, hp⟩ := DString.read_inv _ _ _ _ h
  refine ⟨bs, ?_, hb, rfl⟩
  cases hp with
  | isrc c len h4 hl h0 =>
    obtain ⟨n, hn, hpn⟩ := hi trivial
    have h2 : HasAt d (p + 1) (encU16 (UInt16.ofNat len)) := by
      unfold longBytes at hb
      rw [HasAt.append_iff, HasAt.append_iff] at hb
      exact hb.2.1
    have hu := (u16_ok_iff.1 (RT.u16 _ d _ h2)).1
    rw [encU16_ofNat_of_lt hl] at hu
    have hnl : n = len := by
      clear h2
      obtain ⟨a, b, h1, h2, rfl⟩ := hn
      obtain ⟨a', b', h1', h2', rfl⟩ := hu
      rw [h1] at h1'; rw [h2] at h2'
      injection h1' with h1'; injection h2' with h2'
      rw [h1', h2']
    subst hnl
    have hlen : n = (LongBody.isrc c).enc.length + 4 := by
      simp only [longBytes, List.length_append, List.length_cons, List.length_nil, encU16_length,
        encNullString] at hpn
      simp [LongBody.enc, encNullString]; omega
    have := DString.enc_long (LongBody.byteCount_ok (b := .isrc c) (by omega)) (by omega)
    rw [this, hlen]; rfl
  | short c hc => exact DString.ParsedAs.enc_eq (.short c hc) (by simp)
  | ascii c hc => exact DString.ParsedAs.enc_eq (.ascii c hc) (by simp)
  | ucs2le c hc => exact DString.ParsedAs.enc_eq (.ucs2le c hc) (by simp)

/-- C06 is false in full: an ISRC with a wrong declared length is written with the right one. -/
theorem string_parse_write_differs :
    DString.read [0x90, 4, 0, 0, 3, 65, 0] 0 = .ok (.long (.isrc [65]), 7) ∧
      (DString.long (.isrc [65])).enc = .ok [0x90, 7, 0, 0, 3, 65, 0] := by decide +kernel

/-! ## C07 -/

/-- The stored bytes of an ASCII string (short or long). -/
def DString.asciiBytes : DString → Option Bytes
  | .short c => some c
  | .long (.ascii c) => some c
  | _ => none

/-- C07 (proved part, exact): displaying panics exactly when the value is stored as ASCII but its
bytes are not UTF-8.  When `into_string` succeeds, `Display` shows the same text.
Missing from the full property: parsed ASCII strings with bytes that are not UTF-8. -/
theorem string_display_partial (lossy : Bytes → String) (v : DString) :
    (v.display lossy = .panic ↔ ∃ c, v.asciiBytes = some c ∧ fromUtf8 c = none) ∧
    (∀ s, v.intoString = .ok s → v.display lossy = .ok s) := by
  rcases v with c | (c | c | us) <;>
    simp only [DString.display, DString.intoString, DString.asciiBytes, Res.ofOption]
  · cases h : fromUtf8 c <;> simp [h]
  · cases h : fromUtf8 c <;> simp [h]
  · cases h : fromUtf8 c <;> simp [h]
  · refine ⟨by simp, fun s => ?_⟩
    cases h : fromUtf16 us with
    | none => simp
    | some t => intro ht; injection ht with ht; subst ht; rw [fromUtf16Lossy_of_fromUtf16 h]

/-- C07 for constructed values: the display is the original text. -/
theorem string_display_constructed (lossy : Bytes → String) {s : String} {v : DString}
    (h : DString.new s = .ok v ∨ DString.newIsrc s = .ok v) : v.display lossy = .ok s := by
  apply (string_display_partial lossy v).2
  rcases h with h | h
  · obtain ⟨hlen, ⟨ha, hl, rfl⟩ | ⟨ha, hl, rfl⟩ | ⟨ha, rfl⟩⟩ := new_cases h
    · simp [DString.intoString, fromUtf8_utf8, Res.ofOption]
    · simp [DString.intoString, fromUtf8_utf8, Res.ofOption]
    · simp [DString.intoString, fromUtf16_encodeUtf16, Res.ofOption]
  · unfold DString.newIsrc at h
    split at h
    · rename_i hl
      injection h with h; subst h
      have : utf8 s = [] := by simpa using hl
      have h2 := fromUtf8_utf8 s
      rw [this] at h2
      simp [DString.intoString, DString.empty, h2, Res.ofOption]
    · split at h
      · cases h
      · injection h with h; subst h
        simp [DString.intoString, fromUtf8_utf8, Res.ofOption]

/-- C07 is false in full: the two bytes 05 FF parse as a string whose display panics. -/
theorem string_display_panics (lossy : Bytes → String) :
    ∃ v, DString.read [5, 0xFF] 0 = .ok (v, 2) ∧ v.display lossy = .panic := by
  refine ⟨.short [0xFF], by decide +kernel, ?_⟩
  have : fromUtf8 [0xFF] = none := by decide +kernel
  simp [DString.display, this]

end Rekordcrate
