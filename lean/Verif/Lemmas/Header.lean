import Verif.Lemmas.Io
import Verif.Model.Util
import Verif.Model.Bitfields
import Verif.Spec.Header

/-! # Helper lemmas for bit fields, page types, tables and headers -/

namespace Rekordcrate
open Rd

/-! ## Bit fields -/

theorem PackedRowCounts.raw_eq (c : PackedRowCounts) :
    packLSB [(13, c.numRows.val), (11, c.numRowsValid.val)] =
      c.numRows.val + 8192 * c.numRowsValid.val := by
  have h1 := c.numRows.isLt
  have h2 := c.numRowsValid.isLt
  simp only [packLSB]
  omega

theorem PackedRowCounts.enc_eq (c : PackedRowCounts) :
    c.enc = leEnc 3 (c.numRows.val + 8192 * c.numRowsValid.val) := by
  unfold enc; rw [raw_eq]

@[simp] theorem PackedRowCounts.enc_length (c : PackedRowCounts) : c.enc.length = 3 := by
  simp [enc]

theorem PackedRowCounts.ofRaw_eq (x : Nat) :
    PackedRowCounts.ofRaw x = ⟨Fin.ofNat 8192 x, Fin.ofNat 2048 (x / 8192)⟩ := by
  simp only [ofRaw, unpackLSB]
  congr 1 <;> apply Fin.ext <;> simp [Fin.ofNat]

theorem PackedRowCounts.ofRaw_raw (c : PackedRowCounts) :
    PackedRowCounts.ofRaw (c.numRows.val + 8192 * c.numRowsValid.val) = c := by
  rw [ofRaw_eq]
  have h1 := c.numRows.isLt
  have h2 := c.numRowsValid.isLt
  obtain ⟨⟨a, ha⟩, ⟨b, hb⟩⟩ := c
  simp only [Fin.ofNat] at *
  congr 2 <;> omega

theorem PackedRowCounts.rt (c : PackedRowCounts) : RT PackedRowCounts.read c.enc c := by
  unfold PackedRowCounts.read
  have := RT.bind_pure (f := fun bs => PackedRowCounts.ofRaw (leDec bs))
    (RT.bytes' (n := 3) c.enc_length)
  rw [show PackedRowCounts.ofRaw (leDec c.enc) = c from ?_] at this
  · exact this
  · have h1 := c.numRows.isLt
    have h2 := c.numRowsValid.isLt
    rw [enc_eq, leDec_leEnc, Nat.mod_eq_of_lt (by omega), ofRaw_raw]

theorem PackedRowCounts.enc_ofRaw {bs : Bytes} (h : bs.length = 3) :
    (PackedRowCounts.ofRaw (leDec bs)).enc = bs := by
  have hlt := leDec_lt bs
  have he := leEnc_leDec bs
  rw [h] at hlt he
  rw [ofRaw_eq, enc_eq]
  simp only [Fin.ofNat]
  rw [show leDec bs % 8192 + 8192 * (leDec bs / 8192 % 2048) = leDec bs by omega, he]

theorem PackedRowCounts.inv : Inv PackedRowCounts.read (fun c bs => bs = c.enc) := by
  unfold PackedRowCounts.read
  refine (Inv.bind_pure (Inv.bytes 3)).mono ?_
  rintro c bs ⟨a, rfl, rfl, hl⟩
  rw [enc_ofRaw hl]

theorem PackedRowCounts.np : NP PackedRowCounts.read := NP.bind (NP.bytes 3) fun _ => NP.pure _

@[simp] theorem PageFlags.enc_length (f : PageFlags) : f.enc.length = 1 := by simp [enc]

theorem PageFlags.ofRaw_enc (f : PageFlags) : PageFlags.ofRaw (leDec f.enc) = f := by
  obtain ⟨a, b, c, d, e, f, g, h⟩ := f
  revert a b c d e f g h
  decide +kernel

theorem PageFlags.enc_ofRaw8 : ∀ b : Fin 256, (PageFlags.ofRaw b.val).enc = [UInt8.ofNat b.val] := by
  decide +kernel

theorem PageFlags.enc_ofRaw {bs : Bytes} (h : bs.length = 1) :
    (PageFlags.ofRaw (leDec bs)).enc = bs := by
  match bs, h with
  | [b], _ =>
    have := PageFlags.enc_ofRaw8 ⟨b.toNat, b.toNat_lt⟩
    simpa [leDec] using this

theorem PageFlags.rt (f : PageFlags) : RT PageFlags.read f.enc f := by
  unfold PageFlags.read
  have := RT.bind_pure (f := fun bs => PageFlags.ofRaw (leDec bs)) (RT.bytes' (n := 1) f.enc_length)
  rw [PageFlags.ofRaw_enc] at this
  exact this

theorem PageFlags.inv : Inv PageFlags.read (fun c bs => bs = c.enc) := by
  unfold PageFlags.read
  refine (Inv.bind_pure (Inv.bytes 1)).mono ?_
  rintro c bs ⟨a, rfl, rfl, hl⟩
  rw [PageFlags.enc_ofRaw hl]

theorem PageFlags.np : NP PageFlags.read := NP.bind (NP.bytes 1) fun _ => NP.pure _

/-! ## Enums -/

theorem encU32_inj {a b : UInt32} (h : encU32 a = encU32 b) : a = b := by
  have h' := congrArg leDec h
  simp only [encU32, leDec_leEnc] at h'
  have ha := a.toNat_lt
  have hb := b.toNat_lt
  rw [Nat.mod_eq_of_lt (by omega), Nat.mod_eq_of_lt (by omega)] at h'
  exact UInt32.toNat_inj.1 h'

theorem encU16_inj {a b : UInt16} (h : encU16 a = encU16 b) : a = b := by
  have h' := congrArg leDec h
  simp only [encU16, leDec_leEnc] at h'
  have ha := a.toNat_lt
  have hb := b.toNat_lt
  rw [Nat.mod_eq_of_lt (by omega), Nat.mod_eq_of_lt (by omega)] at h'
  exact UInt16.toNat_inj.1 h'

theorem ColorIndex.rt (c : ColorIndex) : RT ColorIndex.read c.enc c := by
  apply RT.magicEnum
  · simp [ColorIndex.enc]
  · cases c <;> decide +kernel

theorem ColorIndex.inv : Inv ColorIndex.read (fun c bs => bs = c.enc) :=
  (Inv.magicEnum _).mono fun c bs h => by
    simp only [List.mem_map, Prod.mk.injEq] at h
    obtain ⟨x, _, rfl, rfl⟩ := h; rfl

theorem ColorIndex.np : NP ColorIndex.read := NP.magicEnum _

@[simp] theorem ColorIndex.enc_length (c : ColorIndex) : c.enc.length = 1 := rfl
@[simp] theorem FileType.enc_length (c : FileType) : c.enc.length = 2 := by simp [FileType.enc]

/-- File types as read: `Other` never carries a known code. -/
def FileType.known : List FileType := [unknown, mp3, m4a, flac, wav, aiff]

theorem FileType.inv : Inv FileType.read (fun c bs => bs = c.enc) := by
  refine Inv.orElse ((Inv.magicEnum _).mono fun c bs h => ?_) ?_
  · simp only [List.mem_map, Prod.mk.injEq] at h
    obtain ⟨x, _, rfl, rfl⟩ := h; rfl
  · refine (Inv.bind_pure Inv.u16).mono ?_
    rintro _ _ ⟨a, rfl, rfl⟩; rfl

theorem FileType.np : NP FileType.read :=
  NP.orElse (NP.magicEnum _) (NP.bind NP.u16 fun _ => NP.pure _)

theorem FileType.rt (c : FileType) (hc : ∀ v, c = .other v → ∀ t ∈ FileType.known, t.code ≠ v) :
    RT FileType.read c.enc c := by
  unfold FileType.read
  by_cases hk : c ∈ FileType.known
  · apply RT.orElse_left
    apply RT.magicEnum
    · simp
    · cases c <;> first | (simp [FileType.known] at hk; done) | decide +kernel
  · cases c with
    | other v =>
      have hv := hc v rfl
      apply RT.orElse_right
      · intro d p hd
        rw [magicEnum_of_hasAt (by simp) hd]
        rw [List.find?_eq_none.2]
        · exact ⟨_, rfl⟩
        · intro e he
          simp only [List.mem_map] at he
          obtain ⟨t, ht, rfl⟩ := he
          simp only [beq_iff_eq]
          intro h
          exact hv t ht (encU16_inj h)
      · exact RT.bind_pure (RT.u16 v)
    | _ => simp [FileType.known] at hk

/-! ## Page types -/

@[simp] theorem PlainPageType.enc_length (t : PlainPageType) : t.enc.length = 4 := by
  simp [PlainPageType.enc]
@[simp] theorem ExtPageType.enc_length (t : ExtPageType) : t.enc.length = 4 := by
  simp [ExtPageType.enc]
@[simp] theorem PageType.enc_length (t : PageType) : t.enc.length = 4 := by
  cases t <;> simp [PageType.enc]

theorem PlainPageType.rt (t : PlainPageType) : RT PlainPageType.read t.enc t := by
  apply RT.magicEnum
  · simp
  · cases t <;> decide +kernel

theorem ExtPageType.rt (t : ExtPageType) : RT ExtPageType.read t.enc t := by
  apply RT.magicEnum
  · simp
  · cases t <;> decide +kernel

theorem PlainPageType.inv : Inv PlainPageType.read (fun c bs => bs = c.enc) :=
  (Inv.magicEnum _).mono fun c bs h => by
    simp only [List.mem_map, Prod.mk.injEq] at h
    obtain ⟨x, _, rfl, rfl⟩ := h; rfl

theorem ExtPageType.inv : Inv ExtPageType.read (fun c bs => bs = c.enc) :=
  (Inv.magicEnum _).mono fun c bs h => by
    simp only [List.mem_map, Prod.mk.injEq] at h
    obtain ⟨x, _, rfl, rfl⟩ := h; rfl

theorem PageType.inv (db : DatabaseType) : Inv (PageType.read db) (fun c bs => bs = c.enc) := by
  refine Inv.orElse ?_ (Inv.orElse ?_ ?_)
  · refine Inv.bind (Inv.require _ _) ?_
    rintro _ _ ⟨_, rfl⟩
    refine (Inv.bind_pure PlainPageType.inv).mono ?_
    rintro _ _ ⟨a, rfl, rfl⟩; rfl
  · refine Inv.bind (Inv.require _ _) ?_
    rintro _ _ ⟨_, rfl⟩
    refine (Inv.bind_pure ExtPageType.inv).mono ?_
    rintro _ _ ⟨a, rfl, rfl⟩; rfl
  · refine (Inv.bind_pure Inv.u32).mono ?_
    rintro _ _ ⟨a, rfl, rfl⟩; rfl

theorem PageType.np (db : DatabaseType) : NP (PageType.read db) :=
  NP.orElse (NP.bind (NP.require _ _) fun _ => NP.bind (NP.magicEnum _) fun _ => NP.pure _)
    (NP.orElse (NP.bind (NP.require _ _) fun _ => NP.bind (NP.magicEnum _) fun _ => NP.pure _)
      (NP.bind NP.u32 fun _ => NP.pure _))

theorem lookup_eq_none_iff_not_mem {α : Type} (l : List (Nat × α)) (n : Nat) :
    l.lookup n = none ↔ ∀ e ∈ l, e.1 ≠ n := by
  induction l with
  | nil => simp
  | cons e l ih =>
    obtain ⟨a, b⟩ := e
    by_cases h : n = a
    · subst h; simp
    · rw [List.lookup_cons, show (n == a) = false by simpa using h]
      simp only [ih, List.mem_cons, forall_eq_or_imp]
      constructor
      · intro h'; exact ⟨fun h'' => h h''.symm, h'⟩
      · exact fun h' => h'.2

theorem mem_of_lookup {α : Type} {l : List (Nat × α)} {n : Nat} {a : α} (h : l.lookup n = some a) :
    (n, a) ∈ l := by
  induction l with
  | nil => simp at h
  | cons e l ih =>
    obtain ⟨k, b⟩ := e
    rw [List.lookup_cons] at h
    split at h
    · rename_i hk
      simp at hk h
      simp [hk, h]
    · exact List.mem_cons_of_mem _ (ih h)

theorem plainPageCodes_code : ∀ e ∈ plainPageCodes, e.2.code.toNat = e.1 := by decide +kernel
theorem extPageCodes_code : ∀ e ∈ extPageCodes, e.2.code.toNat = e.1 := by decide +kernel
theorem plainPageCodes_all : ∀ t ∈ PlainPageType.all, (t.code.toNat, t) ∈ plainPageCodes := by
  decide +kernel
theorem extPageCodes_all : ∀ t ∈ ExtPageType.all, (t.code.toNat, t) ∈ extPageCodes := by
  decide +kernel

theorem pageTypeOfCode_enc (db : DatabaseType) (c : UInt32) :
    (pageTypeOfCode db c).enc = encU32 c := by
  cases db with
  | plain =>
    unfold pageTypeOfCode
    simp only
    split
    · rename_i t h
      have := plainPageCodes_code _ (mem_of_lookup h)
      simp only [PageType.enc, PlainPageType.enc]
      rw [UInt32.toNat_inj.1 this]
    · rfl
  | ext =>
    unfold pageTypeOfCode
    simp only
    split
    · rename_i t h
      have := extPageCodes_code _ (mem_of_lookup h)
      simp only [PageType.enc, ExtPageType.enc]
      rw [UInt32.toNat_inj.1 this]
    · rfl

theorem plain_read_err {c : UInt32} (h : plainPageCodes.lookup c.toNat = none) (d : Bytes) (p : Nat)
    (hd : HasAt d p (encU32 c)) : ∃ e, PlainPageType.read d p = .err e := by
  unfold PlainPageType.read
  rw [magicEnum_of_hasAt (by simp) hd, List.find?_eq_none.2]
  · exact ⟨_, rfl⟩
  · intro e he
    simp only [List.mem_map] at he
    obtain ⟨t, ht, rfl⟩ := he
    simp only [beq_iff_eq, PlainPageType.enc]
    intro h'
    have := encU32_inj h'
    exact (lookup_eq_none_iff_not_mem _ _).1 h _ (plainPageCodes_all t ht) (by rw [this])

theorem ext_read_err {c : UInt32} (h : extPageCodes.lookup c.toNat = none) (d : Bytes) (p : Nat)
    (hd : HasAt d p (encU32 c)) : ∃ e, ExtPageType.read d p = .err e := by
  unfold ExtPageType.read
  rw [magicEnum_of_hasAt (by simp) hd, List.find?_eq_none.2]
  · exact ⟨_, rfl⟩
  · intro e he
    simp only [List.mem_map] at he
    obtain ⟨t, ht, rfl⟩ := he
    simp only [beq_iff_eq, ExtPageType.enc]
    intro h'
    have := encU32_inj h'
    exact (lookup_eq_none_iff_not_mem _ _).1 h _ (extPageCodes_all t ht) (by rw [this])

theorem require_false_err {β : Type} {e : Err} {b : Bool} (hb : b = false) (f : Unit → Rd β)
    (d : Bytes) (p : Nat) : (Rd.require b e >>= f) d p = .err e := by
  subst hb; rfl

theorem require_true_bind {β : Type} {e : Err} {b : Bool} (hb : b = true) (f : Unit → Rd β) :
    (Rd.require b e >>= f) = f () := by
  subst hb; rfl

theorem PageType.rt_code (db : DatabaseType) (c : UInt32) :
    RT (PageType.read db) (encU32 c) (pageTypeOfCode db c) := by
  unfold PageType.read
  cases db with
  | plain =>
    rw [require_true_bind (by decide)]
    cases h : plainPageCodes.lookup c.toNat with
    | some t =>
      apply RT.orElse_left
      have := plainPageCodes_code _ (mem_of_lookup h)
      have e : encU32 c = t.enc := by rw [PlainPageType.enc, UInt32.toNat_inj.1 this]
      have e2 : pageTypeOfCode .plain c = .plain t := by simp [pageTypeOfCode, h]
      rw [e, e2]
      exact RT.bind_pure t.rt
    | none =>
      have e2 : pageTypeOfCode .plain c = .unknown c := by simp [pageTypeOfCode, h]
      rw [e2]
      apply RT.orElse_right
      · intro d p hd
        obtain ⟨e, he⟩ := plain_read_err h d p hd
        exact ⟨e, bind_of_err he⟩
      · apply RT.orElse_right
        · intro d p hd
          exact ⟨_, require_false_err (by decide) _ d p⟩
        · exact RT.bind_pure (RT.u32 c)
  | ext =>
    apply RT.orElse_right
    · intro d p hd
      exact ⟨_, require_false_err (by decide) _ d p⟩
    rw [require_true_bind (by decide)]
    cases h : extPageCodes.lookup c.toNat with
    | some t =>
      apply RT.orElse_left
      have := extPageCodes_code _ (mem_of_lookup h)
      have e : encU32 c = t.enc := by rw [ExtPageType.enc, UInt32.toNat_inj.1 this]
      have e2 : pageTypeOfCode .ext c = .ext t := by simp [pageTypeOfCode, h]
      rw [e, e2]
      exact RT.bind_pure t.rt
    | none =>
      have e2 : pageTypeOfCode .ext c = .unknown c := by simp [pageTypeOfCode, h]
      rw [e2]
      apply RT.orElse_right
      · intro d p hd
        obtain ⟨e, he⟩ := ext_read_err h d p hd
        exact ⟨e, bind_of_err he⟩
      · exact RT.bind_pure (RT.u32 c)

theorem PageType.rt (db : DatabaseType) (t : PageType) (h : t.ValidFor db) :
    RT (PageType.read db) t.enc t := by
  obtain ⟨c, rfl⟩ := h
  rw [pageTypeOfCode_enc]
  exact PageType.rt_code db c

/-- What is read as a page type is valid for the kind of database. -/
theorem PageType.read_valid {db : DatabaseType} {d : Bytes} {p p' : Nat} {t : PageType}
    (h : PageType.read db d p = .ok (t, p')) : t.ValidFor db := by
  obtain ⟨bs, hd, hp, hb⟩ := PageType.inv db d p t p' h
  have hl : bs.length = 4 := by rw [hb]; simp
  obtain ⟨c, hc⟩ : ∃ c : UInt32, bs = encU32 c := by
    refine ⟨UInt32.ofNat (leDec bs), ?_⟩
    have hlt := leDec_lt bs
    have := leEnc_leDec bs
    rw [hl] at hlt this
    rw [encU32, UInt32.toNat_ofNat', Nat.mod_eq_of_lt (by simpa using hlt), this]
  rw [hc] at hd
  have := PageType.rt_code db c d p hd
  rw [h] at this
  simp at this
  exact ⟨c, this.1⟩

/-! ## Page indices, tables, header -/

@[simp] theorem PageIndex.enc_length (i : PageIndex) : i.enc.length = 4 := by simp [PageIndex.enc]
theorem PageIndex.rt (i : PageIndex) : RT PageIndex.read i.enc i := RT.bind_pure (RT.u32 i.val)
theorem PageIndex.inv : Inv PageIndex.read (fun c bs => bs = c.enc) := by
  refine (Inv.bind_pure Inv.u32).mono ?_
  rintro _ _ ⟨a, rfl, rfl⟩; rfl
theorem PageIndex.np : NP PageIndex.read := NP.bind NP.u32 fun _ => NP.pure _

@[simp] theorem IndexEntry.enc_length (i : IndexEntry) : i.enc.length = 4 := by simp [IndexEntry.enc]
theorem IndexEntry.rt (i : IndexEntry) : RT IndexEntry.read i.enc i := RT.bind_pure (RT.u32 i.raw)
theorem IndexEntry.inv : Inv IndexEntry.read (fun c bs => bs = c.enc) := by
  refine (Inv.bind_pure Inv.u32).mono ?_
  rintro _ _ ⟨a, rfl, rfl⟩; rfl
theorem IndexEntry.np : NP IndexEntry.read := NP.bind NP.u32 fun _ => NP.pure _

@[simp] theorem Table.enc_length (t : Table) : t.enc.length = 16 := by simp [Table.enc]

theorem Table.rt (db : DatabaseType) (t : Table) (h : t.pageType.ValidFor db) :
    RT (Table.read db) t.enc t :=
  RT.bind (PageType.rt db _ h) <| RT.bind (RT.u32 _) <| RT.bind (PageIndex.rt _) <|
    RT.bind_pure (f := fun l => Table.mk _ _ _ l) (PageIndex.rt _)

theorem Table.inv (db : DatabaseType) : Inv (Table.read db) (fun t bs => bs = t.enc) := by
  refine Inv.bind (PageType.inv db) ?_
  rintro a _ rfl
  refine Inv.bind Inv.u32 ?_
  rintro b _ rfl
  refine Inv.bind PageIndex.inv ?_
  rintro c _ rfl
  refine Inv.bind PageIndex.inv ?_
  rintro e _ rfl
  refine (Inv.pure _).mono ?_
  rintro _ _ ⟨rfl, rfl⟩
  simp [Table.enc]

theorem Table.np (db : DatabaseType) : NP (Table.read db) :=
  NP.bind (PageType.np db) fun _ => NP.bind NP.u32 fun _ => NP.bind PageIndex.np fun _ =>
    NP.bind PageIndex.np fun _ => NP.pure _

theorem Table.read_valid {db : DatabaseType} {d : Bytes} {p p' : Nat} {t : Table}
    (h : Table.read db d p = .ok (t, p')) : t.pageType.ValidFor db := by
  unfold Table.read at h
  obtain ⟨a, p1, h1, h⟩ := bind_eq_ok.1 h
  obtain ⟨b, p2, h2, h⟩ := bind_eq_ok.1 h
  obtain ⟨c, p3, h3, h⟩ := bind_eq_ok.1 h
  obtain ⟨e, p4, h4, h⟩ := bind_eq_ok.1 h
  simp at h
  rw [← h.1]
  exact PageType.read_valid h1

theorem many_read_all {α : Type} {r : Rd α} {P : α → Prop}
    (hr : ∀ d p a p', r d p = .ok (a, p') → P a) {n : Nat} {d : Bytes} {p p' : Nat} {as : List α}
    (h : Rd.many r n d p = .ok (as, p')) : ∀ a ∈ as, P a := by
  induction n generalizing p p' as with
  | zero =>
    simp only [Rd.many, pure_def, Res.ok.injEq, Prod.mk.injEq] at h
    simp [← h.1]
  | succ n ih =>
    simp only [Rd.many] at h
    obtain ⟨a, p1, h1, h⟩ := bind_eq_ok.1 h
    obtain ⟨as', p2, h2, h⟩ := bind_eq_ok.1 h
    simp at h
    rw [← h.1]
    intro x hx
    rw [List.mem_cons] at hx
    rcases hx with rfl | hx
    · exact hr _ _ _ _ h1
    · exact ih h2 x hx

theorem Header.enc_length (h : Header) : h.enc.length = 28 + 16 * h.tables.length := by
  have : ∀ ts : List Table, (ts.flatMap Table.enc).length = 16 * ts.length := by
    intro ts; induction ts with
    | nil => rfl
    | cons t ts ih =>
      simp only [List.flatMap_cons, List.length_append, Table.enc_length, ih, List.length_cons]; omega
  simp only [Header.enc, List.length_append, encU32_length, PageIndex.enc_length, this]
  omega

theorem Header.rt (db : DatabaseType) (h : Header) (hc : h.Consistent db) :
    RT (Header.read db) h.enc h :=
  RT.bind (RT.magic _) <| RT.bind (RT.u32 _) <| RT.bind (RT.u32 _) <| RT.bind (PageIndex.rt _) <|
    RT.bind (RT.u32 _) <| RT.bind (RT.u32 _) <| RT.bind (RT.magic _) <|
    RT.bind_pure (f := fun ts => Header.mk _ _ _ _ _ ts)
      (RT.many' hc.1 fun t ht => Table.rt db t (hc.2 t ht))

theorem Header.inv (db : DatabaseType) : Inv (Header.read db) (fun h bs => bs = h.enc) := by
  refine Inv.bind (Inv.magic _) ?_
  rintro _ _ rfl
  refine Inv.bind Inv.u32 ?_
  rintro a _ rfl
  refine Inv.bind Inv.u32 ?_
  rintro b _ rfl
  refine Inv.bind PageIndex.inv ?_
  rintro c _ rfl
  refine Inv.bind Inv.u32 ?_
  rintro e _ rfl
  refine Inv.bind Inv.u32 ?_
  rintro f _ rfl
  refine Inv.bind (Inv.magic _) ?_
  rintro _ _ rfl
  refine Inv.bind (Inv.many (Table.inv db) Table.enc (fun _ _ h => h) _) ?_
  rintro ts _ ⟨rfl, _⟩
  refine (Inv.pure _).mono ?_
  rintro _ _ ⟨rfl, rfl⟩
  simp [Header.enc]

theorem Header.np (db : DatabaseType) : NP (Header.read db) :=
  NP.bind (NP.magic _) fun _ => NP.bind NP.u32 fun _ => NP.bind NP.u32 fun _ =>
    NP.bind PageIndex.np fun _ => NP.bind NP.u32 fun _ => NP.bind NP.u32 fun _ =>
    NP.bind (NP.magic _) fun _ => NP.bind (NP.many (Table.np db) _) fun _ => NP.pure _

theorem many_length {α : Type} {r : Rd α} {n : Nat} {d : Bytes} {p p' : Nat} {as : List α}
    (h : Rd.many r n d p = .ok (as, p')) : as.length = n := by
  induction n generalizing p p' as with
  | zero =>
    simp only [Rd.many, pure_def, Res.ok.injEq, Prod.mk.injEq] at h
    simp [← h.1]
  | succ n ih =>
    simp only [Rd.many] at h
    obtain ⟨a, p1, h1, h⟩ := bind_eq_ok.1 h
    obtain ⟨as', p2, h2, h⟩ := bind_eq_ok.1 h
    simp at h
    rw [← h.1]
    simp [ih h2]

/-- Headers that were read are consistent. -/
theorem Header.read_consistent {db : DatabaseType} {d : Bytes} {p p' : Nat} {hd : Header}
    (h : Header.read db d p = .ok (hd, p')) : hd.Consistent db := by
  unfold Header.read at h
  obtain ⟨_, p1, h1, h⟩ := bind_eq_ok.1 h
  obtain ⟨b, p2, h2, h⟩ := bind_eq_ok.1 h
  obtain ⟨c, p3, h3, h⟩ := bind_eq_ok.1 h
  obtain ⟨e, p4, h4, h⟩ := bind_eq_ok.1 h
  obtain ⟨f, p5, h5, h⟩ := bind_eq_ok.1 h
  obtain ⟨g, p6, h6, h⟩ := bind_eq_ok.1 h
  obtain ⟨_, p7, h7, h⟩ := bind_eq_ok.1 h
  obtain ⟨ts, p8, h8, h⟩ := bind_eq_ok.1 h
  simp at h
  rw [← h.1]
  exact ⟨many_length h8, many_read_all (fun _ _ _ _ h => Table.read_valid h) h8⟩

end Rekordcrate
