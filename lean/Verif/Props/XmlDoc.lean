import Verif.Lemmas.XmlDoc

/-! # C73, C74: XML documents -/

namespace Rekordcrate
namespace Xml

/-! ## C74: what is read -/

/-- C74: a product is read exactly if its attributes are there. -/
theorem read_product_iff (e : Elem) (t : Product) : Product.read e = .ok t ↔ ProductIn e t := Product.read_iff e t

/-- C74: a tempo is read exactly if its attributes are there and are numbers where there should be numbers. -/
theorem read_tempo_iff {R : FloatText} (e : Elem) (t : Tempo R) : Tempo.read R e = .ok t ↔ TempoIn e t :=
  Tempo.read_iff e t

/-- C74: the same for position marks. -/
theorem read_mark_iff {R : FloatText} (b : Bool) (e : Elem) (t : PositionMark R) :
    PositionMark.read R b e = .ok t ↔ MarkIn b e t := PositionMark.read_iff b e t

/-- C74: a track is read exactly if its identification and location are there, the other attributes are there or
not, all numbers are numbers, and the tempos and position marks each stand together and can be read; every field
has the value of the attribute with its name. -/
theorem read_track_entry_iff {R : FloatText} (b : Bool) (e : Elem) (t : Track R) :
    Track.read R b e = .ok t ↔ TrackIn b e t := Track.read_iff b e t

/-- C74: a collection is read exactly if it has tracks that can be read. -/
theorem read_collection_iff {R : FloatText} (b : Bool) (e : Elem) (c : Collection R) :
    Collection.read R b e = .ok c ↔ CollectionIn b e c := Collection.read_iff b e c

/-- C74: a document is read exactly if it has one of each part and the parts can be read. -/
theorem read_document_iff {R : FloatText} (b : Bool) (e : Elem) (d : Document R) :
    Document.read R b e = .ok d ↔ DocumentIn b e d := by
  obtain ⟨n, attrs, cs⟩ := e
  have h1 := fun x => single_iff "PRODUCT" Product.read (.mk n attrs cs) x
  have h2 := fun x => single_iff "COLLECTION" (Collection.read R b) (.mk n attrs cs) x
  have h3 := fun x => single_iff "PLAYLISTS" readPlaylists (.mk n attrs cs) x
  simp only [Elem.children, Product.read_iff, Collection.read_iff] at h1 h2 h3
  have h4 : ∀ (c : Elem) (x : String × List Node), readPlaylists c = .ok x ↔
      DistinctAttrs c.attrs ∧ ∃ r, OnlyChild "NODE" c r ∧ readRoot r = .ok x := by
    intro c x
    obtain ⟨m, as, ds⟩ := c
    have h5 := single_iff "NODE" readRoot (.mk m as ds) x
    simp only [Elem.children] at h5
    simp only [readPlaylists, bind_ok_iff, h5, Elem.attrs]
    constructor
    · rintro ⟨u, h, h'⟩
      exact ⟨((checkAttrs_iff [] as).1 h).1, h'⟩
    · rintro ⟨h, h'⟩
      exact ⟨(), (checkAttrs_iff [] as).2 ⟨h, by simp⟩, h'⟩
  simp only [h4] at h3
  constructor
  · intro h
    simp only [Document.read, bind_ok_iff] at h
    obtain ⟨u, h0, v, hv, p, hp, c, hc, ⟨rn, rs⟩, hr, h⟩ := h
    cases h
    have hd : DistinctAttrs attrs := ((checkAttrs_iff [] attrs).1 h0).1
    obtain ⟨x, y, z, r, w⟩ := (h3 _).1 hr
    exact ⟨hd, (required_iff textValue_iff hd).1 hv, (h1 _).1 hp, (h2 _).1 hc, x, r, y, z, w⟩
  · rintro ⟨hd, hv, hp, hc, x, r, y, z, w⟩
    simp only [Document.read, bind_ok_iff]
    exact ⟨(), (checkAttrs_iff [] attrs).2 ⟨hd, by simp⟩, _, (required_iff textValue_iff hd).2 hv, _, (h1 _).2 hp, _,
      (h2 _).2 hc, (d.rootName, d.rootNodes), (h3 _).2 ⟨x, y, z, r, w⟩, rfl⟩

/-! ## C73: writing and reading -/

theorem mem_attr {k k' v x : String} : (k, v) ∈ attr k' x ↔ k = k' ∧ v = x := by simp [attr]

theorem mem_optAttr {α : Type} {f : α → String} {k k' v : String} {o : Option α} :
    (k, v) ∈ optAttr f k' o ↔ k = k' ∧ v = (o.map f).getD "" := by
  cases o <;> simp [optAttr]

theorem mem_skipAttr {α : Type} {f : α → String} {k k' v : String} {o : Option α} :
    (k, v) ∈ skipAttr f k' o ↔ k = k' ∧ o.map f = some v := by
  cases o <;> simp [skipAttr, eq_comm]

theorem attr_keys (k x : String) : ((attr k x).map Prod.fst).Sublist [k] := List.Sublist.refl _

theorem opt_keys {α : Type} (f : α → String) (k : String) (o : Option α) :
    ((optAttr f k o).map Prod.fst).Sublist [k] := by
  cases o <;> exact List.Sublist.refl _

theorem skip_keys {α : Type} (f : α → String) (k : String) (o : Option α) :
    ((skipAttr f k o).map Prod.fst).Sublist [k] := by
  cases o
  · exact List.nil_sublist _
  · exact List.Sublist.refl _

theorem no_i32 (x : Int) : ¬ I32Text "" x := by
  rw [← parseI32_iff]
  have : parseI32 "" = none := by decide +kernel
  rw [this]
  simp

theorem no_i64 (x : Int) : ¬ I64Text "" x := by
  rw [← parseI64_iff]
  have : parseI64 "" = none := by decide +kernel
  rw [this]
  simp

theorem no_float {R : FloatText} (hR : R.Lawful) (x : R.F) : ¬ R.Text "" x := by
  unfold FloatText.Text
  rw [hR]
  simp

section

variable {α : Type} {b : Bool} {text : String → α → Prop} {e : Elem} {k : String}

theorem says_attr {s : String} {x : α} (hm : ∀ v, (k, v) ∈ e.attrs ↔ v = s) (ht : text s x) : Says text e k x :=
  ⟨s, (hm s).2 rfl, ht⟩

theorem saysOpt_text {o : Option String} (hm : ∀ v, (k, v) ∈ e.attrs ↔ v = (o.map id).getD "") :
    SaysOpt b Eq e k (backText b o) := by
  unfold backText
  cases b with
  | true =>
    simp only [if_true]
    split
    · rename_i h
      subst h
      exact .inr ⟨rfl, (hm "").2 rfl⟩
    · rename_i h
      cases o with
      | none => exact .inr ⟨rfl, (hm "").2 rfl⟩
      | some x => exact ⟨x, (hm x).2 rfl, rfl, fun _ hx => h (by rw [hx])⟩
  | false =>
    refine ⟨_, (hm (o.getD "")).2 ?_, rfl, fun h => by cases h⟩
    cases o <;> rfl

theorem saysOpt_skipped {o : Option String} (hm : ∀ v, (k, v) ∈ e.attrs ↔ o.map id = some v) :
    SaysOpt b Eq e k (backSkipped b o) := by
  unfold backSkipped
  split
  · rename_i h
    obtain ⟨rfl, rfl⟩ := h
    exact .inr ⟨rfl, (hm "").2 rfl⟩
  · rename_i h
    cases o with
    | none => exact .inl fun v hv => by cases (hm v).1 hv
    | some x => exact ⟨x, (hm x).2 rfl, rfl, fun hb hx => h ⟨hb, by rw [hx]⟩⟩

theorem saysOpt_number {f : α → String} {o : Option α} (hm : ∀ v, (k, v) ∈ e.attrs ↔ v = (o.map f).getD "")
    (hk : KeptNumber b o) (ht : ∀ x, o = some x → text (f x) x) (hn : ∀ x, ¬ text "" x) : SaysOpt b text e k o := by
  cases o with
  | none =>
    rcases hk with hk | hk
    · exact .inr ⟨hk, (hm "").2 rfl⟩
    · exact absurd rfl hk
  | some x =>
    refine ⟨f x, (hm _).2 rfl, ht x rfl, fun _ he => hn x ?_⟩
    rw [← he]
    exact ht x rfl

theorem saysOpt_skipped_number {f : α → String} {o : Option α} (hm : ∀ v, (k, v) ∈ e.attrs ↔ o.map f = some v)
    (ht : ∀ x, o = some x → text (f x) x) (hn : ∀ x, ¬ text "" x) : SaysOpt b text e k o := by
  cases o with
  | none => exact .inl fun v hv => by cases (hm v).1 hv
  | some x =>
    refine ⟨f x, (hm _).2 rfl, ht x rfl, fun _ he => hn x ?_⟩
    rw [← he]
    exact ht x rfl

theorem kept_of_says {f : α → String} {o y : Option α} (hm : ∀ v, (k, v) ∈ e.attrs ↔ v = (o.map f).getD "")
    (hn : ∀ x, ¬ text "" x) (h : SaysOpt b text e k y) : KeptNumber b o := by
  cases o with
  | some x => exact .inr (by simp)
  | none =>
    cases y with
    | none =>
      rcases h with h | ⟨h, -⟩
      · exact absurd ((hm "").2 rfl) (h "")
      · exact .inl h
    | some y =>
      obtain ⟨v, h1, h2, -⟩ := h
      rw [(hm v).1 h1] at h2
      exact absurd h2 (hn y)

end


theorem Track.has_TrackID {R : FloatText} (t : Track R) (v : String) : ("TrackID", v) ∈ t.write.attrs ↔ v = showInt t.trackId := by
  change ("TrackID", v) ∈ t.attrs ↔ _
  unfold Track.attrs
  simp only [List.mem_append]
  simp only [mem_attr]
  simp only [mem_optAttr]
  simp only [mem_skipAttr]
  simp only [String.reduceEq, false_and, true_and, or_false, false_or]

theorem Track.has_Name {R : FloatText} (t : Track R) (v : String) : ("Name", v) ∈ t.write.attrs ↔ v = (t.name.map id).getD "" := by
  change ("Name", v) ∈ t.attrs ↔ _
  unfold Track.attrs
  simp only [List.mem_append]
  simp only [mem_attr]
  simp only [mem_optAttr]
  simp only [mem_skipAttr]
  simp only [String.reduceEq, false_and, true_and, or_false, false_or]

theorem Track.has_Artist {R : FloatText} (t : Track R) (v : String) : ("Artist", v) ∈ t.write.attrs ↔ v = (t.artist.map id).getD "" := by
  change ("Artist", v) ∈ t.attrs ↔ _
  unfold Track.attrs
  simp only [List.mem_append]
  simp only [mem_attr]
  simp only [mem_optAttr]
  simp only [mem_skipAttr]
  simp only [String.reduceEq, false_and, true_and, or_false, false_or]

theorem Track.has_Composer {R : FloatText} (t : Track R) (v : String) : ("Composer", v) ∈ t.write.attrs ↔ v = (t.composer.map id).getD "" := by
  change ("Composer", v) ∈ t.attrs ↔ _
  unfold Track.attrs
  simp only [List.mem_append]
  simp only [mem_attr]
  simp only [mem_optAttr]
  simp only [mem_skipAttr]
  simp only [String.reduceEq, false_and, true_and, or_false, false_or]

theorem Track.has_Album {R : FloatText} (t : Track R) (v : String) : ("Album", v) ∈ t.write.attrs ↔ v = (t.album.map id).getD "" := by
  change ("Album", v) ∈ t.attrs ↔ _
  unfold Track.attrs
  simp only [List.mem_append]
  simp only [mem_attr]
  simp only [mem_optAttr]
  simp only [mem_skipAttr]
  simp only [String.reduceEq, false_and, true_and, or_false, false_or]

theorem Track.has_Grouping {R : FloatText} (t : Track R) (v : String) : ("Grouping", v) ∈ t.write.attrs ↔ v = (t.grouping.map id).getD "" := by
  change ("Grouping", v) ∈ t.attrs ↔ _
  unfold Track.attrs
  simp only [List.mem_append]
  simp only [mem_attr]
  simp only [mem_optAttr]
  simp only [mem_skipAttr]
  simp only [String.reduceEq, false_and, true_and, or_false, false_or]

theorem Track.has_Genre {R : FloatText} (t : Track R) (v : String) : ("Genre", v) ∈ t.write.attrs ↔ v = (t.genre.map id).getD "" := by
  change ("Genre", v) ∈ t.attrs ↔ _
  unfold Track.attrs
  simp only [List.mem_append]
  simp only [mem_attr]
  simp only [mem_optAttr]
  simp only [mem_skipAttr]
  simp only [String.reduceEq, false_and, true_and, or_false, false_or]

theorem Track.has_Kind {R : FloatText} (t : Track R) (v : String) : ("Kind", v) ∈ t.write.attrs ↔ v = (t.kind.map id).getD "" := by
  change ("Kind", v) ∈ t.attrs ↔ _
  unfold Track.attrs
  simp only [List.mem_append]
  simp only [mem_attr]
  simp only [mem_optAttr]
  simp only [mem_skipAttr]
  simp only [String.reduceEq, false_and, true_and, or_false, false_or]

theorem Track.has_Size {R : FloatText} (t : Track R) (v : String) : ("Size", v) ∈ t.write.attrs ↔ v = (t.size.map showInt).getD "" := by
  change ("Size", v) ∈ t.attrs ↔ _
  unfold Track.attrs
  simp only [List.mem_append]
  simp only [mem_attr]
  simp only [mem_optAttr]
  simp only [mem_skipAttr]
  simp only [String.reduceEq, false_and, true_and, or_false, false_or]

theorem Track.has_TotalTime {R : FloatText} (t : Track R) (v : String) : ("TotalTime", v) ∈ t.write.attrs ↔ v = (t.totalTime.map R.toText).getD "" := by
  change ("TotalTime", v) ∈ t.attrs ↔ _
  unfold Track.attrs
  simp only [List.mem_append]
  simp only [mem_attr]
  simp only [mem_optAttr]
  simp only [mem_skipAttr]
  simp only [String.reduceEq, false_and, true_and, or_false, false_or]

theorem Track.has_DiscNumber {R : FloatText} (t : Track R) (v : String) : ("DiscNumber", v) ∈ t.write.attrs ↔ v = (t.discNumber.map showInt).getD "" := by
  change ("DiscNumber", v) ∈ t.attrs ↔ _
  unfold Track.attrs
  simp only [List.mem_append]
  simp only [mem_attr]
  simp only [mem_optAttr]
  simp only [mem_skipAttr]
  simp only [String.reduceEq, false_and, true_and, or_false, false_or]

theorem Track.has_TrackNumber {R : FloatText} (t : Track R) (v : String) : ("TrackNumber", v) ∈ t.write.attrs ↔ v = (t.trackNumber.map showInt).getD "" := by
  change ("TrackNumber", v) ∈ t.attrs ↔ _
  unfold Track.attrs
  simp only [List.mem_append]
  simp only [mem_attr]
  simp only [mem_optAttr]
  simp only [mem_skipAttr]
  simp only [String.reduceEq, false_and, true_and, or_false, false_or]

theorem Track.has_Year {R : FloatText} (t : Track R) (v : String) : ("Year", v) ∈ t.write.attrs ↔ v = (t.year.map showInt).getD "" := by
  change ("Year", v) ∈ t.attrs ↔ _
  unfold Track.attrs
  simp only [List.mem_append]
  simp only [mem_attr]
  simp only [mem_optAttr]
  simp only [mem_skipAttr]
  simp only [String.reduceEq, false_and, true_and, or_false, false_or]

theorem Track.has_AverageBpm {R : FloatText} (t : Track R) (v : String) : ("AverageBpm", v) ∈ t.write.attrs ↔ v = (t.averageBpm.map R.toText).getD "" := by
  change ("AverageBpm", v) ∈ t.attrs ↔ _
  unfold Track.attrs
  simp only [List.mem_append]
  simp only [mem_attr]
  simp only [mem_optAttr]
  simp only [mem_skipAttr]
  simp only [String.reduceEq, false_and, true_and, or_false, false_or]

theorem Track.has_DateModified {R : FloatText} (t : Track R) (v : String) : ("DateModified", v) ∈ t.write.attrs ↔ t.dateModified.map id = some v := by
  change ("DateModified", v) ∈ t.attrs ↔ _
  unfold Track.attrs
  simp only [List.mem_append]
  simp only [mem_attr]
  simp only [mem_optAttr]
  simp only [mem_skipAttr]
  simp only [String.reduceEq, false_and, true_and, or_false, false_or]

theorem Track.has_DateAdded {R : FloatText} (t : Track R) (v : String) : ("DateAdded", v) ∈ t.write.attrs ↔ t.dateAdded.map id = some v := by
  change ("DateAdded", v) ∈ t.attrs ↔ _
  unfold Track.attrs
  simp only [List.mem_append]
  simp only [mem_attr]
  simp only [mem_optAttr]
  simp only [mem_skipAttr]
  simp only [String.reduceEq, false_and, true_and, or_false, false_or]

theorem Track.has_BitRate {R : FloatText} (t : Track R) (v : String) : ("BitRate", v) ∈ t.write.attrs ↔ v = (t.bitRate.map showInt).getD "" := by
  change ("BitRate", v) ∈ t.attrs ↔ _
  unfold Track.attrs
  simp only [List.mem_append]
  simp only [mem_attr]
  simp only [mem_optAttr]
  simp only [mem_skipAttr]
  simp only [String.reduceEq, false_and, true_and, or_false, false_or]

theorem Track.has_SampleRate {R : FloatText} (t : Track R) (v : String) : ("SampleRate", v) ∈ t.write.attrs ↔ v = (t.sampleRate.map R.toText).getD "" := by
  change ("SampleRate", v) ∈ t.attrs ↔ _
  unfold Track.attrs
  simp only [List.mem_append]
  simp only [mem_attr]
  simp only [mem_optAttr]
  simp only [mem_skipAttr]
  simp only [String.reduceEq, false_and, true_and, or_false, false_or]

theorem Track.has_Comments {R : FloatText} (t : Track R) (v : String) : ("Comments", v) ∈ t.write.attrs ↔ v = (t.comments.map id).getD "" := by
  change ("Comments", v) ∈ t.attrs ↔ _
  unfold Track.attrs
  simp only [List.mem_append]
  simp only [mem_attr]
  simp only [mem_optAttr]
  simp only [mem_skipAttr]
  simp only [String.reduceEq, false_and, true_and, or_false, false_or]

theorem Track.has_PlayCount {R : FloatText} (t : Track R) (v : String) : ("PlayCount", v) ∈ t.write.attrs ↔ v = (t.playCount.map showInt).getD "" := by
  change ("PlayCount", v) ∈ t.attrs ↔ _
  unfold Track.attrs
  simp only [List.mem_append]
  simp only [mem_attr]
  simp only [mem_optAttr]
  simp only [mem_skipAttr]
  simp only [String.reduceEq, false_and, true_and, or_false, false_or]

theorem Track.has_LastPlayed {R : FloatText} (t : Track R) (v : String) : ("LastPlayed", v) ∈ t.write.attrs ↔ t.lastPlayed.map id = some v := by
  change ("LastPlayed", v) ∈ t.attrs ↔ _
  unfold Track.attrs
  simp only [List.mem_append]
  simp only [mem_attr]
  simp only [mem_optAttr]
  simp only [mem_skipAttr]
  simp only [String.reduceEq, false_and, true_and, or_false, false_or]

theorem Track.has_Rating {R : FloatText} (t : Track R) (v : String) : ("Rating", v) ∈ t.write.attrs ↔ v = (t.rating.map showInt).getD "" := by
  change ("Rating", v) ∈ t.attrs ↔ _
  unfold Track.attrs
  simp only [List.mem_append]
  simp only [mem_attr]
  simp only [mem_optAttr]
  simp only [mem_skipAttr]
  simp only [String.reduceEq, false_and, true_and, or_false, false_or]

theorem Track.has_Location {R : FloatText} (t : Track R) (v : String) : ("Location", v) ∈ t.write.attrs ↔ v = id t.location := by
  change ("Location", v) ∈ t.attrs ↔ _
  unfold Track.attrs
  simp only [List.mem_append]
  simp only [mem_attr]
  simp only [mem_optAttr]
  simp only [mem_skipAttr]
  simp only [String.reduceEq, false_and, true_and, or_false, false_or]

theorem Track.has_Remixer {R : FloatText} (t : Track R) (v : String) : ("Remixer", v) ∈ t.write.attrs ↔ v = (t.remixer.map id).getD "" := by
  change ("Remixer", v) ∈ t.attrs ↔ _
  unfold Track.attrs
  simp only [List.mem_append]
  simp only [mem_attr]
  simp only [mem_optAttr]
  simp only [mem_skipAttr]
  simp only [String.reduceEq, false_and, true_and, or_false, false_or]

theorem Track.has_Tonality {R : FloatText} (t : Track R) (v : String) : ("Tonality", v) ∈ t.write.attrs ↔ v = (t.tonality.map id).getD "" := by
  change ("Tonality", v) ∈ t.attrs ↔ _
  unfold Track.attrs
  simp only [List.mem_append]
  simp only [mem_attr]
  simp only [mem_optAttr]
  simp only [mem_skipAttr]
  simp only [String.reduceEq, false_and, true_and, or_false, false_or]

theorem Track.has_Label {R : FloatText} (t : Track R) (v : String) : ("Label", v) ∈ t.write.attrs ↔ v = (t.label.map id).getD "" := by
  change ("Label", v) ∈ t.attrs ↔ _
  unfold Track.attrs
  simp only [List.mem_append]
  simp only [mem_attr]
  simp only [mem_optAttr]
  simp only [mem_skipAttr]
  simp only [String.reduceEq, false_and, true_and, or_false, false_or]

theorem Track.has_Mix {R : FloatText} (t : Track R) (v : String) : ("Mix", v) ∈ t.write.attrs ↔ v = (t.mix.map id).getD "" := by
  change ("Mix", v) ∈ t.attrs ↔ _
  unfold Track.attrs
  simp only [List.mem_append]
  simp only [mem_attr]
  simp only [mem_optAttr]
  simp only [mem_skipAttr]
  simp only [String.reduceEq, false_and, true_and, or_false, false_or]

theorem Track.has_Colour {R : FloatText} (t : Track R) (v : String) : ("Colour", v) ∈ t.write.attrs ↔ t.colour.map id = some v := by
  change ("Colour", v) ∈ t.attrs ↔ _
  unfold Track.attrs
  simp only [List.mem_append]
  simp only [mem_attr]
  simp only [mem_optAttr]
  simp only [mem_skipAttr]
  simp only [String.reduceEq, false_and, true_and, or_false, false_or]

theorem Tempo.has_Inizio {R : FloatText} (t : Tempo R) (v : String) : ("Inizio", v) ∈ t.write.attrs ↔ v = R.toText t.inizio := by
  change ("Inizio", v) ∈ t.attrs ↔ _
  unfold Tempo.attrs
  simp only [List.mem_append]
  simp only [mem_attr]
  simp only [String.reduceEq, false_and, true_and, or_false, false_or]

theorem Tempo.has_Bpm {R : FloatText} (t : Tempo R) (v : String) : ("Bpm", v) ∈ t.write.attrs ↔ v = R.toText t.bpm := by
  change ("Bpm", v) ∈ t.attrs ↔ _
  unfold Tempo.attrs
  simp only [List.mem_append]
  simp only [mem_attr]
  simp only [String.reduceEq, false_and, true_and, or_false, false_or]

theorem Tempo.has_Metro {R : FloatText} (t : Tempo R) (v : String) : ("Metro", v) ∈ t.write.attrs ↔ v = id t.metro := by
  change ("Metro", v) ∈ t.attrs ↔ _
  unfold Tempo.attrs
  simp only [List.mem_append]
  simp only [mem_attr]
  simp only [String.reduceEq, false_and, true_and, or_false, false_or]

theorem Tempo.has_Battito {R : FloatText} (t : Tempo R) (v : String) : ("Battito", v) ∈ t.write.attrs ↔ v = showInt t.battito := by
  change ("Battito", v) ∈ t.attrs ↔ _
  unfold Tempo.attrs
  simp only [List.mem_append]
  simp only [mem_attr]
  simp only [String.reduceEq, false_and, true_and, or_false, false_or]

theorem PositionMark.has_Name {R : FloatText} (t : PositionMark R) (v : String) : ("Name", v) ∈ t.write.attrs ↔ v = id t.name := by
  change ("Name", v) ∈ t.attrs ↔ _
  unfold PositionMark.attrs
  simp only [List.mem_append]
  simp only [mem_attr]
  simp only [mem_skipAttr]
  simp only [String.reduceEq, false_and, true_and, or_false, false_or]

theorem PositionMark.has_Type {R : FloatText} (t : PositionMark R) (v : String) : ("Type", v) ∈ t.write.attrs ↔ v = showInt t.markType := by
  change ("Type", v) ∈ t.attrs ↔ _
  unfold PositionMark.attrs
  simp only [List.mem_append]
  simp only [mem_attr]
  simp only [mem_skipAttr]
  simp only [String.reduceEq, false_and, true_and, or_false, false_or]

theorem PositionMark.has_Start {R : FloatText} (t : PositionMark R) (v : String) : ("Start", v) ∈ t.write.attrs ↔ v = R.toText t.start := by
  change ("Start", v) ∈ t.attrs ↔ _
  unfold PositionMark.attrs
  simp only [List.mem_append]
  simp only [mem_attr]
  simp only [mem_skipAttr]
  simp only [String.reduceEq, false_and, true_and, or_false, false_or]

theorem PositionMark.has_End {R : FloatText} (t : PositionMark R) (v : String) : ("End", v) ∈ t.write.attrs ↔ t.end_.map R.toText = some v := by
  change ("End", v) ∈ t.attrs ↔ _
  unfold PositionMark.attrs
  simp only [List.mem_append]
  simp only [mem_attr]
  simp only [mem_skipAttr]
  simp only [String.reduceEq, false_and, true_and, or_false, false_or]

theorem PositionMark.has_Num {R : FloatText} (t : PositionMark R) (v : String) : ("Num", v) ∈ t.write.attrs ↔ v = showInt t.num := by
  change ("Num", v) ∈ t.attrs ↔ _
  unfold PositionMark.attrs
  simp only [List.mem_append]
  simp only [mem_attr]
  simp only [mem_skipAttr]
  simp only [String.reduceEq, false_and, true_and, or_false, false_or]

theorem Track.distinct {R : FloatText} (t : Track R) : DistinctAttrs t.attrs := by
  refine List.Sublist.nodup (l₂ := ["TrackID"] ++ ["Name"] ++ ["Artist"] ++ ["Composer"] ++ ["Album"] ++ ["Grouping"] ++ ["Genre"] ++ ["Kind"] ++ ["Size"] ++ ["TotalTime"] ++ ["DiscNumber"] ++ ["TrackNumber"] ++ ["Year"] ++ ["AverageBpm"] ++ ["DateModified"] ++ ["DateAdded"] ++ ["BitRate"] ++ ["SampleRate"] ++ ["Comments"] ++ ["PlayCount"] ++ ["LastPlayed"] ++ ["Rating"] ++ ["Location"] ++ ["Remixer"] ++ ["Tonality"] ++ ["Label"] ++ ["Mix"] ++ ["Colour"]) ?_ (by decide +kernel)
  unfold Track.attrs
  simp only [List.map_append]
  refine List.Sublist.append ?_ (skip_keys _ _ _)
  refine List.Sublist.append ?_ (opt_keys _ _ _)
  refine List.Sublist.append ?_ (opt_keys _ _ _)
  refine List.Sublist.append ?_ (opt_keys _ _ _)
  refine List.Sublist.append ?_ (opt_keys _ _ _)
  refine List.Sublist.append ?_ (attr_keys _ _)
  refine List.Sublist.append ?_ (opt_keys _ _ _)
  refine List.Sublist.append ?_ (skip_keys _ _ _)
  refine List.Sublist.append ?_ (opt_keys _ _ _)
  refine List.Sublist.append ?_ (opt_keys _ _ _)
  refine List.Sublist.append ?_ (opt_keys _ _ _)
  refine List.Sublist.append ?_ (opt_keys _ _ _)
  refine List.Sublist.append ?_ (skip_keys _ _ _)
  refine List.Sublist.append ?_ (skip_keys _ _ _)
  refine List.Sublist.append ?_ (opt_keys _ _ _)
  refine List.Sublist.append ?_ (opt_keys _ _ _)
  refine List.Sublist.append ?_ (opt_keys _ _ _)
  refine List.Sublist.append ?_ (opt_keys _ _ _)
  refine List.Sublist.append ?_ (opt_keys _ _ _)
  refine List.Sublist.append ?_ (opt_keys _ _ _)
  refine List.Sublist.append ?_ (opt_keys _ _ _)
  refine List.Sublist.append ?_ (opt_keys _ _ _)
  refine List.Sublist.append ?_ (opt_keys _ _ _)
  refine List.Sublist.append ?_ (opt_keys _ _ _)
  refine List.Sublist.append ?_ (opt_keys _ _ _)
  refine List.Sublist.append ?_ (opt_keys _ _ _)
  refine List.Sublist.append ?_ (opt_keys _ _ _)
  exact attr_keys _ _

theorem Tempo.distinct {R : FloatText} (t : Tempo R) : DistinctAttrs t.attrs := by
  refine List.Sublist.nodup (l₂ := ["Inizio"] ++ ["Bpm"] ++ ["Metro"] ++ ["Battito"]) ?_ (by decide +kernel)
  unfold Tempo.attrs
  simp only [List.map_append]
  refine List.Sublist.append ?_ (attr_keys _ _)
  refine List.Sublist.append ?_ (attr_keys _ _)
  refine List.Sublist.append ?_ (attr_keys _ _)
  exact attr_keys _ _

theorem PositionMark.distinct {R : FloatText} (t : PositionMark R) : DistinctAttrs t.attrs := by
  refine List.Sublist.nodup (l₂ := ["Name"] ++ ["Type"] ++ ["Start"] ++ ["End"] ++ ["Num"]) ?_ (by decide +kernel)
  unfold PositionMark.attrs
  simp only [List.map_append]
  refine List.Sublist.append ?_ (attr_keys _ _)
  refine List.Sublist.append ?_ (skip_keys _ _ _)
  refine List.Sublist.append ?_ (attr_keys _ _)
  refine List.Sublist.append ?_ (attr_keys _ _)
  exact attr_keys _ _

theorem tempo_back {R : FloatText} {t : Tempo R} (hf : t.Fits) : TempoIn t.write t := by
  obtain ⟨f0, f1, f2⟩ := hf
  refine ⟨t.distinct, ?_, ?_, ?_, ?_⟩
  · exact says_attr t.has_Inizio (id f0)
  · exact says_attr t.has_Bpm (id f1)
  · exact says_attr t.has_Metro rfl
  · exact says_attr t.has_Battito (showInt_i32 f2)

theorem mark_back {R : FloatText} (hR : R.Lawful) (b : Bool) {t : PositionMark R} (hf : t.Fits) : MarkIn b t.write t := by
  obtain ⟨f0, f1, f2, f3⟩ := hf
  refine ⟨t.distinct, ?_, ?_, ?_, ?_, ?_⟩
  · exact says_attr t.has_Name rfl
  · exact says_attr t.has_Type (showInt_i32 f0)
  · exact says_attr t.has_Start (id f1)
  · exact saysOpt_skipped_number t.has_End (fun x hx => id (f2 x hx)) (no_float hR)
  · exact says_attr t.has_Num (showInt_i32 f3)

theorem pointwise_map {α β : Type} {P : β → α → Prop} (f : α → β) {l : List α} (h : ∀ x ∈ l, P (f x) x) :
    Pointwise P (l.map f) l := by
  induction l with
  | nil => exact .nil
  | cons x l ih => exact .cons (h x (List.mem_cons_self ..)) (ih fun y hy => h y (List.mem_cons_of_mem _ hy))

/-- A track that was written is read if its numbers can be read. -/
theorem track_back {R : FloatText} (hR : R.Lawful) (b : Bool) {t : Track R} (hf : t.Fits) (hr : t.Readable b) :
    TrackIn b t.write (t.back b) := by
  obtain ⟨f0, f1, f2, f3, f4, f5, f6, f7, f8, f9, f10, fts, fms⟩ := hf
  obtain ⟨r0, r1, r2, r3, r4, r5, r6, r7, r8, r9⟩ := hr
  refine ⟨t.distinct, ?_, ?_, ?_⟩
  · refine ⟨?_, ?_, ?_, ?_, ?_, ?_, ?_, ?_, ?_, ?_, ?_, ?_, ?_, ?_, ?_, ?_, ?_, ?_, ?_, ?_, ?_, ?_, ?_, ?_, ?_,
    ?_, ?_, ?_⟩
    · exact says_attr t.has_TrackID (showInt_i32 f0)
    · exact saysOpt_text t.has_Name
    · exact saysOpt_text t.has_Artist
    · exact saysOpt_text t.has_Composer
    · exact saysOpt_text t.has_Album
    · exact saysOpt_text t.has_Grouping
    · exact saysOpt_text t.has_Genre
    · exact saysOpt_text t.has_Kind
    · exact saysOpt_number t.has_Size r0 (fun x hx => showInt_i64 (f1 x hx)) no_i64
    · exact saysOpt_number t.has_TotalTime r1 (fun x hx => id (f2 x hx)) (no_float hR)
    · exact saysOpt_number t.has_DiscNumber r2 (fun x hx => showInt_i32 (f3 x hx)) no_i32
    · exact saysOpt_number t.has_TrackNumber r3 (fun x hx => showInt_i32 (f4 x hx)) no_i32
    · exact saysOpt_number t.has_Year r4 (fun x hx => showInt_i32 (f5 x hx)) no_i32
    · exact saysOpt_number t.has_AverageBpm r5 (fun x hx => id (f6 x hx)) (no_float hR)
    · exact saysOpt_skipped t.has_DateModified
    · exact saysOpt_skipped t.has_DateAdded
    · exact saysOpt_number t.has_BitRate r6 (fun x hx => showInt_i32 (f7 x hx)) no_i32
    · exact saysOpt_number t.has_SampleRate r7 (fun x hx => id (f8 x hx)) (no_float hR)
    · exact saysOpt_text t.has_Comments
    · exact saysOpt_number t.has_PlayCount r8 (fun x hx => showInt_i32 (f9 x hx)) no_i32
    · exact saysOpt_skipped t.has_LastPlayed
    · exact saysOpt_number t.has_Rating r9 (fun x hx => showInt_i32 (f10 x hx)) no_i32
    · exact says_attr t.has_Location rfl
    · exact saysOpt_text t.has_Remixer
    · exact saysOpt_text t.has_Tonality
    · exact saysOpt_text t.has_Label
    · exact saysOpt_text t.has_Mix
    · exact saysOpt_skipped t.has_Colour
  · refine ⟨t.tempos.map Tempo.write, ⟨[], t.positionMarks.map PositionMark.write, rfl, ?_, ?_⟩,
      pointwise_map _ fun x hx => tempo_back (fts x hx)⟩
    · intro e he
      obtain ⟨x, -, rfl⟩ := List.mem_map.1 he
      rfl
    · intro e he
      obtain ⟨x, -, rfl⟩ := List.mem_map.1 he
      simp [PositionMark.write, Elem.name]
  · refine ⟨t.positionMarks.map PositionMark.write, ⟨t.tempos.map Tempo.write, [], by simp [Track.write, Elem.children],
      ?_, ?_⟩, pointwise_map _ fun x hx => mark_back hR b (fms x hx)⟩
    · intro e he
      obtain ⟨x, -, rfl⟩ := List.mem_map.1 he
      rfl
    · intro e he
      rw [List.append_nil] at he
      obtain ⟨x, -, rfl⟩ := List.mem_map.1 he
      simp [Tempo.write, Elem.name]

/-- A track that was written and can be read has readable numbers. -/
theorem readable_of_read {R : FloatText} (hR : R.Lawful) (b : Bool) {t y : Track R} (h : TrackIn b t.write y) :
    t.Readable b := by
  obtain ⟨-, ⟨-, -, -, -, -, -, -, -, r0, r1, r2, r3, r4, r5, -, -, r6, r7, -, r8, -, r9, -, -, -, -, -,
    -⟩, -⟩ := h
  refine ⟨?_, ?_, ?_, ?_, ?_, ?_, ?_, ?_, ?_, ?_⟩
  · exact kept_of_says t.has_Size no_i64 r0
  · exact kept_of_says t.has_TotalTime (no_float hR) r1
  · exact kept_of_says t.has_DiscNumber no_i32 r2
  · exact kept_of_says t.has_TrackNumber no_i32 r3
  · exact kept_of_says t.has_Year no_i32 r4
  · exact kept_of_says t.has_AverageBpm (no_float hR) r5
  · exact kept_of_says t.has_BitRate no_i32 r6
  · exact kept_of_says t.has_SampleRate (no_float hR) r7
  · exact kept_of_says t.has_PlayCount no_i32 r8
  · exact kept_of_says t.has_Rating no_i32 r9

/-- The children that stand together are all children, if all have the name. -/
theorem GroupOf.all {tag : String} {es group : List Elem} (h : GroupOf tag es group) (ha : ∀ e ∈ es, e.name = tag) :
    group = es := by
  obtain ⟨a, b, rfl, -, h2⟩ := h
  cases a with
  | cons x a => exact absurd (ha x (by simp)) (h2 x (by simp))
  | nil =>
    cases b with
    | cons x b => exact absurd (ha x (by simp)) (h2 x (by simp))
    | nil => simp

/-- C73, exactly: a document that is written can be read if and only if it has tracks, their numbers are there (unless
empty attributes are taken as missing), and no folder or playlist is empty; and then every field comes back, except
that a missing text comes back as an empty one (or an empty one as a missing one). -/
theorem document_back {R : FloatText} (hR : R.Lawful) (b : Bool) {d : Document R} (hf : d.Fits) (y : Document R) :
    Document.read R b d.write = .ok y ↔ d.Readable b ∧ y = d.back b := by
  obtain ⟨f1, f2, f4⟩ := hf
  have hn : ∀ e ∈ d.collection.tracks.map Track.write, e.name = "TRACK" := by
    intro e he
    obtain ⟨x, -, rfl⟩ := List.mem_map.1 he
    rfl
  have good : d.Readable b → Document.read R b d.write = .ok (d.back b) := by
    rintro ⟨r1, r2, r3, r4⟩
    rw [read_document_iff]
    refine ⟨by simp [DistinctAttrs, Document.write, Elem.attrs, attr], ⟨_, by simp [Document.write, Elem.attrs, attr]; rfl, rfl⟩,
      ⟨d.product.write, ⟨[], _, rfl, rfl, ?_⟩, ?_⟩, ⟨d.collection.write, ⟨[_], [_], rfl, rfl, ?_⟩, ?_⟩,
      .mk "PLAYLISTS" [] [writeRoot d.rootName d.rootNodes], writeRoot d.rootName d.rootNodes, ⟨[_, _], [], rfl, rfl, ?_⟩,
      by simp [DistinctAttrs, Elem.attrs], ⟨[], [], rfl, rfl, by simp⟩,
      (root_roundtrip_partial f4 _).2 ⟨⟨r3, r4⟩, rfl⟩⟩
    · simp [Collection.write, Elem.name]
    · refine ⟨?_, ⟨_, ?_, rfl⟩, ⟨_, ?_, rfl⟩, ⟨_, ?_, rfl⟩⟩
      · simp [DistinctAttrs, Product.write, Elem.attrs, attr]
      · simp [Product.write, Elem.attrs, attr, Document.back]
      · simp [Product.write, Elem.attrs, attr, Document.back]
      · simp [Product.write, Elem.attrs, attr, Document.back]
    · simp [Product.write, Elem.name]
    · refine ⟨by simp [DistinctAttrs, Collection.write, Elem.attrs, attr], ⟨_, List.mem_singleton.2 rfl, showInt_i32 f1⟩,
        by simpa [Document.back] using r1, d.collection.tracks.map Track.write, ⟨[], [], by simp [Collection.write, Elem.children], hn,
        by simp⟩, ?_⟩
      show Pointwise _ _ (d.collection.tracks.map (Track.back b))
      clear r1 hn
      generalize d.collection.tracks = ts at f2 r2
      induction ts with
      | nil => exact .nil
      | cons t ts ih =>
        exact .cons (track_back hR b (f2 t (List.mem_cons_self ..)) (r2 t (List.mem_cons_self ..)))
          (ih (fun x hx => f2 x (List.mem_cons_of_mem _ hx)) fun x hx => r2 x (List.mem_cons_of_mem _ hx))
    · simp [Product.write, Collection.write, Elem.name]
  constructor
  · intro h
    have hr : d.Readable b := by
      have h' := (read_document_iff b _ _).1 h
      obtain ⟨-, -, -, ⟨c, ⟨a1, b1, e1, n1, -⟩, -, -, hne, group, hg, hp⟩, p, r, ⟨a2, b2, e2, n2, -⟩, -, ⟨a3, b3, e3, n3, -⟩, hroot⟩ := h'
      have only : ∀ {x : Elem} {a b : List Elem}, d.write.children = a ++ x :: b →
          x = d.product.write ∨ x = d.collection.write ∨ x = .mk "PLAYLISTS" [] [writeRoot d.rootName d.rootNodes] := by
        intro x a b hx
        have : x ∈ d.write.children := by rw [hx]; simp
        simpa [Document.write, Elem.children] using this
      have hc : c = d.collection.write := by
        rcases only e1 with rfl | rfl | rfl
        · simp [Product.write, Elem.name] at n1
        · rfl
        · simp [Elem.name] at n1
      have hp' : p = .mk "PLAYLISTS" [] [writeRoot d.rootName d.rootNodes] := by
        rcases only e2 with rfl | rfl | rfl
        · simp [Product.write, Elem.name] at n2
        · simp [Collection.write, Elem.name] at n2
        · rfl
      subst hc hp'
      have hr : r = writeRoot d.rootName d.rootNodes := by
        have : r ∈ Elem.children (.mk "PLAYLISTS" [] [writeRoot d.rootName d.rootNodes]) := by rw [e3]; simp
        simpa [Elem.children] using this
      subst hr
      obtain ⟨⟨q1, q2⟩, -⟩ := (root_roundtrip_partial f4 _).1 hroot
      have hgr := GroupOf.all (es := d.collection.tracks.map Track.write) hg hn
      subst hgr
      refine ⟨?_, ?_, q1, q2⟩
      · intro h0
        rw [h0] at hp
        generalize y.collection.tracks = l at hp hne
        cases hp
        exact hne rfl
      · generalize y.collection.tracks = l at hp
        clear hne hg hn f2
        generalize d.collection.tracks = ts at hp
        induction ts generalizing l with
        | nil => intro t ht; cases ht
        | cons t ts ih =>
          cases hp with
          | cons h1 h2 =>
            intro x hx
            rcases List.mem_cons.1 hx with rfl | hx
            · exact readable_of_read hR b h1
            · exact ih _ h2 x hx
    refine ⟨hr, ?_⟩
    rw [good hr] at h
    injection h with h
    exact h.symm
  · rintro ⟨hr, rfl⟩
    exact good hr

theorem backText_filled {b : Bool} {o : Option String} (h : ∃ x, o = some x ∧ x ≠ "") : backText b o = o := by
  obtain ⟨x, rfl, hx⟩ := h
  cases b <;> simp [backText, hx]

theorem backSkipped_filled {b : Bool} {o : Option String} (h : o ≠ some "") : backSkipped b o = o := by
  simp [backSkipped, h]

/-- C73, whatever the treatment of empty attributes: a document in which everything optional is there and no text of these
is empty, with tracks and without empty folders or playlists, comes back as it is. -/
theorem document_roundtrip_partial {R : FloatText} (hR : R.Lawful) (b : Bool) {d : Document R} (hf : d.Fits)
    (ht : d.collection.tracks ≠ []) (hfl : ∀ t ∈ d.collection.tracks, t.Filled) (hr : d.rootNodes ≠ [])
    (hn : FullAll d.rootNodes) : Document.read R b d.write = .ok d := by
  rw [document_back hR b hf]
  have key : ∀ t : Track R, t.Filled → t.Readable b ∧ t.back b = t := by
    intro t h
    unfold Track.Filled at h
    obtain ⟨q0, q1, q2, q3, q4, q5, q6, q7, q8, q9, q10, q11, q12, q13, q14, q15, q16, q17, q18, q19, q20, q21,
      q22, q23, q24, q25⟩ := h
    refine ⟨⟨.inr q7, .inr q8, .inr q9, .inr q10, .inr q11, .inr q12, .inr q15, .inr q16, .inr q18, .inr q20⟩, ?_⟩
    unfold Track.back
    rw [backText_filled q0, backText_filled q1, backText_filled q2, backText_filled q3, backText_filled q4, backText_filled q5, backText_filled q6, backSkipped_filled q13, backSkipped_filled q14, backText_filled q17, backSkipped_filled q19, backText_filled q21, backText_filled q22, backText_filled q23, backText_filled q24, backSkipped_filled q25]
  refine ⟨⟨ht, fun t h => (key t (hfl t h)).1, hr, hn⟩, ?_⟩
  unfold Document.back
  have : d.collection.tracks.map (Track.back b) = d.collection.tracks := by
    conv => rhs; rw [← List.map_id d.collection.tracks]
    exact List.map_congr_left fun t h => (key t (hfl t h)).2
  rw [this]

/-! ## Order of attributes, and other attributes -/

section
variable {α : Type} {text : String → α → Prop} {e e' : Elem} {k : String}

theorem says_congr (h : ∀ v, (k, v) ∈ e.attrs ↔ (k, v) ∈ e'.attrs) {x : α} : Says text e k x ↔ Says text e' k x :=
  exists_congr fun v => and_congr_left' (h v)

theorem saysOpt_congr (h : ∀ v, (k, v) ∈ e.attrs ↔ (k, v) ∈ e'.attrs) {b : Bool} {x : Option α} :
    SaysOpt b text e k x ↔ SaysOpt b text e' k x := by
  cases x with
  | none => exact or_congr (forall_congr' fun v => not_congr (h v)) (and_congr_right' (h ""))
  | some x => exact exists_congr fun v => and_congr_left' (h v)

end

theorem trackAttrs_congr {R : FloatText} {b : Bool} {e e' : Elem} {t : Track R}
    (h : ∀ k ∈ trackKeys, ∀ v, (k, v) ∈ e.attrs ↔ (k, v) ∈ e'.attrs) : TrackAttrsIn b e t ↔ TrackAttrsIn b e' t := by
  unfold TrackAttrsIn
  exact and_congr (says_congr (h _ (by simp [trackKeys]))) <|
    and_congr (saysOpt_congr (h _ (by simp [trackKeys]))) <|
    and_congr (saysOpt_congr (h _ (by simp [trackKeys]))) <|
    and_congr (saysOpt_congr (h _ (by simp [trackKeys]))) <|
    and_congr (saysOpt_congr (h _ (by simp [trackKeys]))) <|
    and_congr (saysOpt_congr (h _ (by simp [trackKeys]))) <|
    and_congr (saysOpt_congr (h _ (by simp [trackKeys]))) <|
    and_congr (saysOpt_congr (h _ (by simp [trackKeys]))) <|
    and_congr (saysOpt_congr (h _ (by simp [trackKeys]))) <|
    and_congr (saysOpt_congr (h _ (by simp [trackKeys]))) <|
    and_congr (saysOpt_congr (h _ (by simp [trackKeys]))) <|
    and_congr (saysOpt_congr (h _ (by simp [trackKeys]))) <|
    and_congr (saysOpt_congr (h _ (by simp [trackKeys]))) <|
    and_congr (saysOpt_congr (h _ (by simp [trackKeys]))) <|
    and_congr (saysOpt_congr (h _ (by simp [trackKeys]))) <|
    and_congr (saysOpt_congr (h _ (by simp [trackKeys]))) <|
    and_congr (saysOpt_congr (h _ (by simp [trackKeys]))) <|
    and_congr (saysOpt_congr (h _ (by simp [trackKeys]))) <|
    and_congr (saysOpt_congr (h _ (by simp [trackKeys]))) <|
    and_congr (saysOpt_congr (h _ (by simp [trackKeys]))) <|
    and_congr (saysOpt_congr (h _ (by simp [trackKeys]))) <|
    and_congr (saysOpt_congr (h _ (by simp [trackKeys]))) <|
    and_congr (says_congr (h _ (by simp [trackKeys]))) <|
    and_congr (saysOpt_congr (h _ (by simp [trackKeys]))) <|
    and_congr (saysOpt_congr (h _ (by simp [trackKeys]))) <|
    and_congr (saysOpt_congr (h _ (by simp [trackKeys]))) <|
    and_congr (saysOpt_congr (h _ (by simp [trackKeys]))) <|
    saysOpt_congr (h _ (by simp [trackKeys]))

/-- C74: attributes of a track that the reader does not know do not matter. -/
theorem track_unknown_ignored {R : FloatText} (b : Bool) {n : String} {attrs extra : List (String × String)} {cs : List Elem}
    (hk : ∀ a ∈ extra, a.1 ∉ trackKeys) (hd : DistinctAttrs (attrs ++ extra)) (t : Track R) :
    Track.read R b (.mk n (attrs ++ extra) cs) = .ok t ↔ Track.read R b (.mk n attrs cs) = .ok t := by
  rw [read_track_entry_iff, read_track_entry_iff]
  have hd' : DistinctAttrs attrs := by
    unfold DistinctAttrs at hd ⊢
    rw [List.map_append] at hd
    exact (List.nodup_append.1 hd).1
  unfold TrackIn
  refine and_congr (iff_of_true hd hd') (and_congr_left' (trackAttrs_congr ?_))
  intro k hk' v
  simp only [Elem.attrs, List.mem_append, or_iff_left_iff_imp]
  exact fun hx => absurd hk' (hk _ hx)

theorem ReorderedAll.pointwise {es es' : List Elem} (h : ReorderedAll es es') : Pointwise Reordered es es' := by
  induction es generalizing es' with
  | nil => cases h; exact .nil
  | cons e es ih =>
    cases h with
    | cons h t => exact .cons h (ih t)

theorem pointwise_split {α β : Type} {P : α → β → Prop} {a b : List α} {l : List β} (h : Pointwise P (a ++ b) l) :
    ∃ a' b', l = a' ++ b' ∧ Pointwise P a a' ∧ Pointwise P b b' := by
  induction a generalizing l with
  | nil => exact ⟨[], l, rfl, .nil, h⟩
  | cons x a ih =>
    cases h with
    | cons h t =>
      obtain ⟨a', b', rfl, h1, h2⟩ := ih t
      exact ⟨_ :: a', b', rfl, .cons h h1, h2⟩

theorem pointwise_names {p : String → Prop} {a a' : List Elem} (h : Pointwise Reordered a a') (ha : ∀ e ∈ a, p e.name) :
    ∀ e ∈ a', p e.name := by
  induction h with
  | nil => intro e he; cases he
  | cons h t ih =>
    intro e he
    rcases List.mem_cons.1 he with rfl | he
    · exact h.name ▸ ha _ (List.mem_cons_self ..)
    · exact ih (fun x hx => ha x (List.mem_cons_of_mem _ hx)) e he

theorem group_reordered {tag : String} {cs cs' group : List Elem} (h : Pointwise Reordered cs cs')
    (hg : GroupOf tag cs group) : ∃ group', GroupOf tag cs' group' ∧ Pointwise Reordered group group' := by
  obtain ⟨a, b, rfl, h1, h2⟩ := hg
  obtain ⟨ag, b', rfl, h3, h4⟩ := pointwise_split h
  obtain ⟨a', g', rfl, h5, h6⟩ := pointwise_split h3
  refine ⟨g', ⟨a', b', rfl, pointwise_names (p := (· = tag)) h6 h1, ?_⟩, h6⟩
  intro e he
  rcases List.mem_append.1 he with he | he
  · exact pointwise_names (p := (· ≠ tag)) h5 (fun x hx => h2 x (List.mem_append_left _ hx)) e he
  · exact pointwise_names (p := (· ≠ tag)) h4 (fun x hx => h2 x (List.mem_append_right _ hx)) e he

theorem only_group {tag : String} {e c : Elem} : OnlyChild tag e c ↔ GroupOf tag e.children [c] := by
  constructor
  · rintro ⟨a, b, h1, h2, h3⟩
    exact ⟨a, b, by simp [h1], by simpa using h2, h3⟩
  · rintro ⟨a, b, h1, h2, h3⟩
    exact ⟨a, b, by simp [h1], by simpa using h2, h3⟩

theorem Reordered.children {e e' : Elem} (h : Reordered e e') : Pointwise Reordered e.children e'.children := by
  cases h with
  | mk h hc => exact hc.pointwise

theorem only_reordered {tag : String} {e e' c : Elem} (h : Reordered e e') (ho : OnlyChild tag e c) :
    ∃ c', OnlyChild tag e' c' ∧ Reordered c c' := by
  obtain ⟨g, h1, h2⟩ := group_reordered h.children (only_group.1 ho)
  cases h2 with
  | cons h2 t =>
    cases t
    exact ⟨_, only_group.2 h1, h2⟩

theorem pointwise_reordered {β : Type} {P : Elem → β → Prop} (hP : ∀ {e e' x}, Reordered e e' → P e x → P e' x)
    {g g' : List Elem} (h : Pointwise Reordered g g') {l : List β} (hp : Pointwise P g l) : Pointwise P g' l := by
  induction h generalizing l with
  | nil => cases hp; exact .nil
  | cons h t ih =>
    cases hp with
    | cons h1 h2 => exact .cons (hP h h1) (ih h2)

theorem Reordered.has {e e' : Elem} (h : Reordered e e') (k : String) (v : String) : (k, v) ∈ e.attrs ↔ (k, v) ∈ e'.attrs :=
  h.attrs.mem_iff

theorem tempo_reordered {R : FloatText} {e e' : Elem} {t : Tempo R} (h : Reordered e e') (ht : TempoIn e t) : TempoIn e' t := by
  obtain ⟨h0, h1, h2, h3, h4⟩ := ht
  exact ⟨h0.perm h.attrs, (says_congr (h.has _)).1 h1, (says_congr (h.has _)).1 h2, (says_congr (h.has _)).1 h3,
    (says_congr (h.has _)).1 h4⟩

theorem mark_reordered {R : FloatText} {b : Bool} {e e' : Elem} {t : PositionMark R} (h : Reordered e e') (ht : MarkIn b e t) :
    MarkIn b e' t := by
  obtain ⟨h0, h1, h2, h3, h4, h5⟩ := ht
  exact ⟨h0.perm h.attrs, (says_congr (h.has _)).1 h1, (says_congr (h.has _)).1 h2, (says_congr (h.has _)).1 h3,
    (saysOpt_congr (h.has _)).1 h4, (says_congr (h.has _)).1 h5⟩

theorem track_reordered {R : FloatText} {b : Bool} {e e' : Elem} {t : Track R} (h : Reordered e e') (ht : TrackIn b e t) :
    TrackIn b e' t := by
  obtain ⟨h0, h1, ⟨g, h2, h3⟩, g2, h4, h5⟩ := ht
  obtain ⟨g', k1, k2⟩ := group_reordered h.children h2
  obtain ⟨g2', k3, k4⟩ := group_reordered h.children h4
  exact ⟨h0.perm h.attrs, (trackAttrs_congr fun k _ => h.has k).1 h1, ⟨g', k1, pointwise_reordered (P := TempoIn) tempo_reordered k2 h3⟩,
    g2', k3, pointwise_reordered (P := MarkIn b) mark_reordered k4 h5⟩

theorem collection_reordered {R : FloatText} {b : Bool} {e e' : Elem} {c : Collection R} (h : Reordered e e')
    (hc : CollectionIn b e c) : CollectionIn b e' c := by
  obtain ⟨h0, h1, h2, g, h3, h4⟩ := hc
  obtain ⟨g', k1, k2⟩ := group_reordered h.children h3
  exact ⟨h0.perm h.attrs, (says_congr (h.has _)).1 h1, h2, g', k1, pointwise_reordered (P := TrackIn b) track_reordered k2 h4⟩

theorem document_reordered {R : FloatText} {b : Bool} {e e' : Elem} {d : Document R} (h : Reordered e e')
    (hg : GoodPlaylists e) (hd : DocumentIn b e d) : DocumentIn b e' d := by
  obtain ⟨h0, h1, ⟨c1, o1, p0, p1, p2, p3⟩, ⟨c2, o2, h2⟩, c3, r, o3, h3, o4, h4⟩ := hd
  obtain ⟨c1', q1, r1⟩ := only_reordered h o1
  obtain ⟨c2', q2, r2⟩ := only_reordered h o2
  obtain ⟨c3', q3, r3⟩ := only_reordered h o3
  obtain ⟨r', q4, r4⟩ := only_reordered r3 o4
  have m1 : c3 ∈ e.children := by obtain ⟨a, b, h, -⟩ := o3; rw [h]; simp
  have m2 : r ∈ c3.children := by obtain ⟨a, b, h, -⟩ := o4; rw [h]; simp
  have m3 : c3.name = "PLAYLISTS" := by obtain ⟨a, b, -, h, -⟩ := o3; exact h
  exact ⟨h0.perm h.attrs, (says_congr (h.has _)).1 h1,
    ⟨c1', q1, p0.perm r1.attrs, (says_congr (r1.has _)).1 p1, (says_congr (r1.has _)).1 p2, (says_congr (r1.has _)).1 p3⟩,
    ⟨c2', q2, collection_reordered r2 h2⟩, c3', r', q3, h3.perm r3.attrs, q4,
    (root_attribute_order r4 (hg c3 m1 m3 r m2) _).1 h4⟩

/-- C74: the order of attributes does not matter for what is read, anywhere in a document, provided that nodes below the
root node have only the attributes that their reader knows. -/
theorem document_attribute_order {R : FloatText} (b : Bool) {e e' : Elem} (h : Reordered e e') (hg : GoodPlaylists e)
    (d : Document R) : Document.read R b e = .ok d ↔ Document.read R b e' = .ok d := by
  rw [read_document_iff, read_document_iff]
  refine ⟨document_reordered h hg, document_reordered h.symm ?_⟩
  intro p' hp' hn r' hr' c' hc'
  have sub : ∀ {e e' x' : Elem}, Reordered e e' → x' ∈ e'.children → ∃ x ∈ e.children, Reordered x x' := by
    intro e e' x' h hx
    cases h with
    | mk h hc => exact hc.mem hx
  obtain ⟨p, m1, r1⟩ := sub h hp'
  obtain ⟨r, m2, r2⟩ := sub r1 hr'
  obtain ⟨c, m3, r3⟩ := sub r2 hc'
  exact r3.good (hg p m1 (r1.name.trans hn) r m2 c m3)

theorem writeNodes_good {nodes : List Node} (hs : SizedAll nodes) {c : Elem} (hc : c ∈ writeNodes nodes) :
    GoodNodes c := by
  induction nodes with
  | nil => cases hc
  | cons x xs ih =>
    rcases List.mem_cons.1 hc with rfl | hc
    · exact written_good hs.1
    · exact ih hs.2 hc

theorem written_playlists {R : FloatText} {d : Document R} (hf : d.Fits) : GoodPlaylists d.write := by
  intro p hp hn r hr c hc
  simp only [Document.write, Elem.children, List.mem_cons, List.not_mem_nil, or_false] at hp
  rcases hp with rfl | rfl | rfl
  · simp [Product.write, Elem.name] at hn
  · simp [Collection.write, Elem.name] at hn
  · rw [List.mem_singleton.1 hr] at hc
    exact writeNodes_good hf.2.2 hc

/-- C73 and C74: what comes back does not change if another program puts the attributes in another order. -/
theorem reordered_document_back {R : FloatText} (hR : R.Lawful) (b : Bool) {d : Document R} (hf : d.Fits) {e : Elem}
    (h : Reordered d.write e) (y : Document R) : Document.read R b e = .ok y ↔ d.Readable b ∧ y = d.back b :=
  (document_attribute_order b h (written_playlists hf) y).symm.trans (document_back hR b hf y)

mutual
theorem reordered_refl : (e : Elem) → Reordered e e
  | .mk _ _ cs => .mk (.refl _) (reorderedAll_refl cs)
theorem reorderedAll_refl : (es : List Elem) → ReorderedAll es es
  | [] => .nil
  | e :: es => .cons (reordered_refl e) (reorderedAll_refl es)
end

/-! ## Examples -/

/-- Whole numbers in the place of floating point numbers. -/
def wholeFloats : FloatText := ⟨Int, showInt, parseI32⟩

theorem wholeFloats_lawful : wholeFloats.Lawful := by
  unfold FloatText.Lawful wholeFloats
  decide +kernel

theorem wholeFloats_stable {x : Int} (h : IsI32 x) : wholeFloats.Stable x := (i32_text_iff _ _).2 (showInt_i32 h)

/-- A track with everything. -/
def fullTrack : Track wholeFloats where
  trackId := 1
  name := some "x1"
  artist := some "x2"
  composer := some "x3"
  album := some "x4"
  grouping := some "x5"
  genre := some "x6"
  kind := some "x7"
  size := some 9
  totalTime := some (109 : Int)
  discNumber := some 11
  trackNumber := some 12
  year := some 13
  averageBpm := some (113 : Int)
  dateModified := some "x14"
  dateAdded := some "x15"
  bitRate := some 17
  sampleRate := some (117 : Int)
  comments := some "x18"
  playCount := some 20
  lastPlayed := some "x20"
  rating := some 22
  location := "x22"
  remixer := some "x23"
  tonality := some "x24"
  label := some "x25"
  mix := some "x26"
  colour := some "x27"
  tempos := [⟨(0 : Int), (128 : Int), "4/4", 1⟩, ⟨(7 : Int), (64 : Int), "3/4", 2⟩]
  positionMarks := [⟨"", 0, (5 : Int), none, -1⟩, ⟨"Loop", 4, (6 : Int), some (9 : Int), 0⟩]

/-- A document with this track, a copy of it without dates, and a playlist. -/
def exampleDocument : Document wholeFloats where
  version := "1,0,0"
  product := ⟨"rekordbox", "6.0.0", "Pioneer DJ"⟩
  collection := ⟨2, [fullTrack, { fullTrack with trackId := 2, dateAdded := none, colour := none, tempos := [] }]⟩
  rootName := "ROOT"
  rootNodes := [.folder "Sets" [.playlist "Warm up" "0" [1, 2]]]

theorem fullTrack_fits : fullTrack.Fits := by
  simp [Track.Fits, fullTrack, Tempo.Fits, PositionMark.Fits, IsI32, IsI64]
  have h : ∀ {y : Int}, IsI32 y → ∀ x : wholeFloats.F, some y = some x → wholeFloats.Stable x := by
    intro y hy x hx
    cases hx
    exact wholeFloats_stable hy
  refine ⟨h ?_, h ?_, h ?_, ⟨⟨wholeFloats_stable ?_, wholeFloats_stable ?_⟩, wholeFloats_stable ?_, wholeFloats_stable ?_⟩,
    wholeFloats_stable ?_, wholeFloats_stable ?_, h ?_⟩ <;> refine ⟨?_, ?_⟩ <;> decide

theorem exampleDocument_fits : exampleDocument.Fits := by
  have h := fullTrack_fits
  refine ⟨by simp [exampleDocument, IsI32], ?_, by simp [exampleDocument, SizedAll, Node.Sized]⟩
  intro t ht
  simp only [exampleDocument, List.mem_cons, List.not_mem_nil, or_false] at ht
  rcases ht with rfl | rfl
  · exact h
  · unfold Track.Fits at h ⊢
    obtain ⟨h1, h2⟩ := h
    refine ⟨by simp [IsI32], ?_⟩
    simp only [List.not_mem_nil, false_implies, implies_true, true_and]
    exact ⟨h2.1, h2.2.1, h2.2.2.1, h2.2.2.2.1, h2.2.2.2.2.1, h2.2.2.2.2.2.1, h2.2.2.2.2.2.2.1, h2.2.2.2.2.2.2.2.1,
      h2.2.2.2.2.2.2.2.2.1, h2.2.2.2.2.2.2.2.2.2.1, h2.2.2.2.2.2.2.2.2.2.2.2⟩

/-- The hypotheses of `document_roundtrip_partial` can be met. -/
theorem exampleDocument_roundtrip (b : Bool) : Document.read wholeFloats b exampleDocument.write = .ok exampleDocument := by
  refine document_roundtrip_partial wholeFloats_lawful b exampleDocument_fits ?_ ?_ ?_ ?_
  · simp [exampleDocument]
  · intro t ht
    simp only [exampleDocument, List.mem_cons, List.not_mem_nil, or_false] at ht
    rcases ht with rfl | rfl <;> simp [Track.Filled, fullTrack]
  · simp [exampleDocument]
  · simp [exampleDocument, FullAll, Node.Full]

/-- A case of `track_unknown_ignored`. -/
example (b : Bool) : Track.read wholeFloats b (.mk "TRACK" (fullTrack.attrs ++ [("BeatGridLocked", "1")]) []) =
    .ok { fullTrack with tempos := [], positionMarks := [] } := by
  have h : ({ fullTrack with tempos := [], positionMarks := [] } : Track wholeFloats).back b =
      { fullTrack with tempos := [], positionMarks := [] } := by
    cases b <;> simp [Track.back, fullTrack, backText, backSkipped]
  refine (track_unknown_ignored b (by simp [trackKeys]) (by unfold DistinctAttrs; decide +kernel) _).2 ?_
  have := track_back (t := { fullTrack with tempos := [], positionMarks := [] }) wholeFloats_lawful b ?_ ?_
  · rw [h] at this
    exact (read_track_entry_iff b _ _).2 this
  · have h := fullTrack_fits
    unfold Track.Fits at h ⊢
    obtain ⟨a1, a2, a3, a4, a5, a6, a7, a8, a9, a10, a11, -⟩ := h
    exact ⟨a1, a2, a3, a4, a5, a6, a7, a8, a9, a10, a11, by simp, by simp⟩
  · simp [Track.Readable, fullTrack, KeptNumber]

/-- A case of `reordered_document_back`: the attributes of the product the other way round. -/
example (b : Bool) : Document.read wholeFloats b (.mk "DJ_PLAYLISTS" [("Version", "1,0,0")]
    [.mk "PRODUCT" [("Company", "Pioneer DJ"), ("Version", "6.0.0"), ("Name", "rekordbox")] [],
      exampleDocument.collection.write,
      .mk "PLAYLISTS" [] [writeRoot "ROOT" exampleDocument.rootNodes]]) = .ok exampleDocument := by
  have h := (document_back wholeFloats_lawful b exampleDocument_fits _).1 (exampleDocument_roundtrip b)
  refine (reordered_document_back wholeFloats_lawful b exampleDocument_fits (.mk (.refl _) (.cons (.mk ?_ .nil)
    (.cons (reordered_refl _) (.cons (reordered_refl _) .nil)))) _).2 h
  exact List.reverse_perm [("Company", "Pioneer DJ"), ("Version", "6.0.0"), ("Name", "rekordbox")]

/-- The example with another list of tracks. -/
def exampleWith (tracks : List (Track wholeFloats)) : Document wholeFloats :=
  { exampleDocument with collection := ⟨tracks.length, tracks⟩ }

theorem exampleWith_fits {t : Track wholeFloats} (h : t.Fits) : (exampleWith [t]).Fits := by
  refine ⟨by simp [exampleWith, IsI32], ?_, exampleDocument_fits.2.2⟩
  simpa [exampleWith] using h

/-- C73 in full is false, whatever becomes of empty attributes: a collection without tracks is written but cannot be read. -/
theorem empty_collection_unreadable (b : Bool) :
    (exampleWith []).Fits ∧ ∀ y, Document.read wholeFloats b (exampleWith []).write ≠ .ok y := by
  have hf : (exampleWith []).Fits := ⟨by simp [exampleWith, IsI32], by simp [exampleWith], exampleDocument_fits.2.2⟩
  refine ⟨hf, fun y h => ?_⟩
  exact ((document_back wholeFloats_lawful b hf y).1 h).1.1 rfl

/-- C73: if empty attributes are not taken as missing, one track without a year makes the whole document unreadable. -/
theorem missing_number_unreadable :
    (exampleWith [{ fullTrack with year := none }]).Fits ∧
    ∀ y, Document.read wholeFloats false (exampleWith [{ fullTrack with year := none }]).write ≠ .ok y := by
  have hf : (exampleWith [{ fullTrack with year := none }]).Fits := by
    refine exampleWith_fits ?_
    have h := fullTrack_fits
    unfold Track.Fits at h ⊢
    obtain ⟨a1, a2, a3, a4, a5, -, a7⟩ := h
    exact ⟨a1, a2, a3, a4, a5, fun x hx => (by cases hx), a7⟩
  refine ⟨hf, fun y h => ?_⟩
  have h1 := ((document_back wholeFloats_lawful false hf y).1 h).1.2.1 _ (List.mem_singleton.2 rfl)
  have h2 : KeptNumber false (none : Option Int) := h1.2.2.2.2.1
  simp [KeptNumber] at h2

/-- C73: if empty attributes are not taken as missing, a track without album comes back with an empty one; otherwise a
track with an empty album comes back without. -/
theorem album_changes (b : Bool) :
    (exampleWith [{ fullTrack with album := if b then some "" else none }]).Fits ∧
    Document.read wholeFloats b (exampleWith [{ fullTrack with album := if b then some "" else none }]).write =
      .ok (exampleWith [{ fullTrack with album := if b then none else some "" }]) := by
  have hf : (exampleWith [{ fullTrack with album := if b then some "" else none }]).Fits := exampleWith_fits fullTrack_fits
  refine ⟨hf, (document_back wholeFloats_lawful b hf _).2 ⟨⟨by simp [exampleWith], ?_, ?_, ?_⟩, ?_⟩⟩
  · intro t ht
    rw [List.mem_singleton.1 ht]
    simp [Track.Readable, fullTrack, KeptNumber]
  · simp [exampleWith, exampleDocument]
  · simp [exampleWith, exampleDocument, FullAll, Node.Full]
  · cases b <;> simp [exampleWith, Document.back, Track.back, fullTrack, backText, backSkipped]

end Xml
end Rekordcrate
