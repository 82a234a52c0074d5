import Verif.Model.Dump
import Verif.Spec.Database

/-! # Specification vocabulary for `dump-pdb` -/

namespace Rekordcrate

/-! ## What can be shown -/

/-- The string is in the row. -/
inductive StringIn : DString → Row → Prop where
  | album (r : Album) : StringIn r.offsets.inner.name (.plain (.album r))
  | artist (r : Artist) : StringIn r.offsets.inner.name (.plain (.artist r))
  | artwork (r : Artwork) : StringIn r.path (.plain (.artwork r))
  | color (r : Color) : StringIn r.name (.plain (.color r))
  | genre (r : Genre) : StringIn r.name (.plain (.genre r))
  | historyPlaylist (r : HistoryPlaylist) : StringIn r.name (.plain (.historyPlaylist r))
  | historyDate (r : History) : StringIn r.date (.plain (.history r))
  | historyVersion (r : History) : StringIn r.version (.plain (.history r))
  | historyLabel (r : History) : StringIn r.label (.plain (.history r))
  | key (r : Key) : StringIn r.name (.plain (.key r))
  | label (r : Label) : StringIn r.name (.plain (.label r))
  | playlistTreeNode (r : PlaylistTreeNode) : StringIn r.name (.plain (.playlistTreeNode r))
  | columnEntry (r : ColumnEntry) : StringIn r.columnName (.plain (.columnEntry r))
  | isrc (r : Track) : StringIn r.offsets.inner.isrc (.plain (.track r))
  | lyricist (r : Track) : StringIn r.offsets.inner.lyricist (.plain (.track r))
  | unknownString2 (r : Track) : StringIn r.offsets.inner.unknownString2 (.plain (.track r))
  | unknownString3 (r : Track) : StringIn r.offsets.inner.unknownString3 (.plain (.track r))
  | unknownString4 (r : Track) : StringIn r.offsets.inner.unknownString4 (.plain (.track r))
  | message (r : Track) : StringIn r.offsets.inner.message (.plain (.track r))
  | publishTrackInformation (r : Track) : StringIn r.offsets.inner.publishTrackInformation (.plain (.track r))
  | autoloadHotcues (r : Track) : StringIn r.offsets.inner.autoloadHotcues (.plain (.track r))
  | unknownString5 (r : Track) : StringIn r.offsets.inner.unknownString5 (.plain (.track r))
  | unknownString6 (r : Track) : StringIn r.offsets.inner.unknownString6 (.plain (.track r))
  | dateAdded (r : Track) : StringIn r.offsets.inner.dateAdded (.plain (.track r))
  | releaseDate (r : Track) : StringIn r.offsets.inner.releaseDate (.plain (.track r))
  | mixName (r : Track) : StringIn r.offsets.inner.mixName (.plain (.track r))
  | unknownString7 (r : Track) : StringIn r.offsets.inner.unknownString7 (.plain (.track r))
  | analyzePath (r : Track) : StringIn r.offsets.inner.analyzePath (.plain (.track r))
  | analyzeDate (r : Track) : StringIn r.offsets.inner.analyzeDate (.plain (.track r))
  | comment (r : Track) : StringIn r.offsets.inner.comment (.plain (.track r))
  | title (r : Track) : StringIn r.offsets.inner.title (.plain (.track r))
  | unknownString8 (r : Track) : StringIn r.offsets.inner.unknownString8 (.plain (.track r))
  | filename (r : Track) : StringIn r.offsets.inner.filename (.plain (.track r))
  | filePath (r : Track) : StringIn r.offsets.inner.filePath (.plain (.track r))
  | tagName (r : TagOrCategory) : StringIn r.offsets.inner.name (.ext (.tag r))
  | tagUnknown (r : TagOrCategory) : StringIn r.offsets.inner.unknown (.ext (.tag r))

/-- The bytes of an ASCII string are valid UTF-8; other kinds of strings can always be shown. -/
def DString.Valid : DString → Prop
  | .short bs => (fromUtf8 bs).isSome
  | .long (.ascii bs) => (fromUtf8 bs).isSome
  | .long (.isrc _) => True
  | .long (.ucs2le _) => True

/-- An index entry that marks an empty slot or leads to a page with a number below `0x3FFFFFF`. -/
def IndexEntry.Valid (e : IndexEntry) : Prop := e.raw.toNat = 0x1FFFFFF8 ∨ e.raw.toNat / 8 < 0x03FFFFFF

/-- A page that can be shown. -/
def Page.Showable (pg : Page) : Prop :=
  (∀ c, pg.content = .data c → ∀ kr ∈ c.rows, ∀ s, StringIn s kr.2 → s.Valid) ∧
    ∀ c, pg.content = .index c → ∀ e ∈ c.entries, e.Valid

/-! ## What should be shown -/

/-- The lines for a page: the page, then its rows, or its index and the entries. -/
def Page.lines (pg : Page) : List DumpItem :=
  [.page pg] ++
    match pg.content with
    | .data c => c.rows.map fun kr => .row kr.2
    | .index c => [.index c] ++ c.entries.map .entry

/-- Following the links of a table from page `n` to page `last`, with all pages from `lo` on still to come:
the pages on the way and how it ends.  The pages are those the user sees when nothing is loaded before. -/
inductive Database.Trail (d : Database) (last : Nat) : Nat → Nat → List (Nat × Page) → Res Unit → Prop where
  /-- The last page. -/
  | last {lo : Nat} {pg : Page} (hlo : lo ≤ last) (h : d.view last = .ok pg) : Trail d last lo last [(last, pg)] (.ok ())
  /-- A page with a link. -/
  | link {lo n : Nat} {pg : Page} {l : List (Nat × Page)} {r : Res Unit} (hlo : lo ≤ n) (hne : n ≠ last)
      (h : d.view n = .ok pg) (t : Trail d last (n + 1) pg.header.nextPage.val.toNat l r) :
      Trail d last lo n ((n, pg) :: l) r
  /-- A link back. -/
  | back {lo n : Nat} (hlo : n < lo) : Trail d last lo n [] (.err (.pageOrderViolation n))
  /-- A page that does not exist or cannot be read. -/
  | fails {lo n : Nat} {e : Err} (hlo : lo ≤ n) (h : d.view n = .err e) : Trail d last lo n [] (.err e)
  /-- A page that makes the reader panic. -/
  | panics {lo n : Nat} (hlo : lo ≤ n) (h : d.view n = .panic) : Trail d last lo n [] .panic

/-- The trail of a table. -/
def Database.TrailOf (d : Database) (t : Table) (l : List (Nat × Page)) (r : Res Unit) : Prop :=
  d.Trail t.lastPage.val.toNat 1 t.firstPage.val.toNat l r

/-- The lines for some tables, numbered from `i` on, and the outcome. -/
inductive DumpOf (d : Database) (parseUnknown : Bool) : Nat → List Table → List DumpItem → Res Unit → Prop where
  | done {i : Nat} : DumpOf d parseUnknown i [] [] (.ok ())
  /-- A table of unknown type is skipped unless the user wants it. -/
  | skip {i : Nat} {t : Table} {ts : List Table} {out : List DumpItem} {r : Res Unit} {c : UInt32}
      (hu : t.pageType = .unknown c) (hp : parseUnknown = false) (rest : DumpOf d parseUnknown (i + 1) ts out r) :
      DumpOf d parseUnknown i (t :: ts) (.table i t.pageType :: .skipped :: out) r
  /-- All pages of the table are shown. -/
  | full {i : Nat} {t : Table} {ts : List Table} {out : List DumpItem} {r : Res Unit} {l : List (Nat × Page)}
      (ha : (∀ c, t.pageType ≠ .unknown c) ∨ parseUnknown = true) (hl : d.TrailOf t l (.ok ()))
      (hs : ∀ x ∈ l, x.2.Showable) (rest : DumpOf d parseUnknown (i + 1) ts out r) :
      DumpOf d parseUnknown i (t :: ts) (.table i t.pageType :: (l.flatMap (fun x => x.2.lines) ++ out)) r
  /-- The pages up to an error are shown, then the error, and the next table follows. -/
  | failed {i : Nat} {t : Table} {ts : List Table} {out : List DumpItem} {r : Res Unit} {l : List (Nat × Page)} {e : Err}
      (ha : (∀ c, t.pageType ≠ .unknown c) ∨ parseUnknown = true) (hl : d.TrailOf t l (.err e))
      (hs : ∀ x ∈ l, x.2.Showable) (rest : DumpOf d parseUnknown (i + 1) ts out r) :
      DumpOf d parseUnknown i (t :: ts)
        (.table i t.pageType :: (l.flatMap (fun x => x.2.lines) ++ .failed i e :: out)) r
  /-- A page makes the reader panic. -/
  | readPanics {i : Nat} {t : Table} {ts : List Table} {l : List (Nat × Page)}
      (ha : (∀ c, t.pageType ≠ .unknown c) ∨ parseUnknown = true) (hl : d.TrailOf t l .panic)
      (hs : ∀ x ∈ l, x.2.Showable) :
      DumpOf d parseUnknown i (t :: ts) (.table i t.pageType :: l.flatMap (fun x => x.2.lines)) .panic
  /-- A page cannot be shown. -/
  | showPanics {i : Nat} {t : Table} {ts : List Table} {l l' : List (Nat × Page)} {x : Nat × Page} {r : Res Unit}
      (ha : (∀ c, t.pageType ≠ .unknown c) ∨ parseUnknown = true) (hl : d.TrailOf t (l ++ x :: l') r)
      (hs : ∀ y ∈ l, y.2.Showable) (hx : ¬ x.2.Showable) :
      DumpOf d parseUnknown i (t :: ts) (.table i t.pageType :: l.flatMap (fun x => x.2.lines)) .panic

end Rekordcrate
