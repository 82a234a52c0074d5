import Verif.Model.Cli

/-! # Model of `dump-pdb` (`src/main.rs`)

The text of `Debug` is not modelled: a line is the value that is shown.  What is modelled is whether showing
it panics. -/

namespace Rekordcrate

/-! ## Which values can be shown with `Debug` -/

/-- Outcome of `Debug for DeviceSQLString`, `src/pdb/string.rs` 139-171, text left out. -/
def DString.debugFmt (s : DString) : Res Unit :=
  match s.display fun _ => "" with
  | .ok _ => .ok ()
  | .err e => .err e
  | .panic => .panic

/-- The strings in a row, in the order of the fields, `src/pdb/mod.rs` 1005-1939. -/
def PlainRow.shown : PlainRow → List DString
  | album r => OffsetItems.asItems r.offsets.inner
  | artist r => OffsetItems.asItems r.offsets.inner
  | artwork r => [r.path]
  | color r => [r.name]
  | genre r => [r.name]
  | historyPlaylist r => [r.name]
  | historyEntry _ => []
  | history r => [r.date, r.version, r.label]
  | key r => [r.name]
  | label r => [r.name]
  | playlistTreeNode r => [r.name]
  | playlistEntry _ => []
  | columnEntry r => [r.columnName]
  | menu _ => []
  | track r => OffsetItems.asItems r.offsets.inner

/-- The strings in a row, in the order of the fields, `src/pdb/ext.rs` 87-150. -/
def ExtRow.shown : ExtRow → List DString
  | tag r => OffsetItems.asItems r.offsets.inner
  | trackTag _ => []

/-- The strings in a row, `src/pdb/mod.rs` 2042-2078. -/
def Row.shown : Row → List DString
  | plain r => r.shown
  | ext r => r.shown
  | unknown => []

/-- Values are shown one after the other until one panics.  The fields and items of what is shown at
`src/main.rs` 282-297. -/
def debugAll {α : Type} (f : α → Res Unit) : List α → Res Unit
  | [] => .ok ()
  | x :: xs => do
    f x
    debugAll f xs

/-- Outcome of the derived `Debug` of a row, `src/pdb/mod.rs` 1005-2078: only strings can make it panic. -/
def Row.debugFmt (r : Row) : Res Unit := debugAll DString.debugFmt r.shown

/-- Outcome of the derived `Debug` of an index page, `src/pdb/mod.rs` 355-375. -/
def IndexPageContent.debugFmt (c : IndexPageContent) : Res Unit := debugAll IndexEntry.debugFmt c.entries

/-- Outcome of the derived `Debug` of a page, `src/pdb/mod.rs` 428-439, 551-564: it shows the rows in the order
of the map or the index entries. -/
def Page.debugFmt (pg : Page) : Res Unit :=
  match pg.content with
  | .data c => debugAll (fun kr : UInt16 × Row => kr.2.debugFmt) c.rows
  | .index c => c.debugFmt

/-! ## The command -/

/-- A line of the output, `src/main.rs` 282-321; `failed` goes to the standard error. -/
inductive DumpItem where
  | header (h : Header)
  | table (i : Nat) (t : PageType)
  | skipped
  | page (pg : Page)
  | row (r : Row)
  | index (c : IndexPageContent)
  | entry (e : IndexEntry)
  | failed (i : Nat) (e : Err)
  deriving DecidableEq, Repr

/-- Outcome of showing a line.  The lines are those of `src/main.rs` 282-312. -/
def DumpItem.debugFmt : DumpItem → Res Unit
  | page pg => pg.debugFmt
  | row r => r.debugFmt
  | index c => c.debugFmt
  | entry e => e.debugFmt
  | _ => .ok ()

/-- `println!` for one line after the other, up to a panic.  Writing to the terminal is assumed to work.  Used
at `src/main.rs` 282-312. -/
def printItems : List DumpItem → List DumpItem × Res Unit
  | [] => ([], .ok ())
  | x :: xs =>
    match x.debugFmt with
    | .ok () => (x :: (printItems xs).1, (printItems xs).2)
    | .err e => ([], .err e)
    | .panic => ([], .panic)

/-- The lines for a page, `src/main.rs` 287-300. -/
def pageItems (pg : Page) : List DumpItem :=
  .page pg ::
    match pg.content with
    | .data c => c.rows.map fun kr => .row kr.2
    | .index c => .index c :: c.entries.map .entry

/-- The loop of `dump_table`, `src/main.rs` 286-301: the lines, the outcome, and the iterator afterwards. -/
def dumpPages (it : PageIterator) : List DumpItem × Res Unit × PageIterator :=
  match h : it.next with
  | (.ok none, it') => ([], .ok (), it')
  | (.err e, it') => ([], .err e, it')
  | (.panic, it') => ([], .panic, it')
  | (.ok (some slot), it') =>
    match it'.pages[slot]? with
    | some (.loaded pg) =>
      match printItems (pageItems pg) with
      | (l, .ok ()) =>
        let r := dumpPages it'
        (l ++ r.1, r.2)
      | (l, .err e) => (l, .err e, it')
      | (l, .panic) => (l, .panic, it')
    | _ => ([], .panic, it')
termination_by it.len
decreasing_by exact PageIterator.next_len h

/-- `dump_table`, `src/main.rs` 284-303, and the database afterwards. -/
def dumpTable (d : Database) (i : Nat) : List DumpItem × Res Unit × Database :=
  match d.iterPagesForTable i with
  | .err e => ([], .err e, d)
  | .panic => ([], .panic, d)
  | .ok it => ((dumpPages it).1, (dumpPages it).2.1, d.after (dumpPages it).2.2)

/-- `matches!(page_type, PageType::Unknown(_))`, `src/main.rs` 309. -/
def PageType.isUnknown : PageType → Bool
  | unknown _ => true
  | _ => false

/-- The loop over the tables, `src/main.rs` 306-319; `i` is the number of the first table in the list. -/
def dumpTables (parseUnknown : Bool) (i : Nat) : List Table → Database → List DumpItem × Res Unit
  | [], _ => ([], .ok ())
  | t :: ts, d =>
    if t.pageType.isUnknown && !parseUnknown then
      let r := dumpTables parseUnknown (i + 1) ts d
      (.table i t.pageType :: .skipped :: r.1, r.2)
    else
      match dumpTable d i with
      | (l, .ok (), d') =>
        let r := dumpTables parseUnknown (i + 1) ts d'
        (.table i t.pageType :: (l ++ r.1), r.2)
      | (l, .err e, d') =>
        let r := dumpTables parseUnknown (i + 1) ts d'
        (.table i t.pageType :: (l ++ .failed i e :: r.1), r.2)
      | (l, .panic, _) => (.table i t.pageType :: l, .panic)

/-- `dump_pdb`, `src/main.rs` 278-322; `file` is the content of the file if it can be opened. -/
def dumpPdb (file : Option Bytes) (db : DatabaseType) (parseUnknown : Bool) : List DumpItem × Res Unit :=
  match file with
  | none => ([], .err .io)
  | some bs =>
    match Database.openAt bs 0 db with
    | .err e => ([], .err e)
    | .panic => ([], .panic)
    | .ok d =>
      let r := dumpTables parseUnknown 0 d.content.header.tables d
      (.header d.content.header :: r.1, r.2)

end Rekordcrate
