import Verif.Model.Database

/-! # Writers that fail

The serialisers of the model (`Wr`) say what is written if they succeed.  Here the same serialisers are given with the
writes that have been made when they fail, since the writes go to the file at once and are not taken back. -/

namespace Rekordcrate

/-- A serialiser with its writes, whether or not it succeeds.  For instance the writers at `src/util.rs` 172-193 and
`src/pdb/io.rs` 49-67. -/
def Tw (α : Type) : Type := Nat → List Patch × Res (α × Nat)

namespace Tw

instance : Monad Tw where
  pure a := fun p => ([], .ok (a, p))
  bind m f := fun p =>
    match (m p).2 with
    | .ok (a, q) => ((m p).1 ++ (f a q).1, (f a q).2)
    | .err e => ((m p).1, .err e)
    | .panic => ((m p).1, .panic)

/-- A step whose writes are those of `w` if it succeeds and `begun` if it fails.  For instance `src/pdb/string.rs`
231-245, where the flags are written before the length is computed. -/
def orBegun {α : Type} (w : Wr α) (begun : Nat → List Patch) : Tw α := fun p =>
  match w p with
  | .ok (a, q, ps) => (ps, .ok (a, q))
  | .err e => (begun p, .err e)
  | .panic => (begun p, .panic)

/-- A step that writes nothing if it fails.  For instance the seek at `src/pdb/io.rs` 61. -/
def step {α : Type} (w : Wr α) : Tw α := orBegun w fun _ => []

/-- `bw(restore_position)`.  For instance `src/pdb/mod.rs` 660. -/
def restore {α : Type} (t : Tw α) : Tw α := fun p =>
  ((t p).1, match (t p).2 with
    | .ok (a, _) => .ok (a, p)
    | .err e => .err e
    | .panic => .panic)

/-- Write every item in order.  For instance `src/util.rs` 186-193. -/
def forEach {α : Type} (f : α → Tw Unit) : List α → Tw Unit
  | [] => pure ()
  | a :: as => do
    f a
    forEach f as

end Tw

/-- What is written of a string whose length cannot be represented, `src/pdb/string.rs` 231-245: the flags. -/
def DString.begun (v : DString) (p : Nat) : List Patch :=
  match v with
  | .short _ => []
  | .long b => [⟨p, [b.flags]⟩]

/-- `BinWrite` of a string, `src/pdb/string.rs` 215-246. -/
def DString.writeT (v : DString) : Tw Unit := Tw.orBegun (Wr.emitRes v.enc) v.begun

/-- What is written of fields that alternate with strings, up to the first string that fails.  For instance
`src/pdb/mod.rs` 1328-1349. -/
def begunParts : List (Bytes × DString) → Nat → List Patch
  | [], _ => []
  | (hd, v) :: rest, p => ⟨p, hd⟩ ::
    match v.enc with
    | .ok bs => ⟨p + hd.length, bs⟩ :: begunParts rest (p + hd.length + bs.length)
    | _ => v.begun (p + hd.length)

/-! ## Offset arrays -/

namespace OffsetContainer

variable {T : Type} [OffsetItems T]

/-- The writing loop for calculated offsets, `src/pdb/offset_array.rs` 194-209. -/
def writeItemsT (base : Nat) : List DString → Tw (List Nat)
  | [] => pure []
  | v :: vs => do
    let cur ← Tw.step Wr.pos
    let aligned := alignedOffset (cur - base) v.alignment
    Tw.step (Wr.emit (List.replicate (aligned - (cur - base)) 0))
    v.writeT
    let os ← writeItemsT base vs
    pure (aligned :: os)

/-- The writing loop for provided offsets, `src/pdb/offset_array.rs` 228-236. -/
def writeProvidedT (base : Nat) : List (DString × Nat) → Tw Unit
  | [] => pure ()
  | (v, o) :: rest => do
    Tw.step (Wr.seekBy o)
    v.writeT
    Tw.step (Wr.seekTo base)
    writeProvidedT base rest

/-- `BinWrite`, `src/pdb/offset_array.rs` 181-239. -/
def writeT (c : OffsetContainer T) (offset : Nat) (size : OffsetSize) : Tw Unit := do
  let start ← Tw.step Wr.pos
  let base ← Tw.step (Wr.lift (calculateBase start offset))
  let items := OffsetItems.asItems c.inner
  match c.offsets with
  | none =>
    Tw.step (Wr.seekBy (((OffsetItems.count T + 1) * size.bytes : Nat) : Int))
    let raw ← writeItemsT base items
    let offsets ← Tw.step (Wr.lift (OffsetArray.new raw size))
    Tw.step (Wr.seekTo start)
    Tw.step (Wr.emit offsets.enc)
  | some offsets =>
    Tw.step (Wr.lift (if offsets.sizeMatches size then .ok () else .err .assertFail))
    Tw.step (Wr.emit offsets.enc)
    Tw.step (Wr.seekTo base)
    writeProvidedT base (items.zip offsets.seeks)

end OffsetContainer

/-! ## Rows -/

/-- The strings of a row without offset array, each with the fields in front of it.  The fields are in the order of
`src/pdb/mod.rs` 1112-1593.  Rows without strings, which never fail, and rows with an offset array have no parts. -/
def PlainRow.parts : PlainRow → List (Bytes × DString)
  | .artwork r => [(encU32 r.id, r.path)]
  | .color r => [(encU32 r.unknown1 ++ (encU8 r.unknown2 ++ (r.color.enc ++ encU16 r.unknown3)), r.name)]
  | .genre r => [(encU32 r.id, r.name)]
  | .historyPlaylist r => [(encU32 r.id, r.name)]
  | .history r => [(encU16 r.subtype ++ (encU16 r.indexShift ++ (encU32 r.numTracks ++ encU32 0)), r.date),
      (encU16 0x1E19, r.version), ([], r.label)]
  | .key r => [(encU32 r.id ++ encU32 r.id2, r.name)]
  | .label r => [(encU32 r.id, r.name)]
  | .playlistTreeNode r => [(encU32 r.parentId ++ (encU32 r.unknown ++ (encU32 r.sortOrder ++ (encU32 r.id ++
      encU32 r.nodeIsFolder))), r.name)]
  | .columnEntry r => [(encU16 r.id ++ encU16 r.unknown0, r.columnName)]
  | _ => []

/-- Derived `BinWrite` of `PlainRow`, `src/pdb/mod.rs` 1953-2014, and of the rows, 1005-1918. -/
def PlainRow.writeT : PlainRow → Tw Unit
  | .album r => do
    Tw.step (Wr.emit r.head)
    r.offsets.writeT 20 (offsetSizeOf r.subtype)
  | .artist r => do
    Tw.step (Wr.emit r.head)
    r.offsets.writeT 8 (offsetSizeOf r.subtype)
  | .track r => do
    Tw.step (Wr.emit r.head)
    r.offsets.writeT 92 (offsetSizeOf r.subtype)
  | r => Tw.orBegun r.write (begunParts r.parts)

/-- Derived `BinWrite` of `Row`, `src/pdb/mod.rs` 2042-2078, and of the rows at `src/pdb/ext.rs` 87-150. -/
def Row.writeT : Row → Tw Unit
  | .plain r => r.writeT
  | .ext (.tag r) => do
    Tw.step (Wr.emit r.head)
    r.offsets.writeT 28 (offsetSizeOf r.subtype)
  | .ext (.trackTag r) => Tw.step r.write
  | .unknown => Tw.step Row.unknown.write

/-! ## Pages -/

namespace DataPageContent

/-- `write_at_offsets`, `src/util.rs` 172-193, for one row. -/
def writeRowAtT (base : Nat) (x : UInt16 × Row) : Tw Unit := do
  Tw.step (Wr.seekBy (x.1.toNat : Nat))
  x.2.writeT
  Tw.step (Wr.seekTo base)

/-- `write_at_offsets`, `src/util.rs` 172-193, for rows. -/
def writeAtOffsetsT (rows : RowMap) : Tw Unit := do
  let base ← Tw.step Wr.pos
  Tw.forEach (writeRowAtT base) rows

/-- Row groups are written from the end of the page, `src/pdb/mod.rs` 660-662 and 738-769.  A group only fails if it
would begin in front of the file; then nothing of it was written. -/
def writeGroupsT (heap : Nat) (gs : List RowGroup) : Tw Unit :=
  Tw.restore (do Tw.step (Wr.seekBy (heap : Nat)); Tw.forEach (fun g => Tw.step g.write) gs)

/-- Derived `BinWrite`, `src/pdb/mod.rs` 649-683. -/
def writeT (c : DataPageContent) (pageSize : Nat) : Tw Unit := do
  Tw.step (Wr.emit c.header.enc)
  let heap ← Tw.step (Wr.lift (pageHeapSize pageSize))
  writeGroupsT heap c.rowGroups
  writeAtOffsetsT c.rows
  Tw.step (Wr.seekBy (heap : Nat))

end DataPageContent

/-- Derived `BinWrite`, `src/pdb/mod.rs` 355-375 and 424-439: if there are more entries than places, the header and the
entries have been written. -/
def PageContent.writeT (pageSize : Nat) : PageContent → Tw Unit
  | .data c => c.writeT pageSize
  | .index c => Tw.orBegun (c.write pageSize)
      fun p => [⟨p, c.header.enc⟩, ⟨p + c.header.enc.length, c.entries.flatMap IndexEntry.enc⟩]

/-- Derived `BinWrite`, `src/pdb/mod.rs` 550-564. -/
def Page.writeT (pg : Page) (pageSize : Nat) : Tw Unit := do
  Tw.step (Wr.emit pg.header.enc)
  pg.content.writeT pageSize

/-! ## The database -/

/-- `BinWrite for LazyPage`, `src/pdb/io.rs` 49-67. -/
def LazyPage.writeT (pageSize : UInt32) : LazyPage → Tw Unit
  | .notLoaded => Tw.step (Wr.seekBy (pageSize.toNat : Nat))
  | .loaded pg => pg.writeT pageSize.toNat

/-- Derived `BinWrite`, `src/pdb/io.rs` 28-41. -/
def LazyDatabase.writeT (c : LazyDatabase) : Tw Unit := do
  Tw.step (Wr.emit c.header.enc)
  Tw.step (Wr.emit (List.replicate (c.header.pageSize.toNat - c.header.enc.length) 0))
  Tw.forEach (LazyPage.writeT c.header.pageSize) c.pages

/-- The file after a call of `flush`, `src/pdb/io.rs` 213-218, whether or not the call succeeds.  Errors of the
operating system are not modelled. -/
def Database.fileAfterFlush (d : Database) : Bytes := applyPatches d.io (d.content.writeT 0).1

end Rekordcrate
