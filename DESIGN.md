# Formal model of rekordcrate in Lean 4

The code under study is `/repo` (Rust, `Holzhaus/rekordcrate` at the pinned commit).  It was read as
text only; nothing was built or run.  The model lives in `lean/Verif`, the properties in
`properties.jsonl`, the state of each claim in `MANIFEST.json`, and the log of seeded bugs in
`seeded/LOG.jsonl`.

## 1. Trusted base

* Lean 4.33.0's kernel.  No `sorry`, no own axioms, no `native_decide`, no `bv_decide`.
* The axioms that property theorems depend on are among `propext`, `Classical.choice`, `Quot.sound`
  (checked with `#print axioms`; see section 6).
* The reading of the Rust code (each definition cites file and lines) and of the libraries it calls.
  The library sources (`binrw`, `modular-bitfield`, `crc16`, `serde`, `quick-xml`, `std`) are not
  present in the sandbox; what is assumed of them is listed in section 3.

## 2. Shape of the model

* Bytes are `List UInt8`; integers of fixed width are `UInt8/16/32` where stored, `Nat` where only
  computed with.  Every place where the Rust code can overflow, unwrap or index out of range is an
  explicit `panic` outcome: `Res α = ok a | err e | panic`.  Arithmetic overflow is modelled as in a
  build with overflow checks (the default `cargo build`/`cargo test` profile): it panics.  The files
  `Wrap`, `WrapAnlz`, `WrapAnlzFile` and `WrapTool` are the same code in a build without overflow checks
  (`cargo build --release`; `Cargo.toml` does not change the profile), where arithmetic wraps; C86 ties
  the two together.  Bit field setters, `unwrap` and indexing panic in both.
* A reader is a function `Bytes → Nat → Res (α × Nat)`: the file image, the position, and the
  result with the new position (`Verif/Model/Io.lean`).  The image is never changed by a reader.
* A writer is a function `Nat → Res (α × Nat × List Patch)`: from the position to the new position
  and the list of writes `(offset, bytes)` in program order.  `applyPatches` gives the resulting
  image.  Because the trace is explicit, crash points are prefixes of the trace (a write may be cut
  at any byte).  `emit bs` is one `write_all`; encoders without seeking are plain functions to
  `Bytes` that are emitted once: cutting the concatenation at any byte is the same as cutting the
  sequence of single writes.
* `HasAt img pos bs` ("image `img` holds `bs` at `pos`") is the only connection between the two
  sides, so round-trip theorems hold for every surrounding image.
* `Verif/Model/*` — definitions that model code.  `Verif/Lemmas/*` — helper lemmas.
  `Verif/Spec/*` — small independent specifications (no reference to model helpers).
  `Verif/Props/*` — property theorems, each with a concrete `example` meeting its hypotheses.

## 3. Assumptions about libraries

See the table at the end of each model file and the summary here.

* **std**: `Cursor`/`File` reads deliver all requested bytes that exist; `read_exact` fails with EOF
  otherwise; seeking behind the end is allowed, seeking before 0 is an error; writing overwrites in
  place and extends with zero fill.  `String` is valid UTF-8 (Lean's `String` is defined the same
  way, as a byte array with a validity proof); `encode_utf16`/`from_utf16` are the standard UTF-16
  transcoding (spelled out in the model).
* **binrw** derive: fields in declaration order; `magic` compares and errors; `assert`/`pre_assert`
  error; `temp`+`calc` fields are computed on write and dropped on read; enum variants are tried in
  order, any *error* of a variant restores the position and goes on to the next one (a panic
  propagates); `count = n` reads exactly `n` items; `seek_before` then `restore_position` saves the
  position before the seek; `pad_size_to` writes zeros up to the size if the field is shorter and
  skips on read; `br(try)` replaces an error by the default; `NullString` reads bytes up to and
  excluding a NUL and writes the bytes followed by a NUL; `NullWideString` the same with `u16`;
  `args` of a field are evaluated before its `magic` is compared.
* **modular-bitfield**: fields are packed from the least significant bit in declaration order;
  `set_x`/`with_x` panic when the value does not fit.
* **crc16**: `State::<XMODEM>::calculate` is the table-free CRC: initial value 0, polynomial 0x1021,
  most significant bit first, no reflection, no final xor.
* **serde/quick-xml**: see `Verif/Model/Xml.lean`.

## 4. Plan per property

| id | modelled | proof |
|----|----------|-------|
| C01 | `new`, writer, parser, `into_string` | false in full (`"七a"` is parsed as an ISRC); negation by witness; partial theorem for all other strings, exact condition |
| C02 | constructors | decision logic, case analysis |
| C03 | length computation | false in full at exactly 32766 UTF-16 units; negation by witness; exact characterisation |
| C04 | `heap_bytes_required` | case analysis against length of the encoding |
| C05 | parser | false in full (header 0x01, length below 4 panic under overflow checks; ISRC overruns); exact characterisation of the panicking inputs |
| C06 | parser, writer | inversion; ISRC with inconsistent length excluded (`_partial`), witness |
| C07 | `Display` | false in full for parsed non-UTF-8; negation; partial for constructed strings |
| C08–C10 | bit fields | arithmetic on bytes, all values |
| C11–C13 | index entries, page types, offsets | arithmetic |
| C14 | row group reader/writer | round trip by computation on 16 slots, frame property |
| C15–C18 | `allocate_row` as a step function with a pending insertion | invariant by induction over operations |
| C19–C22 | page reader/writer | round trip from disjointness of patches; frame |
| C23–C24 | all row kinds | compositional round trip; size equality |
| C25–C26 | offset array containers | induction over items |
| C27 | `align_by` | arithmetic |
| C28–C32 | `PageIterator`, `iter_rows` | induction over remaining pages; C32 false in full: witness, exact condition along the trail of pages |
| C33–C39 | `Database` state machine | refinement to a map of pages; trace prefixes for crashes; C34 false at index 0 (overflow checks) |
| C40 | header | round trip |
| C41–C43 | `XorStream` | invariant over operation sequences; C43 false: witness, exact condition for split transfers |
| C44–C47 | ANLZ | round trip; progress; C47 false: exact characterisation of the panicking files, section kind by section kind |
| C48–C49 | wide strings, extended cues | round trip; false for strings ending in NUL: witness and partial |
| C50 | song structure | arithmetic over all counts |
| C51 | columns | arithmetic |
| C52–C55 | settings | CRC against a polynomial specification; table inversion; C55 false: the parse ignores the checksum |
| C56 | `load_settings` | decision logic |
| C57–C58 | `get_playlists` | fuel-indexed recursion; termination for unique non-zero ids; divergence witness |
| C59–C60 | `export_playlists` | sorting; path joining, with the components of the joined path as an invariant; both false in full: witnesses, exact condition for different files, partials |
| C61 | guessing | decision logic; the file name of a path by induction over its separators, described independently of the code (`NamedBy`); false for paths without file name: witness, exact condition |
| C62–C63 | XML visitor | permutation invariance; round trip for non-empty lists, failing witness for empty lists |
| C64 | all writers | byte positions of each field in any file that holds the writes |
| C65 | page reader, page writer | inversion of the reader; the writes are contained in the file; exact condition |
| C66 | page reader | false in full (through C05); witness; exact characterisation of the panicking rows and pages, field by field |
| C67 | ANLZ reader, ANLZ writer | inversion of the reader; byte identity exactly if the length fields of the comments are those of the writer |
| C68 | `list_playlists` | induction on the recursion bound; outlines as an inductive relation; descent for loops |
| C69, C70, C71 | displayed settings, `list_settings`, names of options | lookup in lists of lines; case analysis over options; C56 |
| C72 | `dump_pdb` | trails of pages as an inductive relation with existence and uniqueness; induction over tables with the invariant that loading does not change the view; false in full: witness, exact condition |
| C73, C74 | XML documents | reading characterised by an independent relation between elements and values, field by field; the round trip follows from it for both treatments of empty attributes; false in full: witnesses, exact condition |
| C75 | `flush`, `openAt` | C22 for loaded pages, C65 for pages only in the file, no write touches the other pages |
| C76 | `RowIterator::next`, `from_row_mut` | the loop of the user as an inductive relation; induction along the chain of pages and the rows of a page; C75; false in full: witnesses, sufficient conditions for the room |
| C77 | `iter_rows` loops, `list_playlists`, `export_playlists`, `dump_pdb` | outcomes of loops as an inductive relation over the trail of pages (C72), with existence and uniqueness; induction along the trail |
| C78 | sessions on `Database`, `allocate_row` | induction over the session; C20 for the pages, C75 for the file |
| C79 | sequences of sessions, `flush` and `open` | induction over the sequence: a stored page is sound and in the writer's form again |
| C80 | `main` and all commands | case analysis over commands, with the theorems of the single commands; false in full: witnesses, exact conditions for silence and panics |
| C81 | `iter_rows`, `from_row_mut` | any use of the iterator and its references as an inductive relation; induction over it with the invariant that every reference leads to a page in memory |
| C82 | ANLZ reader, settings reader | every reader, given a prefix of the image, fails or ends as with the whole image: closed under sequencing, loops and those alternatives that cannot both apply |
| C83 | `open`, page reader, table loops, `list_playlists` | the same for pages, up to ISRC strings that do not end; induction along the trail of pages; exact for single pages, from C84; false in full: witness |
| C84 | `open`, page reader, table loops | what the reader needs of a page is what the writer would write (C65), which lies within the page (C22); induction along the trail; exact: C95 applied to the bytes of the page, alone and followed by 3 and 0, gives C95 for any other file (`Merge`); false in full: witnesses |
| C85 | `PartialEq` of `RowGroup`, derived `PartialEq` of pages | exact meaning of `==`, refinement of `allocate_row` along it, induction over histories; false in full: witness and exact condition |
| C86 | the pdb and ANLZ code with wrapping arithmetic | compositional agreement: each operation of the wrapping model ends as the checked one unless that panics; absence of panics closed under sequencing and loops |
| C87 | `heap_bytes_required`, `allocate_row` with wrapping arithmetic | the wrapped sum is the sum modulo 65536, by induction over the rows and arrays; false in full: witnesses, exact condition |
| C88 | string reader with wrapping arithmetic | inversion; false in full: witness, exact condition in C93 |
| C89 | ANLZ and string readers and writers with wrapping arithmetic | round trip and inversion for every section, induction over the sections; exact condition; false in full: witness |
| C90 | `iter_rows`, the commands of `main` with wrapping arithmetic | agreement with the checked model by induction over the loops; invariant of the page iterator: it has visited all pages of the table below its place; exact condition for `dump-pdb` and row loops |
| C91 | `iter_rows`, `list_playlists`, `export_playlists`, `dump_pdb` with wrapping arithmetic | refinement: outcome described by a trail of pages in the file, unique; induction over the trail |
| C92 | `list_playlists` and `export_playlists` on the same file | refinement: both described by relations over the rows of the file (`Outline`, `Filed`), compared by induction; false in full: witnesses, exact condition |
| C93 | string reader, both builds | exact description of the accepted bytes (`TextAt`), both directions; agreement of the builds |
| C94 | row readers of all 17 kinds, both builds | exact description of the accepted bytes (`Row.At`), field by field, both directions |
| C95 | readers of the header, of page headers and of pages, both builds | exact description of the accepted bytes (`Header.At`, `Page.At`); rows are those at the listed offsets (`OffsetListed`), by induction over groups, slots and offsets |
| C96 | readers of analysis files, both builds | exact description of the accepted bytes (`AnlzFile.At`, `Content.At`); the variants of a content exclude each other by the kind; the encrypted song structure through the deciphered file (`deciphered`); induction over the sections |
| C97 | readers of analysis files, both builds | every reader depends only on the bytes it reads (`Rd.Own`, one lemma per part); induction over the sections; false in full: witness |
| C98 | `flush`, `load_page`, page iterator, page and row readers and writers with wrapping arithmetic | inversion of every reader without overflow checks: the writer asks for bytes already held (`Contains`); invariant of database and iterator: loaded pages are those of the file; induction over the operations |
| C99 | `flush` that fails: all writers with the writes they have made (`Begun`) | false in full: witness; the serialiser that keeps its writes refines the other one; every writer of a page writes behind the beginning of the page only; induction over the pages up to the first that fails, and over the rows of that page (`failed_flush_exact`) |
| C100 | checksum of setting files | polynomials over two elements: divisibility of the difference; the factor x + 1 for odd numbers of bits, the order of x for two bits, the degree for bursts |
| C101 | rewriting of setting files | false in full: witness; exact condition on the bytes of the file, from the layout of C55 |
| C102 | database opened as the other kind | false in full: witness; the rest from the positions of C95, which depend on the kind only through the code of the page type |
| C103 | derived comparison of strings | false in full: witness; text and form determine the string, as decoding UTF-8 and UTF-16 is injective |
| C104 | `export_playlists` | false in full: witness file; reading line by line inverts writing lines without line breaks, by induction over the lines; the lines are those of C59 |
| C105 | changed analysis files | false in full: witnesses; exact condition on the value, from what the readers check (C67, C96) and the round trip of consistent values (C44) |
| C106 | sessions without changes and `flush` | false in full: witness; every patch of a page that was read from the file holds what is there, except those for the unused slots; induction over the pages |
| C107 | `DeviceSQLString`, comments of cues | induction over characters and units, against UTF-16 as defined by the Unicode standard |
| C108 | `get_header_mut`, `flush` | invariant (the writes of a flush stay inside the first page and the pages in memory), exact condition, witnesses |

## 5. What is modelled

| source | model | remarks |
|--------|-------|---------|
| `src/util.rs` 20-193 | `Util`, `Bitfields`, `OffsetArray`, `Page` | `TableIndex`, `ColorIndex`, `FileType`, `align_by`, `parse_at_offsets`, `write_at_offsets`; error `Display` impls are not modelled |
| `src/xor.rs` | `Xor` | including short reads and writes of the inner stream |
| `src/pdb/string.rs` | `DString`, `Text` | completely; of `Debug` only whether it panics |
| `src/pdb/bitfields.rs` | `Bitfields` | |
| `src/pdb/offset_array.rs` | `OffsetArray` | |
| `src/pdb/mod.rs`, `src/pdb/ext.rs` | `Header`, `Rows`, `Page` | all readers and writers, `allocate_row` and its closure; getters that only return a field are not repeated |
| `src/pdb/io.rs` | `Database` | both constructors, `load_page`, `get_header_mut` as assignment, all iterators, `flush`/`close`; references into the page vector are positions; the memory for the page vector (up to 2^32 entries) is not modelled; the writes of a flush that fails are in `Begun` (`Database.fileAfterFlush`): what a failing field has written, such as the flags of a string that is too long or the entries of an index page with too many, assumes that `calc` fields are evaluated when it is their turn; only the second case of `failed_flush_exact` (an index page with too many entries) depends on it; errors of the operating system are not modelled |
| `src/pdb/mod.rs` `from_row_mut`, `src/pdb/io.rs` 168-185 | `Edit` | the references to rows that `RowIterator` hands out: assigning a new value to them; the loop around it is the relation `RowIterator.Edits` |
| `src/anlz.rs` | `Anlz`, `AnlzFile` | all sections, `SongStructureData` and its cipher; the cipher is written as an xor over the following bytes and tied to `XorStream` by theorem; wide strings are lists of units; memory for announced lengths up to 4 GiB is not modelled; additions of `u64` stream positions are unchecked |
| `src/setting.rs` | `SettingOptions`, `SettingData`, `Setting`, `SettingText` | texts of options as derived by `parse_display`: the last `display` attribute of a variant, else its name |
| `src/device.rs` 51-255, 255-493, `src/main.rs` 259-268 | `Setting`, `SettingText` | `load_settings`, `Display` of `Settings`, `list_settings`; log messages are not modelled |
| `src/device.rs` 495-565 | `Device` | `get_playlists` with a bound on the depth of recursion (running out of it is a separate outcome); the `HashMap` is a function; stack use is not modelled |
| `src/main.rs` 88-190 | `Listing` | `list_playlists` as the text handed to the standard output and the outcome, with a bound on the depth of recursion; writing to the standard output is assumed to work |
| `src/main.rs` 278-322 | `Dump` | `dump_pdb` as the list of values printed and the outcome; of the `Debug` implementations only whether they panic is modelled (strings, index entries); what they print is not |
| `src/main.rs` 30-86, 259-339, 413-441 | `Main` | `main` from the parsed command to values shown, requests to the file system and outcome; a file system is a function from paths to contents that does not change during the run |
| `src/main.rs` 191-257, 341-411 | `Path`, `Cli` | `export_playlists` as the sequence of requests to the file system and its outcome for any file system that may refuse any request; the content of a file is a list of lines; symbolic links, non-UTF-8 paths and terminal output are not modelled |
| `src/pdb`, `src/anlz.rs` without overflow checks | `Wrap`, `WrapAnlz`, `WrapAnlzFile`, `WrapTool` | every function in which arithmetic can overflow, and those that call it; a `count` beyond the end of the file is assumed to end in an EOF error and not in a memory error (binrw reads such counts in pieces); settings, XML and XOR code has no arithmetic that depends on the build and is not repeated |
| `src/xml.rs` 300-534 | `Xml` | playlists, at the level of elements with attributes in order; XML text (escaping, white space, namespaces) is not modelled |
| `src/xml.rs` 22-306 | `XmlDoc` | `Document`, `Product`, `Collection`, `Track`, `Tempo`, `PositionMark`, `Playlists` at the same level; the text of `f64` is a parameter (only: the empty text is no number), and so is whether an empty attribute of an optional field is read as `None`; `StarRating` is not used by the code and not modelled |

Not modelled: the text of `Debug` output, `Clone`, error texts, command line parsing (`clap`), logging, the file
system except as an image of bytes.

### Agreement of the model with the code

`/repo` was not run.  Its unit tests and data files, read as text and bytes, were used to test the model; these are
tests and not proofs, and no property theorem depends on them.

* `Verif/Conformance/Rows.lean` and `Small.lean` are the byte vectors and values of the unit tests of rows, file headers,
  strings, bit fields, offset arrays, extended cues and `allocate_row`, checked by the kernel in both directions.
* `Verif/Conformance/Files.lean` is a program that runs the model on the files below `data`:
  `lake env lean --run Verif/Conformance/Files.lean /repo/data` in `lean` (less than a minute).  All setting and analysis
  files and all pages of the unit tests are written as they were read, the options of all setting files are those that
  the tests assert, and the tables of `num_rows/export.pdb` have the numbers of rows that the test asserts: 232 checks,
  all of which hold.
* The values of the 17 unit tests of whole pages were translated and compared with what the model reads.  All agree; for
  two of them up to offsets of absent rows, which the comparison in the code (`RowGroup::eq`) ignores, too.
* Unit tests of `offset_array.rs` and `util.rs` with items other than strings are not covered, since the model has
  offset arrays only of what the code stores in them.

## 6. Axioms

`#print axioms` was run for every theorem named in `MANIFEST.json`.  Each depends on a subset of `propext`,
`Classical.choice`, `Quot.sound`:

* no axioms (7): `iter_rows_no_panic`, `option_code_injective`, `option_code_table`, `option_name_other`, `page_flags_constructors`, `string_parser_overruns`, `string_parser_panics`.
* `propext` (8): `default_settings_proper`, `fresh_page_well_formed`, `index_entry_empty`, `read_written_lines`, `release_allocations_overlap`, `row_assign_lawful`, `row_assign_strict`, `string_parse_write_differs`.
* `Quot.sound`, `propext` (129): `Anlz.cue_layout`, `Anlz.header_sizes_panic_partial`, `Anlz.phrase_layout`, `Anlz.song_data_layout`, `Anlz.tiny_waveform_preview_column_bits`, `Anlz.waveform_byte_columns_layout`, `Anlz.waveform_color_detail_column_bits`, `Anlz.waveform_preview_column_bits`, `CanonicalFile.release`, `FileTable.unique`, `align_by_least_multiple`, `align_by_total`, `allocate_release_partial`, `allocate_release_same`, `allocate_row_huge_panics`, `allocate_row_none_partial`, `allocate_row_panic_iff`, `artwork_row_layout`, `calculated_offsets_exist`, `chain_trail`, `changed_page_size_loses_pages`, `collect_rows_of_chain`, `collect_then_use`, `color_row_layout`, `columnEntry_row_layout`, `count_without_table_makes_one`, `database_release_same`, `dropped_allocation_keeps_rows`, `edit_rows_exact`, `edited_intact`, `edited_page_sound`, `edits_are_uses`, `failed_flush_changes_file`, `failed_flush_trace`, `find_table_first`, `flush_file`, `flush_unsound_page_spills`, `flush_writes_inside`, `genre_row_layout`, `header_edit_intact`, `header_read_no_panic`, `historyEntry_row_layout`, `historyPlaylist_row_layout`, `history_row_layout`, `increment_moves_last_row`, `index_entry_rejects_flags`, `iter_pages_chain`, `iter_pages_error_iff`, `iter_pages_for_table_chain`, `joined_absolute`, `joined_inside_iff`, `key_row_layout`, `label_row_layout`, `last_row_index_spec`, `load_page_cached`, `load_page_effect`, `load_page_panic_cause`, `load_page_panic_partial`, `load_page_zero_panics`, `load_page_zero_release`, `load_settings_independent`, `long_header_loses_page`, `long_string_layout`, `menu_row_layout`, `num_row_groups_is_least_cover`, `offsets_read`, `only_read_can_change`, `open_no_panic`, `open_reads_header`, `open_truncated_or_same`, `packed_row_counts_bytes_roundtrip`, `packed_row_counts_from_all_valid`, `packed_row_counts_layout`, `packed_row_counts_setters`, `page_eq_iff`, `page_flags_bits`, `page_flags_roundtrip`, `page_index_try_from`, `page_iteration_error_final`, `page_iteration_follows_chain`, `page_iteration_stops`, `page_offset_no_overflow`, `page_ranges_disjoint`, `page_read_can_panic`, `page_read_no_panic_of_type`, `page_read_panic_partial`, `page_release_never_panics`, `page_release_read_same`, `page_release_write_same`, `playlistEntry_row_layout`, `playlistTreeNode_row_layout`, `present_rows_offsets_spec`, `provided_offsets_refused`, `raised_unused_page_not_present`, `read_form`, `read_setting_proper`, `release_allocation_back`, `release_allocation_empty`, `release_allocation_granted`, `row_group_eq_iff`, `row_group_needs_room`, `row_inside_page_damaged`, `row_iteration_exact`, `row_iteration_panic_partial`, `row_iteration_panics`, `row_outside_page_damaged`, `row_parts`, `row_release_never_panics`, `row_release_read_same`, `row_variants_lawful`, `rows_le_slots`, `same_file_iff`, `setting_long_name_refused`, `short_string_layout`, `slots_used_spec`, `string_release_rewrite`, `table_layout`, `table_same_pages`, `table_without_count_is_lost`, `trackTag_row_layout`, `track_tag_panics`, `trail_exists_unique`, `truncated_database_misread`, `unknown_row_has_no_heap_size`, `written_page_sound`, `xor_short_read_corrupts`, `xor_short_write_corrupts`, `xor_split_read`, `zero_sized_allocations_collide`.
* `Classical.choice`, `Quot.sound`, `propext`: all others (455 theorems).

## 7. Findings: properties that the code does not have

Each has a witness theorem and a `_partial` theorem that says what remains true.

* C01, C03, C05, C06, C07: strings.  See the claims in `MANIFEST.json`.
* C15, C18: `allocate_row` with 65529 bytes or more overflows a `u16` addition; two insertions into
  zero-sized allocations collide and panic; the 13-bit and 11-bit counters overflow on pages with more
  than 4093 heap bytes.
* C24: the size of a row is summed in a `u16` and overflows for rows of 65536 bytes and more.
* C32: `iter_rows` panics when the chain of a table leads to a page with rows of another type
  (`all_rows_panic_iff` is exact).
* C34: `load_page` with index 0 underflows.  `page_read_panic_iff` says when reading the page panics.
* C39: a page read from a file can have rows that reach into the next page; changing such a row and
  flushing changes that page, even if it was never loaded.  `flush_crash_iff` says exactly which bytes can
  differ after an interrupted flush.
* A header longer than the page size, or an index page whose size is not a multiple of 4 or whose entry
  counter is wrong, shifts all pages behind it on flush (excluded by `Database.Storable`).
* C43: `XorStream` uses the wrong key bytes after a short read or write of the inner stream.
  `xor_split_read_right_iff` says exactly when the bytes are right nevertheless.
* C47: the ANLZ reader panics when a header size is below 12 or exceeds the total size, when the product
  of entry length and entry count overflows, with 65286 or more encrypted phrases, and on paths and
  comments of about 2^31 units or more (`anlz_panic_iff` is exact).
* C48: comments that end in NUL lose it; comments of 2^31 - 1 units or more panic on writing
  (`comment_roundtrip_iff` is exact).
* C49: an extended cue whose comment is the terminator alone announces 70 bytes; the reader takes 72
  (`extended_cue_roundtrip_iff` is exact).
* C50: writing 65286 or more encrypted phrases panics; 65311 or more plain phrases are written, but the
  reader panics on them (`song_structure_roundtrip_iff` is exact).
* C51: the columns are proved against the code.  Published format notes describe the colour columns
  with red in the topmost bits; this cannot be checked here.
* C55: the checksum of a setting file is not compared on reading.
* C57: `get_playlists` recurses without end when a reachable folder is below itself (two rows with the
  same id are enough).  `get_playlists_returns_iff` is the exact condition for all tables.
* C59: playlists with the same name in the same folder are exported to the same file; the last one wins.  With names
  that are empty or contain separators this also happens across folders (`other_names_collide`).
* C60: names with `..` components, and names starting with `/`, lead out of the output directory
  (`export_inside_iff`, `joined_absolute`: exactly these).
* C61: `--db-type` and `--setting-type` are ignored for paths without a file name (such as `..`).
* C62: unknown attributes of a playlist node are refused before the reader has what it needs, ignored after.
* C63: empty folders and playlists are written without children, and cannot be read again.
* C66: the page parser panics on strings with first byte 1, or with a declared length below 4
  (`row_read_panic_iff` and `page_read_panic_iff` are exact).
* C67: comments of extended cues that are stored without terminator, or with two, are written with one, but the sizes
  in the headers are not adapted.  The file can be unreadable afterwards (`anlz_rewrite_unreadable`), or lose its last
  section without notice (`anlz_rewrite_drops_section`); `anlz_rewrite_iff` and `anlz_rewrite_stable_iff` are exact.
* C68: `list-playlists` recurses into playlists too, so a playlist below itself makes it print for ever
  (`get_playlists` ends on the same file), and it panics on a name that is not UTF-8.
* C71: the attribute with the Chinese name of `Language::ChineseSimplified` stands after the variant and so
  belongs to the next one; simplified Chinese is shown as `ChineseSimplified`.  `TempoRange` shows `±6%` for
  the documented `±6`, `MicLowCut::On` shows `On` for `ON(for MC)`.
* C72: `dump_pdb` panics on the first string that is not valid UTF-8 or index entry with a page number of
  `0x3FFFFFF` or more; an error in a table, in contrast, does not keep the others from being shown.
* C73: an XML document with an empty collection is written but cannot be read.  A track in which an optional text is
  missing comes back with an empty text, and one in which an optional number is missing makes the whole document
  unreadable; if the XML library reads empty attributes as missing, empty texts come back as missing instead.  The
  fields with `skip_serializing_if` (dates, colour, end of a mark) do not have the problem.  `Entries` is not compared
  with the number of tracks, and the name of the root element is not looked at.
* C76: a row of a track with a title that is longer than before is stored with the next string written over the
  end of the title; a playlist with a longer name is stored with the next row written over the end of it.  Nothing
  checks the room.
* C80: `dump-pdb` and `dump-setting` end in success without showing anything, and without opening the file, when
  the kind cannot be told from the name; `dump-xml` panics on files that are not documents.
* C83: when the end of a file is missing, a string marked as ISRC whose NUL byte is missing too is read as UCS-2
  text; analysis and settings files have no such alternatives (C82).
* C84: the offset of a row can lead out of its page; the reader follows it. A row that lies inside its page can depend
  on later bytes too: a UTF-16 string whose first byte is 3 (such as "ă") is taken for an ISRC if a byte 0 follows
  anywhere in the file.
* C85: `==` on row groups compares the listed offsets only, not the slots they are in: pages that compare equal can be
  stored as different bytes.  A page with a row whose offsets are left to the writer (`MaybeCalculated::Calculated`) never
  compares equal to what is read back.
* C86: asking for page 0 panics in a build with overflow checks and is answered with `PageNotPresent` without.
* C87: without overflow checks `heap_bytes_required` is modulo 65536.  `allocate_row` with 65529 to 65532 bytes moves the
  used counter back by 4, so that the next row is placed over an earlier one; above that it gives no room at all.
  A row of 65557 bytes is put on a page of 4096 bytes as one of 21 bytes, and storing it overwrites the following pages.
* C88: without overflow checks a long string with a length below 4 takes in 65532 or more following bytes, and an ISRC
  with such a length is read as if nothing were wrong.
* C89: without overflow checks the sizes in the header of an ANLZ section are checked modulo 2^32 only: a waveform
  preview said to have 2^32 - 1 header bytes and 0 bytes in total is accepted (`section_release_wrong_sizes`).
* C90: a file with pages of 20 bytes makes `dump-pdb` panic with overflow checks and is shown without
  (`narrowFile_dump`).  A table that leads to rows of another type makes `list-playlists` and `export-playlists` panic in
  both builds (`mixed_commands`).
* C91: the same kind of file lists its playlists without overflow checks and makes `list-playlists` panic with them
  (`narrowList_listed`).
* C92: a playlist whose parent is a playlist is listed but not exported (`export_leaves_out_listed`); a playlist with
  the id of its parent makes only the listing run forever (`export_ends_listing_does_not`).
* C97: the end of a section of an analysis file follows from its content; the total size in its header is not used to
  find the next section.  A section that cannot be read makes the whole file unreadable.
* C99: `flush` writes to the file page by page.  When it fails, pages in front of the failing one are stored already, and
  a row that is too long for its page may have been written over the pages behind.
* C101: a setting file with a wrong checksum, with other bytes than zero behind a name in its field, or with bytes behind
  the file is read without complaint and is written back with other bytes (`setting_rewrite_iff`).
* C102: nothing in a file says whether it is a plain or an extended database.  An extended one that is opened as a plain
  one gives labels that are really tags of tracks (`track_tags_read_as_labels`), or a panic (`track_tag_panics`).
* C103: strings are compared by the way they are stored.  `a` read from a short string, a long ASCII string, a UTF-16
  string and an ISRC gives four strings with the same text, none of which compares equal to another; text that is not
  ASCII in a short string never compares equal to a string made with `new`.
* C104: a line break in the path of a track makes two lines of it in the exported playlist, of which the second can be
  any path at all.
* C105: the writer of analysis files takes the sizes in the headers from the value.  A program that changes the number of
  entries or sections has to set them itself; otherwise sections at the end are lost without notice
  (`appended_section_lost`, `beats_changed`) or the file becomes unreadable (`removed_section_unreadable`).
* C106: opening a database, iterating over it and closing it can change the file: unused slots of index pages are
  overwritten with empty entries, and everything behind the tables on the first page with zeros.  Page 17 of
  `data/pdb/num_rows/export.pdb` (the index page of the playlist entries) has four entries and a stale fifth one
  (`88 12 00 00` at byte 76 of the page), which becomes `f8 ff ff 1f` if the playlist entries are iterated over.
* C108: `num_tables` is a public field of `Header` that the writer does not compute from `tables`. After `get_header_mut`,
  a table pushed without raising it is lost on the next opening, a count that is too high makes a table of tracks at
  page 0 out of the zeros behind. A header that no longer fits in the first page is written over the next one. Changing `page_size` moves every page that is not loaded, and raising
  `next_unused_page` gives no pages before the file is opened again.
* A page read from a file may list an offset in two slots; the reader then keeps one row for both.
  Rewriting it is still the identity (C65).
* The writers of pages panic for page sizes below 40 (data) and below 80 (index).
