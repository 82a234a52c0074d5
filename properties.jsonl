{"id": "C01", "title": "DeviceSQL string text survives a write/read cycle", "statement": "For every Rust string that DeviceSQLString::new accepts, writing the value and parsing it back from the place it was written to yields a value whose into_string() is the original text, and the parser stops exactly behind the written bytes.", "quantifier": "for every Unicode string accepted by new, written at any position of any surrounding byte image", "why_tests_cant": "The string domain and the bytes that happen to follow the string on the page are unbounded; the parser tries several encodings in order, so whether an earlier alternative swallows the string depends on the text and on the surrounding bytes.", "anchors": ["src/pdb/string.rs: DeviceSQLString::new, into_string, DeviceSQLStringImpl, LongBody"]}
{"id": "C02", "title": "Acceptance and representation chosen by DeviceSQLString::new", "statement": "DeviceSQLString::new fails exactly when the UTF-8 length exceeds 32767 bytes; otherwise it stores short ASCII iff the text is ASCII and at most 126 bytes long, long ASCII iff ASCII and longer, and UTF-16 iff the text is not ASCII. new_isrc accepts exactly the empty string and 12-character ASCII strings.", "quantifier": "for every Unicode string", "why_tests_cant": "Boundary lengths interact with the character repertoire (ASCII or not, BMP or not); a finite suite only samples some lengths and some scripts.", "anchors": ["src/pdb/string.rs: DeviceSQLString::new, new_isrc, MAX_SHORTSTR_SIZE"]}
{"id": "C03", "title": "Every accepted string can be written", "statement": "Whenever DeviceSQLString::new (or new_isrc) returns Ok, writing the value and asking for its heap size complete without panicking.", "quantifier": "for every Unicode string accepted by the constructors", "why_tests_cant": "The failing lengths are a single point at the far end of the allowed range combined with a particular mix of characters.", "anchors": ["src/pdb/string.rs: DeviceSQLString::new, LongBody::byte_count, DeviceSQLStringImpl (length calc), heap_bytes_required"]}
{"id": "C04", "title": "Heap size of a string equals the bytes written", "statement": "For every DeviceSQL string value that can be written, heap_bytes_required() equals the number of bytes that the writer emits.", "quantifier": "for every string value, including values obtained by parsing", "why_tests_cant": "Needs agreement of two separately written size computations over all lengths and encodings.", "anchors": ["src/pdb/string.rs: heap_bytes_required, byte_count, DeviceSQLStringImpl"]}
{"id": "C05", "title": "String parser never panics and never reads outside the declared length", "statement": "Parsing a DeviceSQL string from arbitrary bytes returns a value or an error; it does not abort. When it returns a long string it has consumed exactly the declared number of bytes.", "quantifier": "for every byte sequence and every start position", "why_tests_cant": "Arbitrary (corrupt) bytes: the trouble is in header values such as 0x01 or length fields below four, and in content that looks like an ISRC marker.", "anchors": ["src/pdb/string.rs: DeviceSQLStringImpl, LongBody"]}
{"id": "C06", "title": "Re-writing a parsed string reproduces its bytes", "statement": "If a DeviceSQL string was parsed from some bytes, writing it emits exactly those bytes again.", "quantifier": "for every byte sequence that parses as a string", "why_tests_cant": "Lossless re-encoding must hold for every on-disk encoding, not only for the ones the writer itself prefers.", "anchors": ["src/pdb/string.rs: DeviceSQLStringImpl, LongBody"]}
{"id": "C07", "title": "Displaying a parsed string never panics", "statement": "Formatting (Display/Debug) a DeviceSQLString that was obtained from a constructor or from parsing never panics, and shows the same text as into_string() when that succeeds.", "quantifier": "for every string value reachable through the public API", "why_tests_cant": "Depends on arbitrary content bytes of a database.", "anchors": ["src/pdb/string.rs: fmt::Display for DeviceSQLString, into_string"]}
{"id": "C08", "title": "Packed row counts are a lossless 13/11 bit split", "statement": "A page's packed row counts written as three bytes are the little-endian number num_rows + 8192*num_rows_valid; reading any three bytes and writing them back is the identity, and setters change only their own field and reject out-of-range values.", "quantifier": "for every pair of counts and every three bytes", "why_tests_cant": "2^24 values; the claim is about the exact bit positions and independence of the fields.", "anchors": ["src/pdb/bitfields.rs: PackedRowCounts"]}
{"id": "C09", "title": "Row index arithmetic", "statement": "With n row slots on a page there are exactly enough groups of 16 (ceil(n/16)), the last slot is slot (n-1) mod 16 of group (n-1) div 16, and an empty page has no last slot; counting one more row moves the last slot to the next position in this order.", "quantifier": "for every number of row slots", "why_tests_cant": "Off-by-one at each multiple of sixteen; every n matters because page parsing uses it to find the groups.", "anchors": ["src/pdb/bitfields.rs: num_row_groups, last_row_index, increment_num_rows"]}
{"id": "C10", "title": "Page flag byte is lossless and its flags are where the format says", "statement": "Every flag byte survives read/write; bit 6 alone decides index page versus data page, bit 4 alone is the deleted marker; the constructors give 0x24 and 0x64.", "quantifier": "for every flag byte", "why_tests_cant": "Position of each bit and independence of the eight flags; unit tests check three constants.", "anchors": ["src/pdb/bitfields.rs: PageFlags"]}
{"id": "C11", "title": "Index entries never confuse pages, flags and the empty marker", "statement": "An index entry built from a valid page index and flags returns exactly that index and those flags, is never the empty marker, and survives read/write; flags above 7 are rejected; the empty marker never yields a page index.", "quantifier": "for every page index below 0x03FFFFFF and every flag byte", "why_tests_cant": "The claim is injectivity over 2^29 combinations and disjointness from the sentinel.", "anchors": ["src/pdb/mod.rs: IndexEntry, PageIndex"]}
{"id": "C12", "title": "Page type codes are lossless and disjoint", "statement": "Every 32-bit page type code parses (for both database kinds), to exactly one page type, and that page type is written as the same code; two different codes never parse to the same page type.", "quantifier": "for every 32-bit code and both database kinds", "why_tests_cant": "Needs the whole 2^32 code space and the fallback order of the alternatives.", "anchors": ["src/pdb/mod.rs: PageType, PlainPageType", "src/pdb/ext.rs: ExtPageType"]}
{"id": "C13", "title": "Page offsets never overflow and never overlap", "statement": "The file offset of a page is index*page_size without overflow, and different pages occupy disjoint byte ranges.", "quantifier": "for every page index and page size", "why_tests_cant": "All 2^64 combinations.", "anchors": ["src/pdb/mod.rs: PageIndex::offset"]}
{"id": "C14", "title": "Row groups survive a write/read cycle without clobbering the heap", "statement": "Writing a row group ending at some position and reading it back gives an equal group (same present offsets in the same order, same unknown field), and the write changes no byte below the first present row's offset slot.", "quantifier": "for every row group and every surrounding byte image", "why_tests_cant": "2^16 presence masks times arbitrary offsets and neighbouring bytes.", "anchors": ["src/pdb/mod.rs: RowGroup, write_row_offsets, present_rows_offsets, PartialEq for RowGroup"]}
{"id": "C15", "title": "Row allocation succeeds exactly when there is room, and fails without side effects", "statement": "Page::allocate_row returns None exactly for index pages and when the free space is below the 4-byte aligned size plus 6; in that case the page is unchanged.", "quantifier": "for every page and every requested size", "why_tests_cant": "All page states times all sizes, including the sizes near the 16-bit limit.", "anchors": ["src/pdb/mod.rs: Page::allocate_row"]}
{"id": "C16", "title": "Allocated rows never overlap", "statement": "After any sequence of allocations and insertions on a page, all allocated row ranges are 4-byte aligned, pairwise disjoint, and lie below the used size; free size plus used size plus footer size stays constant.", "quantifier": "for every sequence of allocate/insert/abandon operations of any length from any well-formed page", "why_tests_cant": "An invariant over unbounded operation histories.", "anchors": ["src/pdb/mod.rs: Page::allocate_row, RowGroup::insert_offset, mark_offset_present", "src/pdb/bitfields.rs: PackedRowCounts"]}
{"id": "C17", "title": "Rows and row groups stay in step", "statement": "After any sequence of allocations and insertions, the offsets marked present in the row groups are exactly the keys of the row map, and the valid row count equals the number of rows; an allocation that is never completed leaves the set of rows unchanged.", "quantifier": "for every sequence of allocate/insert/abandon operations", "why_tests_cant": "Invariant over histories, including abandoned allocations.", "anchors": ["src/pdb/mod.rs: Page::allocate_row, RowGroup"]}
{"id": "C18", "title": "Allocation and insertion do not panic on pages that have room", "statement": "On a well-formed data page, allocate_row followed by the insertion never panics.", "quantifier": "for every well-formed page and every requested size", "why_tests_cant": "Overflow points (16-bit sizes, 13/11-bit counters, occupied offsets) are corner points of a large state space.", "anchors": ["src/pdb/mod.rs: Page::allocate_row", "src/pdb/bitfields.rs"]}
{"id": "C19", "title": "A data page survives a write/read cycle", "statement": "Writing a well-formed data page at its place in a file and loading that page again yields an equal page (header, row groups, and the same rows at the same offsets), and the writer ends exactly one page size further.", "quantifier": "for every well-formed data page of every page size, at every position of every file image", "why_tests_cant": "Rows, offsets, deleted slots and groups vary without bound; regions are addressed forwards and backwards.", "anchors": ["src/pdb/mod.rs: Page, DataPageContent, RowGroup, Row", "src/util.rs: parse_at_offsets, write_at_offsets"]}
{"id": "C20", "title": "Rows inserted through allocate_row are read back after flush", "statement": "Starting from an empty data page, after any sequence of insertions with sizes at least the row's heap size, writing the page and reading it back returns exactly the inserted rows.", "quantifier": "for every sequence of rows and sizes that fit on the page", "why_tests_cant": "End-to-end composition of allocator, size computation, writer and parser over unbounded histories.", "anchors": ["src/pdb/mod.rs: Page::allocate_row, heap_bytes_required, DataPageContent"]}
{"id": "C21", "title": "An index page survives a write/read cycle and fills its page exactly", "statement": "An index page whose entry count matches its header and fits the page is written as exactly page_size bytes and reads back equal; unused slots are written as empty entries.", "quantifier": "for every list of entries that fits and every page size that is a multiple of four", "why_tests_cant": "All page sizes and entry counts; the amount of padding is computed.", "anchors": ["src/pdb/mod.rs: IndexPageContent, EmptyIndexEntries, IndexPageHeader"]}
{"id": "C22", "title": "Writing a page never touches bytes outside that page", "statement": "Writing a well-formed page changes only bytes in [start, start+page_size).", "quantifier": "for every well-formed page and every file image", "why_tests_cant": "Any stray write damages another page; tests only look at a few pages.", "anchors": ["src/pdb/mod.rs: Page, DataPageContent, IndexPageContent, RowGroup::write_row_offsets"]}
{"id": "C23", "title": "Every row kind survives a write/read cycle", "statement": "For every row of every plain and extended table whose fields are writable, writing and reading it back yields an equal row (calculated offsets come back as the offsets that were written).", "quantifier": "for every field value of every row kind, in every surrounding image", "why_tests_cant": "17+ row kinds with arbitrary integers and strings; offsets computed from string lengths.", "anchors": ["src/pdb/mod.rs: Album, Artist, Artwork, Color, Genre, HistoryPlaylist, HistoryEntry, History, Key, Label, PlaylistTreeNode, PlaylistEntry, ColumnEntry, Track, Menu, PlainRow, Row", "src/pdb/ext.rs: TagOrCategory, TrackTag, ExtRow"]}
{"id": "C24", "title": "Heap size of a row equals the bytes it occupies", "statement": "For every row with calculated offsets, heap_bytes_required() equals the number of bytes from the row's start to the end of its last written byte, alignment padding included.", "quantifier": "for every row kind and all field values for which writing succeeds", "why_tests_cant": "Two independent computations (size and writer) must agree for every combination of string lengths and encodings, with alignment.", "anchors": ["src/pdb/mod.rs: PageHeapObject impls", "src/pdb/offset_array.rs: heap_bytes_required, write_options"]}
{"id": "C25", "title": "Calculated offset arrays point at their items", "statement": "An offset array container with calculated offsets is written so that item i starts at row_base+offset_i, offsets respect each item's alignment, items do not overlap each other or the offset array, and an offset that does not fit the offset width makes the write fail instead of being truncated.", "quantifier": "for every number of items, every item contents and both offset widths", "why_tests_cant": "Unbounded contents; truncation only shows beyond 255 or 65535 bytes.", "anchors": ["src/pdb/offset_array.rs: OffsetArrayContainer, OffsetArray"]}
{"id": "C26", "title": "Provided offsets are honoured and size mismatches rejected", "statement": "With provided offsets each item is written at base+offset and read from base+offset; offsets of the wrong width are refused on write; a base before the start of the stream is refused on both sides.", "quantifier": "for every offset array", "why_tests_cant": "All offsets and positions.", "anchors": ["src/pdb/offset_array.rs: calculate_base, assert_offset_size_matches, read_options, write_options"]}
{"id": "C27", "title": "Alignment helper", "statement": "align_by(alignment, offset) for a non-zero alignment is the least multiple of the alignment that is not below the offset.", "quantifier": "for every alignment and offset", "why_tests_cant": "All 64-bit pairs.", "anchors": ["src/util.rs: align_by"]}
{"id": "C28", "title": "Page iteration terminates and visits pages in strictly increasing order", "statement": "Iterating the pages of a table yields each page at most once, in strictly increasing index order, and stops (with None or an error) after at most as many steps as the database has pages, whatever the page links say.", "quantifier": "for every file content, including cyclic and dangling page chains", "why_tests_cant": "Arbitrary link graphs; a test cannot show the absence of an endless loop.", "anchors": ["src/pdb/io.rs: PageIterator::next"]}
{"id": "C29", "title": "Page iteration follows the chain exactly", "statement": "When the chain from first_page to last_page is increasing and readable, the iteration yields exactly the pages of the chain and then ends.", "quantifier": "for every database with a well-formed chain", "why_tests_cant": "Chains of any length.", "anchors": ["src/pdb/io.rs: PageIterator::next, iter_pages, iter_pages_for_table"]}
{"id": "C30", "title": "After an error a page iterator never yields a page again", "statement": "Once PageIterator::next has returned an error, every further call returns an error.", "quantifier": "for every file content and every number of further calls", "why_tests_cant": "History property of a stateful iterator.", "anchors": ["src/pdb/io.rs: PageIterator::next"]}
{"id": "C31", "title": "Row iteration returns exactly the rows of the table's data pages", "statement": "iter_rows yields, page by page in chain order, every row stored on the data pages of the table exactly once and no other row.", "quantifier": "for every database whose chain is well-formed", "why_tests_cant": "Any number of pages, groups and rows.", "anchors": ["src/pdb/io.rs: iter_rows"]}
{"id": "C32", "title": "Row iteration does not panic on corrupt databases", "statement": "iter_rows reports corrupt databases through errors, never by panicking.", "quantifier": "for every file content", "why_tests_cant": "Arbitrary file contents; the failing combination (page of another type in a table's chain) is not in any sample file.", "anchors": ["src/pdb/io.rs: iter_rows (expect)"]}
{"id": "C33", "title": "Loading is cached and does not lose modifications", "statement": "Loading a page that is already in memory returns the in-memory page including modifications and does not touch the file; loading one page does not affect other pages.", "quantifier": "for every sequence of loads and modifications", "why_tests_cant": "Histories of operations.", "anchors": ["src/pdb/io.rs: load_page, LazyPage"]}
{"id": "C34", "title": "load_page never panics", "statement": "load_page with any page index returns a page or an error.", "quantifier": "for every page index", "why_tests_cant": "The only failing index is a single point (zero).", "anchors": ["src/pdb/io.rs: load_page"]}
{"id": "C35", "title": "Flush leaves pages that were not loaded byte-identical", "statement": "Database::flush changes no byte of any page that was not loaded.", "quantifier": "for every file, every set of loaded well-formed pages and all their modifications", "why_tests_cant": "Quantifies over all images and subsets of loaded pages.", "anchors": ["src/pdb/io.rs: flush, LazyPage, LazyDatabase"]}
{"id": "C36", "title": "Flush then reopen gives the same database", "statement": "After flush, opening the file again gives the same header, and loading any page that was loaded (and possibly modified) gives an equal page.", "quantifier": "for every file and every set of loaded well-formed pages", "why_tests_cant": "Round trip through a file of unbounded size with arbitrary modifications.", "anchors": ["src/pdb/io.rs: open, flush, load_page"]}
{"id": "C37", "title": "Flush is idempotent", "statement": "Flushing twice in a row leaves the same file as flushing once.", "quantifier": "for every database state", "why_tests_cant": "All states.", "anchors": ["src/pdb/io.rs: flush"]}
{"id": "C38", "title": "Flushing without modification does not change the file", "statement": "Opening a database, loading any pages without modifying them, and flushing leaves the file byte-identical (for files in canonical form: zero padding behind the header, canonical index padding, consistent ISRC lengths).", "quantifier": "for every canonical database file and every set of loaded pages", "why_tests_cant": "Lossless parsing of everything that is rewritten, over all files.", "anchors": ["src/pdb/io.rs: flush, open, load_page"]}
{"id": "C39", "title": "A crash during flush damages only header and loaded pages", "statement": "If a flush is cut off after any number of bytes written, every byte outside the header page and the loaded pages is unchanged.", "quantifier": "for every database state and every crash point", "why_tests_cant": "Every crash point of every flush.", "anchors": ["src/pdb/io.rs: flush, LazyPage"]}
{"id": "C40", "title": "A database header survives a write/read cycle", "statement": "Writing a header whose table count matches and reading it back gives the same header; find_table returns the first table with the requested type, or nothing if there is none.", "quantifier": "for every header", "why_tests_cant": "Any number of tables and values.", "anchors": ["src/pdb/mod.rs: Header, Table, find_table"]}
{"id": "C41", "title": "XOR stream round trip for every key and chunking", "statement": "Data written through an XorStream in any sequence of complete writes and read back through an XorStream with the same key in any sequence of complete reads is the original data.", "quantifier": "for every key, data and both chunkings", "why_tests_cant": "All keys and all chunkings.", "anchors": ["src/xor.rs: XorStream"]}
{"id": "C42", "title": "Seeking an XOR stream keeps the key aligned", "statement": "After any sequence of complete reads, complete writes and seeks (forwards, backwards, to the same place), the key byte applied at stream position p is key[(p - p0) mod key length], p0 being the position at creation.", "quantifier": "for every key and every operation sequence", "why_tests_cant": "History property over unbounded sequences.", "anchors": ["src/xor.rs: Read, Write, Seek for XorStream"]}
{"id": "C43", "title": "XOR stream tolerates short reads and writes", "statement": "If the underlying stream transfers only part of a buffer, continuing the transfer still yields correctly (de)ciphered data.", "quantifier": "for every pattern of short transfers", "why_tests_cant": "Depends on scheduling of the underlying stream.", "anchors": ["src/xor.rs: Read::read, Write::write"]}
{"id": "C44", "title": "ANLZ files survive a write/read cycle", "statement": "Writing an ANLZ file whose section headers are consistent with their contents and reading it back yields the same sections in the same order.", "quantifier": "for every list of consistent sections", "why_tests_cant": "Any number and mix of sections of any size.", "anchors": ["src/anlz.rs: ANLZ, Section, Content, Header"]}
{"id": "C45", "title": "ANLZ parsing terminates and makes progress", "statement": "Parsing the section list of any input terminates; every parsed section consumes at least 12 bytes.", "quantifier": "for every input", "why_tests_cant": "Arbitrary inputs.", "anchors": ["src/anlz.rs: ANLZ::parse_sections, Section, Header"]}
{"id": "C46", "title": "Unknown ANLZ sections are preserved byte for byte", "statement": "A section of unknown kind is read by consuming exactly its declared total size and is written back unchanged.", "quantifier": "for every unknown section", "why_tests_cant": "Arbitrary payloads and header sizes.", "anchors": ["src/anlz.rs: Unknown, Header, ContentKind"]}
{"id": "C47", "title": "ANLZ size fields never make the parser panic", "statement": "Header size arithmetic on arbitrary headers yields an error rather than a panic.", "quantifier": "for every header", "why_tests_cant": "Corrupt size fields.", "anchors": ["src/anlz.rs: Header::remaining_size, Header::content_size"]}
{"id": "C48", "title": "Cue comments survive a write/read cycle", "statement": "Every length-prefixed wide string survives write/read, and its length field counts the bytes that follow.", "quantifier": "for every Unicode string", "why_tests_cant": "All strings, incl. surrogate pairs and trailing NULs.", "anchors": ["src/anlz.rs: LenPrefixedWideString"]}
{"id": "C49", "title": "Extended cues survive a write/read cycle", "statement": "Every extended cue whose total size is consistent survives write/read and occupies exactly its declared size.", "quantifier": "for every extended cue", "why_tests_cant": "Sizes are computed from the comment.", "anchors": ["src/anlz.rs: ExtendedCue"]}
{"id": "C50", "title": "Song structure encryption is detected correctly", "statement": "A song structure section that was written encrypted is recognised as encrypted and decrypts to the same data; one written in the clear is never mistaken for an encrypted one.", "quantifier": "for every number of phrases, mood and contents", "why_tests_cant": "The key depends on the number of phrases; a clash for one count would corrupt exactly such files.", "anchors": ["src/anlz.rs: SongStructure, SongStructureData::get_key, check_if_encrypted"]}
{"id": "C51", "title": "Waveform column bitfields are lossless", "statement": "The packed columns of all waveform kinds survive read/write and each accessor reads exactly its bits.", "quantifier": "for every byte pattern", "why_tests_cant": "All patterns and independence of fields.", "anchors": ["src/anlz.rs: WaveformPreviewColumn, TinyWaveformPreviewColumn, WaveformColorDetailColumn"]}
{"id": "C52", "title": "Setting file checksum is CRC-16/XMODEM over the documented range", "statement": "Every setting file that is written carries, in the two bytes before the final zero word, the CRC-16/XMODEM of the data section (of the whole preceding file for DJMMYSETTING).", "quantifier": "for every setting value", "why_tests_cant": "The check value depends on all fields.", "anchors": ["src/setting.rs: Setting, calculate_checksum"]}
{"id": "C53", "title": "Setting files survive a write/read cycle", "statement": "Writing any setting file of any of the four kinds and reading it back as that kind yields an equal value; the written file has the fixed size of its kind.", "quantifier": "for every combination of setting values and every valid brand/software/version string", "why_tests_cant": "Products of ~45 enumerations and free-form strings.", "anchors": ["src/setting.rs: Setting, SettingData, DevSetting, DJMMySetting, MySetting, MySetting2"]}
{"id": "C54", "title": "Option codes are unambiguous", "statement": "For each setting option, the stored byte and the option value determine each other; bytes that are not a listed code are rejected.", "quantifier": "for every option kind and every byte", "why_tests_cant": "46 tables times 256 bytes.", "anchors": ["src/setting.rs: option enums"]}
{"id": "C55", "title": "Reading a setting file detects corruption by its checksum", "statement": "Reading a setting file whose checksum does not match its contents fails.", "quantifier": "for every file", "why_tests_cant": "All corruptions.", "anchors": ["src/setting.rs: Setting (checksum field)"]}
{"id": "C56", "title": "Loading settings from a device is independent per file", "statement": "Loading settings never panics; each option is present exactly when the file that holds it is present and readable, whatever the state of the other files, and has the value stored there.", "quantifier": "for every combination of present, missing and corrupt files", "why_tests_cant": "All combinations of contents.", "anchors": ["src/device.rs: DeviceExport::load_settings, Settings"]}
{"id": "C57", "title": "Playlist tree loading terminates", "statement": "DeviceExport::get_playlists terminates on every database.", "quantifier": "for every playlist table", "why_tests_cant": "Cyclic or duplicated ids are not in sample data.", "anchors": ["src/device.rs: get_playlists"]}
{"id": "C58", "title": "Playlist tree contains exactly the reachable nodes", "statement": "For tables with unique non-zero ids, the returned tree contains each node reachable from the root exactly once, under its parent, siblings in table order, folders as folders and playlists as playlists; nodes that are not reachable from the root do not appear.", "quantifier": "for every playlist table with unique non-zero ids", "why_tests_cant": "Trees of any size and shape.", "anchors": ["src/device.rs: get_playlists"]}
{"id": "C59", "title": "Exported playlist files list the tracks in entry order", "statement": "The exported file of a playlist lists the paths of its tracks ordered by entry index, one per distinct index, skipping tracks that do not exist.", "quantifier": "for every entry table and track table", "why_tests_cant": "Any order and multiplicity of entries.", "anchors": ["src/main.rs: export_playlists"]}
{"id": "C60", "title": "Playlist export stays inside the output directory", "statement": "Exporting playlists creates files and directories only below the chosen output directory.", "quantifier": "for every playlist name", "why_tests_cant": "Names are arbitrary strings, including '..' and absolute paths.", "anchors": ["src/main.rs: export_playlists (path.join)"]}
{"id": "C61", "title": "Database and setting kind guessing", "statement": "An explicitly given kind always wins; otherwise the kind is determined by the file name alone, and exactly the documented names are recognised.", "quantifier": "for every file name and option", "why_tests_cant": "All names.", "anchors": ["src/main.rs: guess_db_type, guess_setting_type"]}
{"id": "C62", "title": "XML playlist nodes can be read whatever the attribute order", "statement": "Reading a playlist node gives the same result for every order of its attributes.", "quantifier": "for every permutation of the attributes", "why_tests_cant": "All permutations and all contents.", "anchors": ["src/xml.rs: PlaylistGenericNode Deserialize"]}
{"id": "C63", "title": "XML playlist trees survive a write/read cycle", "statement": "Serialising a playlist tree and deserialising it gives the same tree; the Count and Entries attributes equal the number of children.", "quantifier": "for every playlist tree", "why_tests_cant": "Trees of any size, including empty folders and playlists.", "anchors": ["src/xml.rs: PlaylistGenericNode, PlaylistFolderNode, PlaylistPlaylistNode"]}
{"id": "C64", "title": "Fields are stored at the documented positions", "statement": "Written setting files, file headers, table entries, pages, DeviceSQL strings, rows and analysis sections hold each field at the documented offset, in the documented byte order and code.", "quantifier": "for every value that can be written, at every position of every file image", "why_tests_cant": "A reader and a writer that agree on a wrong position pass every round trip test; players of other vendors would not.", "anchors": ["src/setting.rs: DevSetting, DJMMySetting, MySetting, MySetting2", "src/pdb/mod.rs: Header, Table, Page, Row", "src/pdb/string.rs: DeviceSQLStringImpl", "src/anlz.rs: Section"]}
{"id": "C65", "title": "Rewriting a page that was read leaves the file unchanged", "statement": "Reading a page and writing it to the same place asks only for bytes that the file already holds: the file does not change, whether rows overlap, offsets repeat, or strings share bytes.", "quantifier": "for every file image, position and page size, every page that can be read and whose ISRC length fields and index padding are those of the format", "why_tests_cant": "Arbitrary bytes with overlapping rows; a test file only shows the layouts that Rekordbox writes.", "anchors": ["src/pdb/mod.rs: Page, DataPageContent, IndexPageContent, RowGroup, Row"]}
{"id": "C66", "title": "The page parser never panics", "statement": "Parsing a page from arbitrary bytes returns a page or an error and never panics.", "quantifier": "for every file image, position and page size", "why_tests_cant": "All byte sequences.", "anchors": ["src/pdb/mod.rs: Page, DataPageContent, IndexPageContent", "src/pdb/string.rs: DeviceSQLString"]}
{"id": "C67", "title": "Rewriting an analysis file that was read reproduces it", "statement": "Reading an analysis file or section and writing it gives back the bytes that were read.", "quantifier": "for every file image, position, and every file or section that can be read from it", "why_tests_cant": "Arbitrary bytes, including sizes and comments that Rekordbox never writes.", "anchors": ["src/anlz.rs: ANLZ, Section, Content"]}
{"id": "C68", "title": "Listing the playlists prints the whole tree once", "statement": "list-playlists prints every node that is linked to the root exactly once, below its parent and one level deeper, with one line for every entry in the order of the entry indices, and comes to an end without a panic.", "quantifier": "for every file, every playlist tree table, and every table of artists, tracks and entries", "why_tests_cant": "Trees of any depth and tables of any size, broken parent links, missing tracks and artists, and names in any encoding.", "anchors": ["src/main.rs: list_playlists, print_children_of, print_track"]}
{"id": "C69", "title": "The text of the settings determines them", "statement": "The displayed settings have one line per setting with its name and its value; looking up a name in the text gives the value of that setting, and two sets of settings are displayed alike only if they are equal.", "quantifier": "for all combinations of the 46 optional settings", "why_tests_cant": "The combinations are far beyond enumeration; two labels or two texts swapped or shared go unnoticed with the defaults.", "anchors": ["src/device.rs: impl Display for Settings", "src/setting.rs: Display of the options"]}
{"id": "C70", "title": "Listing the settings never fails and shows what can be read", "statement": "list-settings prints, for any content of the four setting files, the values of every readable file under their names and marks the settings of every other file as missing; it never fails or panics.", "quantifier": "for every content, presence or absence of the four files", "why_tests_cant": "Arbitrary bytes in four files.", "anchors": ["src/main.rs: list_settings", "src/device.rs: DeviceExportLoader::load_settings"]}
{"id": "C71", "title": "Options are shown under their documented names", "statement": "Every option is displayed with the name that its documentation gives as the name in the Rekordbox preferences, up to case.", "quantifier": "for every option of every kind with a documented name", "why_tests_cant": "Attributes and comments are matched by position in the source; no test looks at all of them.", "anchors": ["src/setting.rs: Display of the options"]}
{"id": "C72", "title": "Dumping a database shows every intact table", "statement": "dump-pdb shows the header and announces every table once and in order; for each wanted table it shows the pages along the chain with all their rows or index entries up to the first problem, reports that problem, and goes on with the next table, so a damaged table never hides an intact one; it ends without panic on any file.", "quantifier": "for every file, database type and choice of the flag for unknown tables", "why_tests_cant": "Damage can be anywhere in any number of tables; the pages loaded for one table are reused for others.", "anchors": ["src/main.rs: dump_pdb", "src/pdb/io.rs: PageIterator::next", "src/pdb/string.rs: Debug for DeviceSQLString"]}
{"id": "C73", "title": "An XML collection survives a write/read cycle", "statement": "Serialising an XML document (product, collection of tracks with tempos and position marks, playlists) and deserialising it gives the same document.", "quantifier": "for every document with numbers in the range of their types and no NaN, whether the XML library reads an empty attribute as a missing or as an empty one", "why_tests_cant": "A track has 28 attributes, 23 of them optional; every combination of missing, empty and filled attributes in any number of tracks is a separate case.", "anchors": ["src/xml.rs: Document", "src/xml.rs: Collection", "src/xml.rs: Track", "src/xml.rs: Tempo", "src/xml.rs: PositionMark", "src/xml.rs: Playlists"]}
{"id": "C74", "title": "What is read from an XML collection is what it says", "statement": "A document is accepted exactly if it has a version, one product, one collection with at least one track and one playlist tree, every mandatory attribute is present and every number is a number; each field is then the value of the attribute of its name, in any order of attributes, and unknown attributes of tracks have no influence.", "quantifier": "for every XML tree", "why_tests_cant": "Fields are tied to attributes by name strings; swapped names or a wrong type show only for particular values, and the order and number of attributes is unbounded.", "anchors": ["src/xml.rs: Document", "src/xml.rs: Track", "src/xml.rs: Tempo", "src/xml.rs: PositionMark"]}
{"id": "C75", "title": "A whole database survives a store/open cycle", "statement": "Flushing an intact database and opening the file again gives the same header and, for every page, whether it was loaded or not, the same content; so every table gives the same rows in the same order on the same pages and offsets.", "quantifier": "for every intact database with any number of pages, any of which are loaded", "why_tests_cant": "Which pages are in memory and which only in the file depends on the history; any combination over an unbounded number of pages has to agree.", "anchors": ["src/pdb/io.rs: Database::flush", "src/pdb/io.rs: Database::open", "src/pdb/io.rs: LazyPage"]}
{"id": "C76", "title": "Edited rows survive a store/open cycle", "statement": "Go through the rows of a table with iter_rows, change them through the references, flush, and open the file again: then the table has exactly the edited rows, in the same order and places, and no other page has changed.", "quantifier": "for every intact database, table and edit function", "why_tests_cant": "The new rows may have any size; whether they fit in the place of the old ones depends on all strings of the row and on the neighbouring rows.", "anchors": ["src/pdb/io.rs: RowIterator::next", "src/pdb/mod.rs: RowVariant::from_row_mut", "src/pdb/io.rs: Database::flush"]}
{"id": "C77", "title": "A command reads the whole of every table or reports the first problem", "statement": "A loop over a table visits the rows of all pages from the first to the last page of the first table of that type, in order, up to the first problem, and reports that problem; the commands read their tables this way, one after the other, print or create nothing when a table that they need is missing or damaged, and give results that do not depend on which pages are already in memory.", "quantifier": "for every file, sound or damaged, every table and every function that is called for the rows", "why_tests_cant": "Damage can be on any page of any of the tables, which may be any number of pages long and share pages.", "anchors": ["src/pdb/io.rs: Database::iter_rows", "src/pdb/io.rs: RowIterator::next", "src/main.rs: list_playlists", "src/main.rs: export_playlists", "src/device.rs: get_playlists"]}
{"id": "C78", "title": "Pages assigned and rows inserted in a session survive a store/open cycle", "statement": "Open a database, load pages, iterate over tables, assign pages and insert rows with allocate_row in any order, flush, and open the file again: then every page is the last one assigned to its place, or else what it was, and a table has exactly its old rows and the inserted ones, page by page.", "quantifier": "for every intact database and every sequence of operations whose last pages can be stored and whose allocations are large enough for the rows", "why_tests_cant": "Sequences of operations and numbers of pages and rows are unbounded.", "anchors": ["src/pdb/io.rs: Database::load_page", "src/pdb/io.rs: Database::flush", "src/pdb/mod.rs: Page::allocate_row"]}
{"id": "C79", "title": "A database can be worked on for any number of sessions", "statement": "Sessions, flushes and reopening can follow each other any number of times: an intact database in which every page can be read stays so, keeps its header, every flush and every opening succeeds, every page is always the last one assigned to its place or what it was at the beginning, and the rows of its tables are accordingly; a flushed file is a fixed point: opening it, reading and flushing changes no byte.", "quantifier": "for every such database and every sequence of sessions, flushes and openings in which the assigned pages can be stored", "why_tests_cant": "A defect that only shows after the second or a later cycle, or with pages that were filled in by an earlier write, needs long sequences; their number is unbounded.", "anchors": ["src/pdb/io.rs: Database::flush", "src/pdb/io.rs: Database::open", "src/pdb/io.rs: Database::load_page", "src/pdb/offset_array.rs: OffsetArrayContainer"]}
{"id": "C80", "title": "The tool shows what it was asked for, or says that it cannot", "statement": "A run of the command line tool that ends in success has shown the content of the file that it was asked for; if the file cannot be opened or read, the run ends in an error, not in a panic. The outcome depends only on the files that the command is about, and only export-playlists changes the file system.", "quantifier": "for every command, every file system and every file content", "why_tests_cant": "Commands, paths and file contents are unbounded; the claim is about all ways through main, including those that return early.", "anchors": ["src/main.rs: main", "src/main.rs: dump_anlz", "src/main.rs: dump_setting", "src/main.rs: dump_xml", "src/main.rs: guess_db_type", "src/main.rs: guess_setting_type"]}
{"id": "C81", "title": "Assignments through row references change exactly those rows", "statement": "Whatever is done with iter_rows and the references it returns (rows skipped, references collected and used later, a row assigned to several times, stopping early, going on after errors): every row that was assigned to is the value assigned last, every other row, page header and page is what it was, and the effect is that of loading pages and assigning one page per assignment.", "quantifier": "for every database, row type and sequence of calls and assignments", "why_tests_cant": "Sequences of calls and assignments, pages and rows are unbounded, and references can be used long after the iterator has moved on.", "anchors": ["src/pdb/io.rs: Database::iter_rows", "src/pdb/io.rs: PageIterator::next", "src/pdb/mod.rs: RowVariant::from_row_mut"]}
{"id": "C82", "title": "Truncated analysis and settings files are rejected, not misread", "statement": "An analysis file or settings file that lacks some of its last bytes is rejected with an error; it is never read as something else and never makes the reader panic. Bytes after the end of a valid file change nothing.", "quantifier": "for every file that can be read and every shorter prefix of it, and for every extension", "why_tests_cant": "There are as many truncations as bytes, of unboundedly many files; alternatives that are tried one after the other could accept what is left.", "anchors": ["src/anlz.rs: ANLZ", "src/anlz.rs: parse_sections", "src/setting.rs: Setting"]}
{"id": "C83", "title": "Truncated databases are not misread", "statement": "If the end of a database file is missing, opening it fails or gives the header of the whole file; every page that can be read is the page of the whole file, a table gives the pages up to the first that cannot be read, loops that succeed give the rows of the whole file, and list-playlists prints nothing or what it prints for the whole file.", "quantifier": "for every file and every prefix of it", "why_tests_cant": "There are as many truncations as bytes, of unboundedly many files; the alternative formats of a string could accept what is left.", "anchors": ["src/pdb/string.rs: LongBody", "src/pdb/mod.rs: Page", "src/pdb/io.rs: Database::open", "src/pdb/offset_array.rs: OffsetArrayContainer", "src/main.rs: list_playlists"]}
{"id": "C84", "title": "Damage elsewhere in the file does not affect a table", "statement": "Opening a database depends only on the bytes of its header, and loops over a table depend only on the header and the pages of that table: whatever happens to the rest of the file (damaged, overwritten or cut off), they give the same results.", "quantifier": "for every file, every table and every other file that agrees on the header and the pages of the table", "why_tests_cant": "The changes elsewhere are arbitrary, and rows, strings and row groups are found through offsets that could lead anywhere.", "anchors": ["src/pdb/mod.rs: Page", "src/pdb/mod.rs: RowGroup", "src/util.rs: parse_at_offsets", "src/pdb/io.rs: Database::open"]}
{"id": "C85", "title": "Pages that compare equal are interchangeable", "statement": "Comparing pages with == is an equivalence relation. Pages that compare equal hold the same rows at the same places, allow the same allocations and insertions with equal results, and are stored as the same bytes; a page that is written and read back compares equal to the page that was written.", "quantifier": "for all pages that can be stored, and all sequences of allocations and insertions on them", "why_tests_cant": "Pages and sequences of edits are unbounded, and the comparison of row groups is written by hand and ignores part of their fields.", "anchors": ["src/pdb/mod.rs: RowGroup (PartialEq)", "src/pdb/mod.rs: DataPageContent", "src/pdb/mod.rs: Page", "src/pdb/mod.rs: Page::allocate_row"]}
{"id": "C86", "title": "Builds without overflow checks parse without panics and otherwise agree", "statement": "In a build without overflow checks (cargo's release profile, which the project does not change) parsing a row, a page or an analysis file, loading a page and going through a table never panics, whatever the bytes are. Everything that does not panic in a build with overflow checks (reading, writing, sizes, allocation, loading, flushing) has the same result in both builds.", "quantifier": "for all files, positions, page sizes, rows, pages, databases and analysis files", "why_tests_cant": "Tests run with overflow checks on; the two profiles could differ on any of unboundedly many inputs, and wrapped lengths could lead to further panics.", "anchors": ["Cargo.toml", "src/pdb/string.rs: LongBody", "src/pdb/mod.rs: Page", "src/pdb/io.rs: Database::load_page", "src/anlz.rs: ANLZ"]}
{"id": "C87", "title": "Builds without overflow checks never place a row where it has no room", "statement": "In a build without overflow checks heap_bytes_required reports the bytes that a row takes, and allocate_row either refuses or gives room for the number of bytes requested that no other row uses.", "quantifier": "for all rows, all well-formed pages and all sizes", "why_tests_cant": "Sizes are computed in 16 bits over strings and arrays of any length; tests of the default profile would panic instead of wrapping.", "anchors": ["src/pdb/mod.rs: Page::allocate_row", "src/pdb/mod.rs: heap_bytes_required", "src/pdb/offset_array.rs: OffsetArrayContainer", "src/util.rs: align_by"]}
{"id": "C88", "title": "Builds without overflow checks reject strings of impossible length", "statement": "A string whose header declares fewer bytes than the header itself has is rejected with an error by a build without overflow checks.", "quantifier": "for all files and positions", "why_tests_cant": "What the wrapped length leads to depends on the length of the file and the bytes that follow.", "anchors": ["src/pdb/string.rs: DeviceSQLString", "src/pdb/string.rs: LongBody"]}
{"id": "C89", "title": "Builds without overflow checks write back what they read", "statement": "In a build without overflow checks an analysis file or string that is accepted, even one on which a build with overflow checks would panic, is written back as the same bytes, and the sizes in the headers of an accepted analysis file are those of the file and its sections.", "quantifier": "for all files, positions, analysis files and strings", "why_tests_cant": "Only inputs with inconsistent lengths tell the two builds apart; tests run with overflow checks and panic on them, and the lengths and sections are unbounded.", "anchors": ["src/anlz.rs: ANLZ", "src/anlz.rs: Section", "src/anlz.rs: Header", "src/anlz.rs: parse_sections", "src/pdb/string.rs: DeviceSQLString"]}
{"id": "C90", "title": "In builds without overflow checks the tool fails only on what it cannot show", "statement": "In a build without overflow checks every command of the tool shows, requests and returns the same as in a build with them, unless the latter panics. dump-anlz never panics; dump-pdb panics exactly if a table that it goes through leads to a page with an invalid string or index entry; list-playlists and export-playlists panic only if one of the tables that they read leads to a row of another type, and list-playlists also if a name or title is not valid.", "quantifier": "for all commands, files, file systems and bounds on the recursion over playlists", "why_tests_cant": "The release build is what users run; files, tables and chains of pages are unbounded, and tests only run the build with overflow checks.", "anchors": ["Cargo.toml", "src/main.rs: main", "src/main.rs: list_playlists", "src/main.rs: export_playlists", "src/main.rs: dump_pdb", "src/main.rs: dump_anlz", "src/pdb/io.rs: Database::iter_rows"]}
{"id": "C91", "title": "In builds without overflow checks the tool shows what a damaged database still holds", "statement": "In a build without overflow checks, whatever the file: a loop over a table gives the rows of the pages on the way from its first to its last page, in order, and fails at the first page that is missing, cannot be read or comes before its predecessor, or at the first row of another type. list-playlists and export-playlists report the first such problem in the order in which they read the tables and show or request nothing before; if there is none they list every node linked to the root with its entries, and ask for a file for every playlist of the tree. dump-pdb shows every table up to its first problem and goes on with the next.", "quantifier": "for all files that can be opened, all tables, all file systems and bounds on the recursion over playlists", "why_tests_cant": "Chains of pages, damages and trees are unbounded, and tests only run the build with overflow checks.", "anchors": ["src/pdb/io.rs: PageIterator", "src/pdb/io.rs: Database::iter_rows", "src/main.rs: list_playlists", "src/main.rs: export_playlists", "src/main.rs: dump_pdb", "src/device.rs: get_playlists"]}
{"id": "C92", "title": "What is exported is what is listed", "statement": "If list-playlists lists a file, then export-playlists ends too, and works on the same playlists: it creates one file for every listed playlist, in the listed order, under the listed name, in the directory that the listed folders lead to, and writes one line for every listed entry, in the listed order, except those that the listing marks as not found. (False as stated: playlists below playlists are listed but not exported; the exact condition is proved.)", "quantifier": "for all files, trees, entries, tracks, export paths and file systems", "why_tests_cant": "Trees and tables are unbounded; the two commands walk the tree with different code (by parent in one, through folders in the other), and no test compares them.", "anchors": ["src/main.rs: list_playlists", "src/main.rs: export_playlists", "src/device.rs: get_playlists"]}
{"id": "C93", "title": "Exactly the bytes of a string are read as that string", "statement": "The bytes at a position are read as a string, ending at a given place, exactly if they are that string: an odd byte with the length and the text; or the kind of a long string, its length including the header, a zero byte and as many bytes of ASCII text or UCS-2 units; or an ISRC, which is recognised by the byte 3 and ends with its NUL byte whatever length is declared, and which takes precedence over UCS-2 text. A build with overflow checks accepts the same strings except those whose declared length is impossible; no bytes can be read as two strings.", "quantifier": "for all files, positions, strings and ends", "why_tests_cant": "Three forms of text of unbounded length share one parser with backtracking; tests cover single strings and not what is rejected or which form wins.", "anchors": ["src/pdb/string.rs: DeviceSQLString", "src/pdb/string.rs: LongBody"]}
{"id": "C94", "title": "Exactly the bytes of a row are read as that row", "statement": "Whatever wrote the file: a row is read at a position of a page exactly if it has the kind of the page and is stored there, that is, each field has its value at its documented position with its width and byte order, constants are in place, and each string is stored where the offset in the offset array (one or two bytes wide, as the subtype of the row says) points, counted from the start of the row. Nothing else is accepted, nothing is rejected, and no bytes are two rows.", "quantifier": "for all files, positions, types of pages, rows and ends, for all 17 kinds of rows, and for both kinds of builds", "why_tests_cant": "The tests read back rows from samples of one program; fields that are always zero there, wide offset arrays, and the rejected rows are never seen, and files and strings are unbounded.", "anchors": ["src/pdb/mod.rs: Row", "src/pdb/mod.rs: PlainRow", "src/pdb/mod.rs: Track", "src/pdb/ext.rs: ExtRow", "src/pdb/offset_array.rs: OffsetArrayContainer"]}
{"id": "C95", "title": "Exactly the bytes of a page are read as that page", "statement": "Whatever wrote the file: the header of a database, and a page, are read exactly if they are stored at the position: each field at its documented place; for a data page row groups backwards from the end of the page, exactly the rows at the offsets in the slots that are marked as used, once each and in the order of their offsets, and as many as the header declares; for an index page the entries behind its header. Which of the two it is depends only on a bit of the flags. A build without overflow checks differs only for page sizes below 40 and for strings with impossible lengths.", "quantifier": "for all files, positions, page sizes, kinds of databases, headers and pages, and for both kinds of builds", "why_tests_cant": "Row groups, rows and tables are unbounded; a reader that misses a group, takes an unmarked slot or mixes up the order of slots passes on files with few rows.", "anchors": ["src/pdb/mod.rs: Header", "src/pdb/mod.rs: Table", "src/pdb/mod.rs: Page", "src/pdb/mod.rs: PageHeader", "src/pdb/mod.rs: DataPageContent", "src/pdb/mod.rs: IndexPageContent", "src/pdb/mod.rs: RowGroup", "src/pdb/bitfields.rs: PackedRowCounts", "src/pdb/bitfields.rs: PageFlags", "src/util.rs: parse_at_offsets"]}
{"id": "C96", "title": "Exactly the bytes of an analysis file are read as that file", "statement": "Whatever wrote the file: an analysis file is read exactly if it is stored at the position, that is, its header, the declared number of further header bytes, and sections one behind the other until the declared end is reached; every section with its name, its two sizes and, for each of the 13 known kinds of content, each field at its documented position with its width and byte order, with as many entries as its length field says and sizes that agree with the header; an encrypted song structure after deciphering with the key for its number of phrases; any other name as an unknown section. Nothing else is accepted, nothing is rejected, and no bytes are two files. A build without overflow checks accepts the same, with sizes compared modulo 2^32 and without the limit on the number of phrases.", "quantifier": "for all files, positions, headers, contents, sections and ends, for all kinds of sections, and for both kinds of builds", "why_tests_cant": "The tests read samples of a few kinds of sections; what is rejected, unknown sections between known ones, and lists and comments of any length are not settled by them.", "anchors": ["src/anlz.rs: ANLZ", "src/anlz.rs: Section", "src/anlz.rs: Content", "src/anlz.rs: Header", "src/anlz.rs: ContentKind", "src/anlz.rs: ExtendedCue", "src/anlz.rs: SongStructure", "src/anlz.rs: SongStructureData"]}
{"id": "C97", "title": "The sections of an analysis file are independent of one another", "statement": "A section is read the same whatever stands around it and wherever it stands: exactly if it is read from its own bytes alone. A file is read exactly if it is a header and such sections; sections put together in any order and number behind a header that counts their bytes are a file. Damage to one section does not affect the others: the file is still read, with the other sections unchanged. (The last sentence is false: the end of a section follows from its content and not from the size in its header, so a section that cannot be read takes the whole file with it. Proved if a section of the same length can still be read at the place; the header and the sections before never change.)", "quantifier": "for all files, positions, numbers and kinds of sections, and for any change of the bytes of one section, for both kinds of builds", "why_tests_cant": "The number of sections, their order and the possible damage are unbounded; a parser that depends on an earlier section or on the position passes tests on files of one program.", "anchors": ["src/anlz.rs: ANLZ", "src/anlz.rs: Section", "src/anlz.rs: Content", "src/anlz.rs: Header"]}
{"id": "C98", "title": "Builds without overflow checks write databases back as they were", "statement": "In a build without overflow checks a row or page that was read, even one on which a build with overflow checks panics, is written back to the same place without failure and without changing the file. Opening a database, loading pages and iterating over tables in any order, whether or not some of this fails, and then flushing leaves the file byte-identical (for files in canonical form: pages with room for their headers, zero padding behind the header, canonical index padding, consistent ISRC lengths).", "quantifier": "for all files, positions, page sizes, rows and pages that can be read, and all sequences of operations that modify no page", "why_tests_cant": "Rows with impossible lengths are the only ones that tell the builds apart, and tests run with overflow checks and panic on them; operations can come in any number and order.", "anchors": ["src/pdb/io.rs: flush, open, load_page, PageIterator::next", "src/pdb/mod.rs: Page, DataPageContent, IndexPageContent, Row", "src/pdb/offset_array.rs: OffsetArrayContainer", "src/pdb/string.rs: DeviceSQLString"]}
{"id": "C99", "title": "A flush that fails leaves the file as it was", "statement": "If `flush` returns an error or panics, for instance because an offset does not fit in its array, the file is the same as before the call. (The code does not have this property: see the claim. What remains: some page in memory cannot be written; in front of that page the file is exactly the one that a flush of the pages in front of it leaves, so these pages are stored completely, pages that are not in memory are untouched, and the file can still be opened.)", "quantifier": "for all databases, page sizes, numbers of pages, and all rows on which writing fails", "why_tests_cant": "Tests store rows that can be stored; which page fails and what is on the other pages is unbounded, and a test of a failing call looks at the error and not at the file.", "anchors": ["src/pdb/io.rs: flush, LazyPage::write_options", "src/pdb/mod.rs: Page, DataPageContent, IndexPageContent, Row", "src/pdb/offset_array.rs: OffsetArrayContainer", "src/pdb/string.rs: DeviceSQLString", "src/util.rs: write_at_offsets"]}
{"id": "C100", "title": "The checksum of setting files detects small changes", "statement": "In a setting file that was written, every change of one, two or three bits of the checked bytes and the checksum, every change of an odd number of them, and every change of the checked bytes within a stretch of 16 bits leaves a file whose checksum is not that of its checked bytes.", "quantifier": "for all settings of the four kinds, all written files, all bytes put in place of the checked ones and all checksums; for two sequences of bytes with their checksums, of up to 2046 bytes (bursts: of any length)", "why_tests_cant": "The changes that a device could meet are all sets of up to three of several hundred bits, and the claim holds for every content of the file; a test flips some bits of one file. That the checksum in the code is the one with these properties depends on its polynomial, initial value and bit order together.", "anchors": ["src/setting.rs: Setting, calculate_checksum"]}
{"id": "C101", "title": "Reading a setting file and writing it keeps every byte", "statement": "A setting file that is read and written again has the same bytes as before. (The code does not have this property: see the claim. What holds exactly: the bytes are the same if and only if nothing follows behind the file, the 32-byte fields of the three names are filled with zero bytes behind the name, and the checksum is right; and a file that was written by this crate is of this kind.)", "quantifier": "for all four kinds of setting files, all contents of names, fillers, options, unknown fields and checksums", "why_tests_cant": "Tests compare the bytes of a few files from devices, which have the usual filling and right checksums; whether other bytes of the file are lost (fillers, fixed fields, trailing bytes) depends on all of the 256 values of every byte.", "anchors": ["src/setting.rs: Setting, SettingData, calculate_checksum"]}
{"id": "C102", "title": "A database opened as the wrong kind gives no rows of other types", "statement": "Opening a plain database as an extended one, or an extended one as a plain one, gives no rows of types that the file does not hold. (The code has this property in one direction only: see the claim. What holds: a file opens as one kind exactly if it opens as the other, and the two databases and their pages differ only in what the stored codes of page types stand for and in the rows; a database that is opened as an extended one gives no rows of any of the types that can be iterated over; pages whose code the other kind does not know have an `Unknown` at each offset that held a row.)", "quantifier": "for all files, positions, page sizes, tables, pages and codes of page types", "why_tests_cant": "Tests open each file as what it is; nothing in the file says which kind it is, so the outcome of the mistake depends on all bytes of all rows, which are read in the format of other rows.", "anchors": ["src/pdb/io.rs: open, open_non_persistent, iter_pages, iter_rows", "src/pdb/mod.rs: DatabaseType, PageType, Header, PageHeader, Row, RowVariant", "src/pdb/ext.rs: TrackTag"]}
{"id": "C103", "title": "Strings compare equal exactly if they have the same text", "statement": "Two DeviceSQL strings compare equal exactly if they have the same text; in particular a string that was read compares equal to the one made from its text. (The code does not have this property: see the claim. What holds exactly: strings with a valid text compare equal if and only if they have the same text and store it in the same of the four forms; strings made from texts compare equal if and only if the texts are the same; a string that was read compares equal to the one made from its text if and only if it is stored in the form that the text is usually stored in.)", "quantifier": "for all texts, all forms of strings and all bytes they are read from", "why_tests_cant": "Tests compare strings with those that were written by the same crate, which always are in the same form; every text has several forms on disk.", "anchors": ["src/pdb/string.rs: DeviceSQLString, DeviceSQLStringImpl, LongBody, new, into_string"]}
{"id": "C104", "title": "An exported playlist has one line for each track", "statement": "The file that export-playlists writes for a playlist, read line by line, has one line for each track of the playlist in the order of the entries, which is the path of that track. (The code does not have this property: see the claim. What holds exactly: it is so for a playlist if and only if none of its lines contains a line break, in particular if no path in the database and not the export path contains one.)", "quantifier": "for all databases, playlists, paths of tracks and export paths", "why_tests_cant": "Tests export paths without special characters; what is in the paths of a database is up to whoever wrote it.", "anchors": ["src/main.rs: export_playlists"]}
{"id": "C105", "title": "A changed analysis file is read back with the changes", "statement": "An analysis file whose sections or entries were changed by a program (sections or entries added, removed or exchanged) and that was then written is read back with these changes. (The code does not have this property, since the sizes in the headers stay as they were: see the claim. What holds exactly: a value can be written and is read back as it was if and only if every section agrees with its header, the size in the header of the file is right, and the total size lies between the beginning of the last section and the end; if the sizes are set to what is there, every change is read back.)", "quantifier": "for all headers, numbers and kinds of sections, numbers of entries and contents, at any position in any file", "why_tests_cant": "Tests write back what was read, where all sizes are right; which of the sizes are checked, and what happens to the rest of the file if one is wrong, depends on the kinds and lengths of all sections.", "anchors": ["src/anlz.rs: ANLZ, Header, Section, Content, parse_sections"]}
{"id": "C106", "title": "Storing a database that was only read changes nothing", "statement": "If a program opens a database for writing, loads pages and iterates over tables, changes nothing and closes it, the file has the same bytes as before. (The code does not have this property: see the claim. What holds exactly, for files in which the tables fit in the first page and the pages that were loaded have room for their entries and row groups and ISRCs with exact lengths: closing succeeds; the bytes behind the tables on the first page become zero, the unused slots of index pages that were loaded become empty entries, the last 20 bytes of these pages become zero, and every other byte stays as it is. So the file stays the same if and only if these bytes were so before, and opening, reading the same pages and closing a second time changes nothing.)", "quantifier": "for all files, lengths, page sizes, numbers of tables and pages, and all sequences of loading and iterating", "why_tests_cant": "Tests write pages that were made for them; which bytes of a file are not kept in memory, and what they are, depends on the program that wrote the file. A file among the test data of the project has such bytes, but no test stores it.", "anchors": ["src/pdb/io.rs: flush, close, load_page, iter_pages", "src/pdb/mod.rs: Header, Page, IndexPageContent, EmptyIndexEntries"]}
{"id": "C107", "title": "Text that is not ASCII is stored, read and shown as UTF-16", "statement": "A DeviceSQL string is made with 16-bit units exactly from texts that are not ASCII and have at most 32767 bytes in UTF-8, and the units are the UTF-16 form of the text as defined by the Unicode standard. The text of a string with 16-bit units is the one of which they are the UTF-16 form, and asking for it fails exactly if there is none; showing the string never fails and shows U+FFFD for each surrogate that is not part of a pair. Comments of cues are stored as the big-endian UTF-16 form of the text behind its length, and a comment is read exactly if that is there, up to NUL characters at the end and, if the length is odd, one byte.", "quantifier": "for all texts, all lists of units and all bytes", "why_tests_cant": "Tests contain a few texts; whether a text takes one or two units per character, and what happens to surrogates, depends on every character and its neighbours.", "anchors": ["src/pdb/string.rs: new, into_string, fmt", "src/anlz.rs: LenPrefixedWideString (read_options, write_options)"]}
{"id": "C108", "title": "A changed header is stored", "statement": "A program that changes the header of a database (the list of tables, the first unused page, the counters), stores the database and opens the file again finds the changed header, and every page is what it was. (The code does not have this property: see the claim. What holds exactly, for databases in the form the writer produces and headers with the old page size that fit in the first page: the changed header is found again if and only if the table count is the number of tables and the page types are types of this kind of database; then every page in front of the first unused page is what it was, there are no others, and each table has the rows of the pages it names.)", "quantifier": "for all databases, page sizes, numbers of tables and pages, headers, and any set of pages in memory", "why_tests_cant": "No test changes a header; whether a change is found again depends on all fields of the header, and whether pages are kept on every byte of the file.", "anchors": ["src/pdb/io.rs: get_header_mut, flush, load_page", "src/pdb/mod.rs: Header"]}
