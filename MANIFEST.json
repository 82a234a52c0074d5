{
 "claims": [
  {
   "property": "C01",
   "status": "partial",
   "theorems": [
    "Rekordcrate.string_text_roundtrip_partial",
    "Rekordcrate.string_text_roundtrip_fails"
   ],
   "note": "False in full: UTF-16 texts starting with a unit whose low byte is 3 are read back as an ISRC, and texts with 32766 UTF-16 units cannot be written. The partial theorem is an exact characterisation."
  },
  {
   "property": "C02",
   "status": "proved",
   "theorems": [
    "Rekordcrate.string_new_accepts",
    "Rekordcrate.string_new_isrc_accepts"
   ],
   "note": ""
  },
  {
   "property": "C03",
   "status": "partial",
   "theorems": [
    "Rekordcrate.string_write_no_panic_partial",
    "Rekordcrate.string_write_no_panic_of_length_partial",
    "Rekordcrate.isrc_write_no_panic",
    "Rekordcrate.string_write_panics"
   ],
   "note": "False in full for non-ASCII texts with 32766 UTF-16 units; exact characterisation proved."
  },
  {
   "property": "C04",
   "status": "proved",
   "theorems": [
    "Rekordcrate.string_heap_bytes_eq_written"
   ],
   "note": ""
  },
  {
   "property": "C05",
   "status": "partial",
   "theorems": [
    "Rekordcrate.string_parser_panic_partial",
    "Rekordcrate.string_parser_consumes_declared_partial",
    "Rekordcrate.string_parser_panics",
    "Rekordcrate.string_parser_overruns"
   ],
   "note": "False in full (with overflow checks): first byte 1, or declared length below 4, panics; ISRC ignores the declared length. Exact characterisation of panics proved."
  },
  {
   "property": "C06",
   "status": "partial",
   "theorems": [
    "Rekordcrate.string_parse_write_identity_partial",
    "Rekordcrate.string_parse_write_identity_iff",
    "Rekordcrate.string_parse_write_differs"
   ],
   "note": "False in full for ISRC strings whose declared length is wrong; the exact condition is proved."
  },
  {
   "property": "C07",
   "status": "partial",
   "theorems": [
    "Rekordcrate.string_display_partial",
    "Rekordcrate.string_display_constructed",
    "Rekordcrate.string_display_panics"
   ],
   "note": "False in full: parsed ASCII strings with bytes that are not UTF-8 panic on display. Exact characterisation proved."
  },
  {
   "property": "C08",
   "status": "proved",
   "theorems": [
    "Rekordcrate.packed_row_counts_layout",
    "Rekordcrate.packed_row_counts_roundtrip",
    "Rekordcrate.packed_row_counts_bytes_roundtrip",
    "Rekordcrate.packed_row_counts_setters",
    "Rekordcrate.packed_row_counts_from_all_valid"
   ],
   "note": ""
  },
  {
   "property": "C09",
   "status": "proved",
   "theorems": [
    "Rekordcrate.num_row_groups_is_least_cover",
    "Rekordcrate.last_row_index_spec",
    "Rekordcrate.increment_moves_last_row",
    "Rekordcrate.increment_counts"
   ],
   "note": ""
  },
  {
   "property": "C10",
   "status": "proved",
   "theorems": [
    "Rekordcrate.page_flags_roundtrip",
    "Rekordcrate.page_flags_bits",
    "Rekordcrate.page_flags_constructors"
   ],
   "note": ""
  },
  {
   "property": "C100",
   "status": "proved",
   "theorems": [
    "Rekordcrate.setting_corruption_detected",
    "Rekordcrate.crc_detects_three",
    "Rekordcrate.crc_detects_burst"
   ],
   "note": "The theorems say that the checksum of a changed file is wrong. The reader of this crate does not check it (C55)."
  },
  {
   "property": "C101",
   "status": "partial",
   "theorems": [
    "Rekordcrate.setting_rewrite_iff",
    "Rekordcrate.setting_rewrite_stable",
    "Rekordcrate.setting_rewrite_differs"
   ],
   "note": "The property is false: setting_rewrite_differs is a file with a wrong checksum. setting_rewrite_iff says exactly which files are written back as they were, setting_rewrite_stable that one rewriting is enough."
  },
  {
   "property": "C102",
   "status": "partial",
   "theorems": [
    "Rekordcrate.opens_as_either_kind",
    "Rekordcrate.opened_as_other_kind",
    "Rekordcrate.no_tables_of_other_kind",
    "Rekordcrate.no_rows_as_extended",
    "Rekordcrate.page_as_other_kind",
    "Rekordcrate.index_page_as_other_kind",
    "Rekordcrate.data_page_as_unknown",
    "Rekordcrate.track_tags_read_as_labels",
    "Rekordcrate.track_tag_panics"
   ],
   "note": "The property is false for extended databases that are opened as plain ones: track_tags_read_as_labels is a file whose track tags are read as labels, track_tag_panics one on which a build with overflow checks panics. Plain databases opened as extended ones give no rows (no_rows_as_extended). What the bytes of a row of one type are as a row of another is C94."
  },
  {
   "property": "C103",
   "status": "partial",
   "theorems": [
    "Rekordcrate.string_eq_iff_partial",
    "Rekordcrate.new_usual_form",
    "Rekordcrate.new_eq_iff",
    "Rekordcrate.eq_new_iff",
    "Rekordcrate.read_form",
    "Rekordcrate.same_text_not_equal"
   ],
   "note": "The property is false: the derived comparison compares the stored forms, and the text `a` has four of them that are pairwise different (same_text_not_equal). Proved exactly: when strings with a valid text compare equal (string_eq_iff_partial), that strings made from texts compare like the texts (new_eq_iff), in which form a text is stored by `new` (new_usual_form), when a string compares equal to the one made from its text (eq_new_iff), and which first bytes belong to which form (read_form)."
  },
  {
   "property": "C104",
   "status": "partial",
   "theorems": [
    "Rekordcrate.export_read_back_partial",
    "Rekordcrate.export_one_line_per_track",
    "Rekordcrate.read_written_lines",
    "Rekordcrate.export_breaks_lines"
   ],
   "note": "The property is false: paths are written as they are, and a line break in one makes two lines of it; the witness is a whole database file (export_breaks_lines). Proved exactly, for playlists that are exported to different paths: the file read line by line gives the lines of the playlist if and only if none of them contains a line break (export_read_back_partial); it is so if no path contains one (export_one_line_per_track)."
  },
  {
   "property": "C105",
   "status": "partial",
   "theorems": [
    "Rekordcrate.Anlz.section_roundtrip_iff",
    "Rekordcrate.Anlz.anlz_roundtrip_iff",
    "Rekordcrate.Anlz.consistent_same_size",
    "Rekordcrate.Anlz.appended_section_lost",
    "Rekordcrate.Anlz.shrunk_file_unreadable",
    "Rekordcrate.Anlz.removed_section_unreadable",
    "Rekordcrate.Anlz.resized_roundtrip",
    "Rekordcrate.Anlz.beats_changed"
   ],
   "note": "The property is false: sizes in headers are fields of the values and are not computed by the writer. A section added at the end is not read back and the file is read as it was before, without notice (appended_section_lost); a file from which a section was removed is unreadable (removed_section_unreadable); for beats, see beats_changed. anlz_roundtrip_iff says exactly which values are read back as they were, resized_roundtrip that setting the sizes to what is there is always enough. Paths of 8 GiB or more are excluded from the exact conditions."
  },
  {
   "property": "C106",
   "status": "partial",
   "theorems": [
    "Rekordcrate.flush_only_read_partial",
    "Rekordcrate.flush_only_read_unchanged_iff",
    "Rekordcrate.flush_only_read_again",
    "Rekordcrate.only_read_can_change"
   ],
   "note": "The property is false: only_read_can_change is a file in which loading one page and flushing replaces a stale entry in an unused slot of an index page. flush_only_read_partial describes every byte of the file afterwards and flush_only_read_unchanged_iff says exactly when it does not change, flush_only_read_again that storing it once is enough, all for files whose tables fit in the first page and whose loaded pages have room for what they hold; C38 is the case of files in the form that the writer produces. Page 17 of data/pdb/num_rows/export.pdb has such a stale entry."
  },
  {
   "property": "C107",
   "status": "proved",
   "theorems": [
    "Rekordcrate.new_wide_iff",
    "Rekordcrate.wide_text_iff",
    "Rekordcrate.wide_text_error_iff",
    "Rekordcrate.wide_display_iff",
    "Rekordcrate.comment_units",
    "Rekordcrate.comment_read_iff",
    "Rekordcrate.comment_reads_iff",
    "Rekordcrate.utf16_encode_iff",
    "Rekordcrate.utf16_decode_iff"
   ],
   "note": "UTF-16 is defined in Spec/Utf16 as in the Unicode standard. Comments of 2^31 units or more are C48."
  },
  {
   "property": "C108",
   "status": "partial",
   "theorems": [
    "Rekordcrate.header_edit_stored_iff",
    "Rekordcrate.header_edit_keeps_pages_partial",
    "Rekordcrate.header_edit_rows_partial",
    "Rekordcrate.header_edit_intact",
    "Rekordcrate.open_header_consistent",
    "Rekordcrate.raised_unused_page_not_present",
    "Rekordcrate.table_without_count_is_lost",
    "Rekordcrate.count_without_table_makes_one",
    "Rekordcrate.changed_page_size_loses_pages",
    "Rekordcrate.long_header_loses_page"
   ],
   "note": "The property is false: the table count is a field that the writer does not compute, so that a table added without it is lost (table_without_count_is_lost) and a count that is too high makes a table out of the bytes behind (count_without_table_makes_one); with another page size the pages that were not loaded are looked for elsewhere (changed_page_size_loses_pages); a header that does not fit in the first page is written over the next (long_header_loses_page); and a higher first unused page gives no new pages until the file is opened again (raised_unused_page_not_present). header_edit_stored_iff says exactly which headers are found again if the page size stays the same and the header fits in the first page."
  },
  {
   "property": "C11",
   "status": "proved",
   "theorems": [
    "Rekordcrate.index_entry_roundtrip",
    "Rekordcrate.index_entry_rejects_flags",
    "Rekordcrate.index_entry_empty",
    "Rekordcrate.page_index_try_from",
    "Rekordcrate.index_entry_debug_can_panic"
   ],
   "note": ""
  },
  {
   "property": "C12",
   "status": "proved",
   "theorems": [
    "Rekordcrate.page_type_code_roundtrip",
    "Rekordcrate.page_type_codes_disjoint"
   ],
   "note": ""
  },
  {
   "property": "C13",
   "status": "proved",
   "theorems": [
    "Rekordcrate.page_offset_no_overflow",
    "Rekordcrate.page_ranges_disjoint"
   ],
   "note": ""
  },
  {
   "property": "C14",
   "status": "proved",
   "theorems": [
    "Rekordcrate.row_group_roundtrip",
    "Rekordcrate.row_group_roundtrip_file",
    "Rekordcrate.row_group_needs_room",
    "Rekordcrate.present_rows_offsets_spec",
    "Rekordcrate.slots_used_spec"
   ],
   "note": ""
  },
  {
   "property": "C15",
   "status": "partial",
   "theorems": [
    "Rekordcrate.allocate_row_none_partial",
    "Rekordcrate.allocate_row_huge_panics",
    "Rekordcrate.allocate_row_panic_iff"
   ],
   "note": "False in full: requests of 65529 bytes and more panic instead of returning None. Proved for all other sizes; the exact condition for a panic is proved for well-formed pages."
  },
  {
   "property": "C16",
   "status": "proved",
   "theorems": [
    "Rekordcrate.allocations_apart"
   ],
   "note": ""
  },
  {
   "property": "C17",
   "status": "proved",
   "theorems": [
    "Rekordcrate.rows_and_groups_in_step",
    "Rekordcrate.dropped_allocation_keeps_rows",
    "Rekordcrate.rows_le_slots"
   ],
   "note": ""
  },
  {
   "property": "C18",
   "status": "partial",
   "theorems": [
    "Rekordcrate.allocation_no_panic_partial",
    "Rekordcrate.allocation_no_panic_small_page",
    "Rekordcrate.zero_sized_allocations_collide",
    "Rekordcrate.row_counter_overflows",
    "Rekordcrate.allocate_row_huge_panics",
    "Rekordcrate.allocate_row_panic_iff",
    "Rekordcrate.insert_row_panic_iff",
    "Rekordcrate.end_stays_free"
   ],
   "note": "False in full: huge requests, insertion into two zero-sized allocations, and full counters panic; each has a witness. Proved for all other histories, with exact conditions for a panic of one step on a well-formed page; counters cannot overflow on pages of up to 4093 heap bytes."
  },
  {
   "property": "C19",
   "status": "proved",
   "theorems": [
    "Rekordcrate.data_page_roundtrip"
   ],
   "note": ""
  },
  {
   "property": "C20",
   "status": "proved",
   "theorems": [
    "Rekordcrate.allocated_rows_survive",
    "Rekordcrate.inserted_rows_survive",
    "Rekordcrate.fresh_page_well_formed"
   ],
   "note": ""
  },
  {
   "property": "C21",
   "status": "proved",
   "theorems": [
    "Rekordcrate.index_page_roundtrip"
   ],
   "note": ""
  },
  {
   "property": "C22",
   "status": "proved",
   "theorems": [
    "Rekordcrate.page_roundtrip",
    "Rekordcrate.page_write_stays_inside"
   ],
   "note": ""
  },
  {
   "property": "C23",
   "status": "proved",
   "theorems": [
    "Rekordcrate.row_writable",
    "Rekordcrate.row_roundtrip",
    "Rekordcrate.calculated_row_roundtrip",
    "Rekordcrate.row_rewrite_identical",
    "Rekordcrate.row_read_fits"
   ],
   "note": ""
  },
  {
   "property": "C24",
   "status": "partial",
   "theorems": [
    "Rekordcrate.row_heap_size_partial",
    "Rekordcrate.row_heap_size_of_ok",
    "Rekordcrate.row_heap_size_overflows",
    "Rekordcrate.unknown_row_has_no_heap_size"
   ],
   "note": "False in full: the u16 sum overflows for rows of 65536 bytes and more, which can be written. Exact characterisation proved."
  },
  {
   "property": "C25",
   "status": "proved",
   "theorems": [
    "Rekordcrate.calculated_offsets_point_at_items",
    "Rekordcrate.calculated_offsets_layout",
    "Rekordcrate.calculated_offsets_written_iff",
    "Rekordcrate.calculated_offsets_exist"
   ],
   "note": ""
  },
  {
   "property": "C26",
   "status": "proved",
   "theorems": [
    "Rekordcrate.provided_offsets_written",
    "Rekordcrate.offsets_read",
    "Rekordcrate.provided_offsets_refused"
   ],
   "note": ""
  },
  {
   "property": "C27",
   "status": "proved",
   "theorems": [
    "Rekordcrate.align_by_least_multiple",
    "Rekordcrate.align_by_total"
   ],
   "note": ""
  },
  {
   "property": "C28",
   "status": "proved",
   "theorems": [
    "Rekordcrate.page_iteration_increasing",
    "Rekordcrate.page_iteration_terminates",
    "Rekordcrate.page_iteration_stops"
   ],
   "note": ""
  },
  {
   "property": "C29",
   "status": "proved",
   "theorems": [
    "Rekordcrate.page_iteration_follows_chain",
    "Rekordcrate.iter_pages_chain",
    "Rekordcrate.iter_pages_error_iff",
    "Rekordcrate.iter_pages_for_table_chain",
    "Rekordcrate.iter_pages_for_table_error_iff"
   ],
   "note": ""
  },
  {
   "property": "C30",
   "status": "proved",
   "theorems": [
    "Rekordcrate.page_iteration_error_final"
   ],
   "note": ""
  },
  {
   "property": "C31",
   "status": "proved",
   "theorems": [
    "Rekordcrate.row_iteration_exact",
    "Rekordcrate.row_iteration_of_file",
    "Rekordcrate.row_variants_lawful"
   ],
   "note": ""
  },
  {
   "property": "C32",
   "status": "partial",
   "theorems": [
    "Rekordcrate.row_iteration_panic_partial",
    "Rekordcrate.iter_rows_no_panic",
    "Rekordcrate.row_iteration_panics",
    "Rekordcrate.all_rows_panic_iff"
   ],
   "note": "False in full: rows of another type on the chain of a table, and strings that make the string parser panic (C05), make iter_rows panic. Proved: exactly when listing all rows panics."
  },
  {
   "property": "C33",
   "status": "proved",
   "theorems": [
    "Rekordcrate.load_page_cached",
    "Rekordcrate.load_page_effect",
    "Rekordcrate.session_keeps_pages"
   ],
   "note": ""
  },
  {
   "property": "C34",
   "status": "partial",
   "theorems": [
    "Rekordcrate.load_page_panic_partial",
    "Rekordcrate.load_page_panic_cause",
    "Rekordcrate.load_page_zero_panics",
    "Rekordcrate.page_read_panic_iff"
   ],
   "note": "False in full: index 0 panics, and so do pages with strings that make the string parser panic. Exact characterisation proved."
  },
  {
   "property": "C35",
   "status": "proved",
   "theorems": [
    "Rekordcrate.flush_keeps_other_pages",
    "Rekordcrate.flush_keeps_unloaded_page"
   ],
   "note": ""
  },
  {
   "property": "C36",
   "status": "proved",
   "theorems": [
    "Rekordcrate.flush_then_reopen"
   ],
   "note": ""
  },
  {
   "property": "C37",
   "status": "proved",
   "theorems": [
    "Rekordcrate.flush_idempotent",
    "Rekordcrate.applyPatches_twice"
   ],
   "note": "The model does not record the writes of a flush that fails; they are the same both times, so applyPatches_twice applies to them."
  },
  {
   "property": "C38",
   "status": "proved",
   "theorems": [
    "Rekordcrate.flush_without_modification"
   ],
   "note": ""
  },
  {
   "property": "C39",
   "status": "partial",
   "theorems": [
    "Rekordcrate.flush_crash_partial",
    "Rekordcrate.flush_crash_iff",
    "Rekordcrate.flush_crash_within",
    "Rekordcrate.flush_writes_inside",
    "Rekordcrate.flush_unsound_page_spills"
   ],
   "note": "False for pages with rows that reach out of their page, with a witness that starts from a file. Proved for all databases whose loaded pages are sound (flush_crash_partial), and for all whose pages keep their rows inside, even if the flush would fail (flush_crash_within); flush_crash_iff says exactly for which databases it holds."
  },
  {
   "property": "C40",
   "status": "proved",
   "theorems": [
    "Rekordcrate.header_roundtrip",
    "Rekordcrate.header_read_write",
    "Rekordcrate.header_read_no_panic",
    "Rekordcrate.find_table_first",
    "Rekordcrate.open_reads_header",
    "Rekordcrate.open_of_header"
   ],
   "note": ""
  },
  {
   "property": "C41",
   "status": "proved",
   "theorems": [
    "Rekordcrate.xor_write_read_roundtrip"
   ],
   "note": ""
  },
  {
   "property": "C42",
   "status": "proved",
   "theorems": [
    "Rekordcrate.xor_stream_behaves_like_plain_file"
   ],
   "note": ""
  },
  {
   "property": "C43",
   "status": "partial",
   "theorems": [
    "Rekordcrate.xor_first_transfer_correct_partial",
    "Rekordcrate.xor_short_read_corrupts",
    "Rekordcrate.xor_short_write_corrupts",
    "Rekordcrate.xor_split_read",
    "Rekordcrate.xor_split_read_right_iff",
    "Rekordcrate.xor_split_write_right_iff"
   ],
   "note": "The full property is false of the code. Proved: exactly when the bytes transferred in several calls are the right ones."
  },
  {
   "property": "C44",
   "status": "proved",
   "theorems": [
    "Rekordcrate.Anlz.section_roundtrip",
    "Rekordcrate.Anlz.anlz_roundtrip"
   ],
   "note": "Consistent means: sizes in headers match, counts fit in their fields, comments do not end with NUL, less than 65286 (plain: 65311) phrases."
  },
  {
   "property": "C45",
   "status": "proved",
   "theorems": [
    "Rekordcrate.Anlz.section_progress",
    "Rekordcrate.Anlz.section_chain_bounded",
    "Rekordcrate.Anlz.section_loop_terminates",
    "Rekordcrate.Anlz.anlz_section_count"
   ],
   "note": ""
  },
  {
   "property": "C46",
   "status": "proved",
   "theorems": [
    "Rekordcrate.Anlz.unknown_section_preserved",
    "Rekordcrate.Anlz.unknown_section_accepted"
   ],
   "note": ""
  },
  {
   "property": "C47",
   "status": "partial",
   "theorems": [
    "Rekordcrate.Anlz.short_header_panics",
    "Rekordcrate.Anlz.short_total_panics",
    "Rekordcrate.Anlz.many_entries_panics",
    "Rekordcrate.Anlz.many_phrases_panics",
    "Rekordcrate.Anlz.short_file_header_panics",
    "Rekordcrate.Anlz.header_sizes_panic_partial",
    "Rekordcrate.Anlz.anlz_read_panic_partial",
    "Rekordcrate.Anlz.section_read_panic_iff",
    "Rekordcrate.Anlz.anlz_read_panic_iff",
    "Rekordcrate.Anlz.long_path_panics",
    "Rekordcrate.Anlz.section_panic_iff",
    "Rekordcrate.Anlz.anlz_panic_iff"
   ],
   "note": "False in full: a witness for each of the reasons for a panic is given. Proved, for files of any size: an exact description, in terms of the bytes, of the files that make the parser panic (and a simpler one for files below 4 GiB)."
  },
  {
   "property": "C48",
   "status": "partial",
   "theorems": [
    "Rekordcrate.Anlz.comment_trailing_nul_lost",
    "Rekordcrate.Anlz.comment_too_long_panics",
    "Rekordcrate.Anlz.comment_roundtrip_partial",
    "Rekordcrate.Anlz.comment_back",
    "Rekordcrate.Anlz.comment_roundtrip_iff"
   ],
   "note": "False in full: comments that end with NUL characters lose them, comments of 2^31-1 or more units panic. Proved for all other comments; what comes back of any comment, and exactly which survive, is proved too."
  },
  {
   "property": "C49",
   "status": "partial",
   "theorems": [
    "Rekordcrate.Anlz.extended_cue_roundtrip_partial",
    "Rekordcrate.Anlz.extended_cue_read_size",
    "Rekordcrate.Anlz.extended_cue_overread",
    "Rekordcrate.Anlz.extended_cue_roundtrip_iff"
   ],
   "note": "False in full because of comments that end with NUL (C48). Proved for all other cues; extended_cue_roundtrip_iff is exact. On the reading side a cue may take more bytes than it declares; witness and exact condition given."
  },
  {
   "property": "C50",
   "status": "partial",
   "theorems": [
    "Rekordcrate.Anlz.song_structure_roundtrip_partial",
    "Rekordcrate.Anlz.song_structure_rewrite",
    "Rekordcrate.Anlz.song_structure_write_panics",
    "Rekordcrate.Anlz.song_structure_read_panics",
    "Rekordcrate.Anlz.song_structure_reads_through_stream",
    "Rekordcrate.Anlz.song_structure_writes_through_stream",
    "Rekordcrate.Anlz.song_structure_roundtrip_iff"
   ],
   "note": "False in full for 65286 (plain: 65311) or more phrases, where the key arithmetic panics. Proved for all smaller numbers; song_structure_roundtrip_iff is exact."
  },
  {
   "property": "C51",
   "status": "proved",
   "theorems": [
    "Rekordcrate.Anlz.waveform_preview_column_bits",
    "Rekordcrate.Anlz.tiny_waveform_preview_column_bits",
    "Rekordcrate.Anlz.waveform_color_detail_column_bits",
    "Rekordcrate.Anlz.waveform_columns_roundtrip",
    "Rekordcrate.Anlz.waveform_byte_columns_layout"
   ],
   "note": ""
  },
  {
   "property": "C52",
   "status": "proved",
   "theorems": [
    "Rekordcrate.setting_checksum_is_crc",
    "Rekordcrate.setting_checksum_unique",
    "Rekordcrate.crc16_isCrc"
   ],
   "note": ""
  },
  {
   "property": "C53",
   "status": "proved",
   "theorems": [
    "Rekordcrate.setting_roundtrip",
    "Rekordcrate.setting_long_name_refused",
    "Rekordcrate.default_settings_proper",
    "Rekordcrate.read_setting_proper"
   ],
   "note": ""
  },
  {
   "property": "C54",
   "status": "proved",
   "theorems": [
    "Rekordcrate.option_code_read",
    "Rekordcrate.option_code_rejected",
    "Rekordcrate.option_code_table",
    "Rekordcrate.option_code_injective"
   ],
   "note": ""
  },
  {
   "property": "C55",
   "status": "partial",
   "theorems": [
    "Rekordcrate.setting_read_checks_layout_partial",
    "Rekordcrate.setting_checksum_ignored"
   ],
   "note": "False in full: the checksum is never compared on reading. Exact characterisation of accepted files proved."
  },
  {
   "property": "C56",
   "status": "proved",
   "theorems": [
    "Rekordcrate.load_settings_independent"
   ],
   "note": ""
  },
  {
   "property": "C57",
   "status": "partial",
   "theorems": [
    "Rekordcrate.get_playlists_terminates_partial",
    "Rekordcrate.get_playlists_terminates_iff",
    "Rekordcrate.get_playlists_returns_iff",
    "Rekordcrate.get_playlists_ok_iff",
    "Rekordcrate.get_playlists_err_iff",
    "Rekordcrate.get_playlists_terminates_for_proper_ids",
    "Rekordcrate.get_playlists_deterministic",
    "Rekordcrate.get_playlists_diverges"
   ],
   "note": "False in full: a file in which a folder is below itself makes get_playlists recurse without end; witness given. Exact for all tables, also with names that are not valid: get_playlists_returns_iff, get_playlists_ok_iff and get_playlists_err_iff say when it returns, when it returns a tree, and when an error; unique non-zero ids are enough."
  },
  {
   "property": "C58",
   "status": "proved",
   "theorems": [
    "Rekordcrate.get_playlists_tree",
    "Rekordcrate.get_playlists_tree_of_any_table",
    "Rekordcrate.get_playlists_failure",
    "Rekordcrate.collect_rows_of_chain",
    "Rekordcrate.all_rows_of_file"
   ],
   "note": ""
  },
  {
   "property": "C59",
   "status": "partial",
   "theorems": [
    "Rekordcrate.join_names",
    "Rekordcrate.export_requests",
    "Rekordcrate.lines_unique",
    "Rekordcrate.export_file_lines_last",
    "Rekordcrate.export_file_lines_partial",
    "Rekordcrate.export_data_of_file",
    "Rekordcrate.export_same_name_overwrites",
    "Rekordcrate.same_file_iff",
    "Rekordcrate.export_places_iff",
    "Rekordcrate.export_file_lines_names_partial",
    "Rekordcrate.rows_apart",
    "Rekordcrate.export_file_lines_rows_partial",
    "Rekordcrate.other_names_collide"
   ],
   "note": "False in full: of playlists that are exported to the same path only the last is left; witness given. Proved: the content of every file after an export, and the property when the paths differ, which they do if and only if no two playlists have the same name in the same folders, provided that the names are not empty and contain no separators (other_names_collide: otherwise they may still be exported to the same path); and in terms of the rows of the playlist table (export_file_lines_rows_partial)."
  },
  {
   "property": "C60",
   "status": "partial",
   "theorems": [
    "Rekordcrate.export_inside_partial",
    "Rekordcrate.export_paths",
    "Rekordcrate.export_inside_iff",
    "Rekordcrate.joined_inside_iff",
    "Rekordcrate.joined_absolute",
    "Rekordcrate.export_leaves_directory"
   ],
   "note": "False in full: names that are absolute or have .. as a component lead out of the output directory; witness given. Proved for all other names. Exact: export_paths gives the paths for all names, export_inside_iff says that among relative names exactly those with .. lead out, joined_absolute that an absolute name makes the output directory irrelevant. Symbolic links are not modelled."
  },
  {
   "property": "C61",
   "status": "partial",
   "theorems": [
    "Rekordcrate.guess_db_type_partial",
    "Rekordcrate.guess_setting_type_partial",
    "Rekordcrate.guess_depends_on_file_name",
    "Rekordcrate.file_name_of_path",
    "Rekordcrate.file_name_is_name",
    "Rekordcrate.explicit_kind_ignored",
    "Rekordcrate.guess_no_panic",
    "Rekordcrate.file_name_iff",
    "Rekordcrate.guess_db_type_by_name",
    "Rekordcrate.guess_db_type_given",
    "Rekordcrate.guess_setting_type_by_name",
    "Rekordcrate.guess_setting_type_given"
   ],
   "note": "False in full: for a path without a file name an explicitly given kind is ignored; witness given. Proved for all paths with a file name, and exactly which paths have which file name."
  },
  {
   "property": "C62",
   "status": "partial",
   "theorems": [
    "Rekordcrate.Xml.attribute_order_partial",
    "Rekordcrate.Xml.root_attribute_order",
    "Rekordcrate.Xml.read_folder_iff",
    "Rekordcrate.Xml.read_playlist_iff",
    "Rekordcrate.Xml.read_track_iff",
    "Rekordcrate.Xml.read_root_iff",
    "Rekordcrate.Xml.reordered_roundtrip",
    "Rekordcrate.Xml.attribute_order_matters",
    "Rekordcrate.Xml.usize_text_iff",
    "Rekordcrate.Xml.i32_text_iff"
   ],
   "note": "False in full: attributes that the reader does not know are refused at the front and ignored at the end; witness given. Proved, at any depth, for nodes with known attributes and numbers where there should be numbers; exact conditions for what is read. At the level of elements; the XML text is not modelled."
  },
  {
   "property": "C63",
   "status": "partial",
   "theorems": [
    "Rekordcrate.Xml.tree_roundtrip_partial",
    "Rekordcrate.Xml.root_roundtrip_partial",
    "Rekordcrate.Xml.written_counts",
    "Rekordcrate.Xml.written_root_count",
    "Rekordcrate.Xml.empty_playlist_lost"
   ],
   "note": "False in full: trees with an empty folder or playlist are written but cannot be read; witness given. Proved exactly: all other trees survive. The counts are proved for all trees. At the level of elements; the XML text is not modelled."
  },
  {
   "property": "C64",
   "status": "proved",
   "theorems": [
    "Rekordcrate.devSetting_option_positions",
    "Rekordcrate.djmMySetting_option_positions",
    "Rekordcrate.mySetting_option_positions",
    "Rekordcrate.mySetting2_option_positions",
    "Rekordcrate.header_layout",
    "Rekordcrate.table_layout",
    "Rekordcrate.short_string_layout",
    "Rekordcrate.long_string_layout",
    "Rekordcrate.page_header_layout",
    "Rekordcrate.data_page_layout",
    "Rekordcrate.index_page_layout",
    "Rekordcrate.album_row_layout",
    "Rekordcrate.artist_row_layout",
    "Rekordcrate.artwork_row_layout",
    "Rekordcrate.color_row_layout",
    "Rekordcrate.genre_row_layout",
    "Rekordcrate.historyPlaylist_row_layout",
    "Rekordcrate.historyEntry_row_layout",
    "Rekordcrate.history_row_layout",
    "Rekordcrate.key_row_layout",
    "Rekordcrate.label_row_layout",
    "Rekordcrate.playlistTreeNode_row_layout",
    "Rekordcrate.playlistEntry_row_layout",
    "Rekordcrate.columnEntry_row_layout",
    "Rekordcrate.menu_row_layout",
    "Rekordcrate.track_row_layout",
    "Rekordcrate.tagOrCategory_row_layout",
    "Rekordcrate.trackTag_row_layout",
    "Rekordcrate.Anlz.section_header_layout",
    "Rekordcrate.Anlz.beat_grid_layout",
    "Rekordcrate.Anlz.cue_layout",
    "Rekordcrate.Anlz.cue_list_layout",
    "Rekordcrate.Anlz.extended_cue_layout",
    "Rekordcrate.Anlz.extended_cue_list_layout",
    "Rekordcrate.Anlz.path_layout",
    "Rekordcrate.Anlz.vbr_layout",
    "Rekordcrate.Anlz.unknown_layout",
    "Rekordcrate.Anlz.waveform_preview_layout",
    "Rekordcrate.Anlz.tiny_waveform_preview_layout",
    "Rekordcrate.Anlz.waveform_detail_layout",
    "Rekordcrate.Anlz.waveform_color_preview_layout",
    "Rekordcrate.Anlz.waveform_color_detail_layout",
    "Rekordcrate.Anlz.waveform_3band_preview_layout",
    "Rekordcrate.Anlz.waveform_3band_detail_layout",
    "Rekordcrate.Anlz.phrase_layout",
    "Rekordcrate.Anlz.song_data_layout",
    "Rekordcrate.Anlz.plain_song_structure_layout",
    "Rekordcrate.Anlz.anlz_file_layout"
   ],
   "note": ""
  },
  {
   "property": "C65",
   "status": "proved",
   "theorems": [
    "Rekordcrate.page_rewrite_contained",
    "Rekordcrate.page_rewrite_identical",
    "Rekordcrate.page_rewrite_iff",
    "Rekordcrate.row_rewrite_iff"
   ],
   "note": "page_rewrite_iff: the condition on ISRC lengths and index padding is exact."
  },
  {
   "property": "C66",
   "status": "partial",
   "theorems": [
    "Rekordcrate.page_read_panic_partial",
    "Rekordcrate.page_read_no_panic_of_type",
    "Rekordcrate.page_read_can_panic",
    "Rekordcrate.row_read_panic_iff",
    "Rekordcrate.page_read_panic_iff"
   ],
   "note": "False in full: strings that make the string parser panic (C05) make the page parser panic. Proved: an exact description, in terms of the bytes, of the rows and pages that make the parser panic."
  },
  {
   "property": "C67",
   "status": "partial",
   "theorems": [
    "Rekordcrate.Anlz.anlz_read_held",
    "Rekordcrate.Anlz.anlz_rewrite_iff",
    "Rekordcrate.Anlz.anlz_rewrite_stable_iff",
    "Rekordcrate.Anlz.anlz_rewrite_unreadable",
    "Rekordcrate.Anlz.anlz_rewrite_drops_section",
    "Rekordcrate.Anlz.section_rewrite_iff",
    "Rekordcrate.Anlz.section_rewrite_stable",
    "Rekordcrate.Anlz.anlz_rewrite",
    "Rekordcrate.Anlz.section_rewrite",
    "Rekordcrate.Anlz.extended_cue_rewrite",
    "Rekordcrate.Anlz.section_read_consistent",
    "Rekordcrate.Anlz.extended_cue_rewrite_iff",
    "Rekordcrate.Anlz.extended_cue_rewrite_differs"
   ],
   "note": "False in full: a comment without terminator is written with one, while the sizes in the headers stay as they were. anlz_rewrite_iff and section_rewrite_iff: the bytes are the same exactly if the length field of every comment is the one that the writer gives it. anlz_rewrite_stable_iff says exactly when the rewritten file is read as the same value; otherwise it can be unreadable (anlz_rewrite_unreadable) or lose its last section without notice (anlz_rewrite_drops_section). A single section is always read as the same value (section_rewrite_stable)."
  },
  {
   "property": "C68",
   "status": "partial",
   "theorems": [
    "Rekordcrate.listing_text",
    "Rekordcrate.listing_complete_partial",
    "Rekordcrate.listing_returns",
    "Rekordcrate.listing_outcome",
    "Rekordcrate.listing_returns_iff",
    "Rekordcrate.listing_fails_early",
    "Rekordcrate.list_data_of_file",
    "Rekordcrate.listing_diverges",
    "Rekordcrate.listing_panics"
   ],
   "note": "False in full: a node below itself, even a playlist, makes the command print for ever, and a name that is not UTF-8 makes it panic; witnesses given. Proved: exact conditions for both, and the whole property for all other files."
  },
  {
   "property": "C69",
   "status": "proved",
   "theorems": [
    "Rekordcrate.settings_text_lines",
    "Rekordcrate.settings_text_lookup",
    "Rekordcrate.settings_text_injective",
    "Rekordcrate.option_text_injective"
   ],
   "note": ""
  },
  {
   "property": "C70",
   "status": "proved",
   "theorems": [
    "Rekordcrate.list_settings_shows",
    "Rekordcrate.list_settings_injective"
   ],
   "note": ""
  },
  {
   "property": "C71",
   "status": "partial",
   "theorems": [
    "Rekordcrate.option_name_documented_partial",
    "Rekordcrate.option_name_different",
    "Rekordcrate.option_name_other"
   ],
   "note": "False in full: simplified Chinese is shown as ChineseSimplified because its attribute stands after the variant; three tempo ranges and one filter setting are worded differently. Proved for all other options."
  },
  {
   "property": "C72",
   "status": "partial",
   "theorems": [
    "Rekordcrate.trail_exists_unique",
    "Rekordcrate.chain_trail",
    "Rekordcrate.dump_unreadable",
    "Rekordcrate.dump_outline",
    "Rekordcrate.dump_outcome",
    "Rekordcrate.dump_panics_iff",
    "Rekordcrate.dump_every_table_partial",
    "Rekordcrate.dump_intact_table_partial",
    "Rekordcrate.brokenFile_dump",
    "Rekordcrate.dump_panics"
   ],
   "note": "False in full: one string that is not valid UTF-8, or an index entry that is not empty and has a page number of 0x3FFFFFF or more, makes the command panic, and the tables behind it are not shown (dump_panics). Proved in full without exceptions: dump_outline, dump_outcome, dump_panics_iff (the exact condition for a panic)."
  },
  {
   "property": "C73",
   "status": "partial",
   "theorems": [
    "Rekordcrate.Xml.document_back",
    "Rekordcrate.Xml.document_roundtrip_partial",
    "Rekordcrate.Xml.reordered_document_back",
    "Rekordcrate.Xml.exampleDocument_roundtrip",
    "Rekordcrate.Xml.empty_collection_unreadable",
    "Rekordcrate.Xml.missing_number_unreadable",
    "Rekordcrate.Xml.album_changes"
   ],
   "note": "False in full: an empty collection is written but cannot be read; a missing text in a field that is written in any case comes back as an empty one and a missing number there makes the document unreadable (or, if empty attributes are read as missing, an empty text comes back as missing). Proved exactly in document_back which documents can be read and what comes back, for both treatments of empty attributes. XML text and the text of f64 values are not modelled."
  },
  {
   "property": "C74",
   "status": "proved",
   "theorems": [
    "Rekordcrate.Xml.read_product_iff",
    "Rekordcrate.Xml.read_tempo_iff",
    "Rekordcrate.Xml.read_mark_iff",
    "Rekordcrate.Xml.read_track_entry_iff",
    "Rekordcrate.Xml.read_collection_iff",
    "Rekordcrate.Xml.read_document_iff",
    "Rekordcrate.Xml.track_unknown_ignored",
    "Rekordcrate.Xml.document_attribute_order"
   ],
   "note": "For the attributes of playlist nodes below the root see C62; document_attribute_order assumes that these are known to the reader."
  },
  {
   "property": "C75",
   "status": "proved",
   "theorems": [
    "Rekordcrate.intact_reopen",
    "Rekordcrate.rows_survive_reopen",
    "Rekordcrate.open_intact"
   ],
   "note": ""
  },
  {
   "property": "C76",
   "status": "partial",
   "theorems": [
    "Rekordcrate.row_assign_lawful",
    "Rekordcrate.edit_rows_exact",
    "Rekordcrate.edited_page_sound",
    "Rekordcrate.edited_intact",
    "Rekordcrate.edited_rows_survive_partial",
    "Rekordcrate.rows_edited_in_place_survive_partial",
    "Rekordcrate.packed_takes_place",
    "Rekordcrate.track_takes_place",
    "Rekordcrate.artist_takes_place",
    "Rekordcrate.track_fields_take_place",
    "Rekordcrate.edited_track_fields_survive",
    "Rekordcrate.renamed_playlists_survive_partial",
    "Rekordcrate.written_page_sound",
    "Rekordcrate.row_uses_survive_partial",
    "Rekordcrate.longer_title_is_damaged",
    "Rekordcrate.longer_name_is_damaged"
   ],
   "note": "False in full: a string that is longer than the old one is overwritten by the next string of the row or by the next row when the page is stored; witnesses given. Proved in full: what the edit does in memory (edit_rows_exact), and edits of the fixed fields of tracks. Proved for all other edits whose rows need no more room than the old ones, with sufficient conditions for packed rows, tracks and artists."
  },
  {
   "property": "C77",
   "status": "proved",
   "theorems": [
    "Rekordcrate.collect_rows_table",
    "Rekordcrate.table_exists_unique",
    "Rekordcrate.table_same_pages",
    "Rekordcrate.all_rows_ok_iff",
    "Rekordcrate.open_no_panic",
    "Rekordcrate.list_data_tables",
    "Rekordcrate.list_playlists_problem",
    "Rekordcrate.export_data_tables",
    "Rekordcrate.export_reads_first",
    "Rekordcrate.dump_problem"
   ],
   "note": ""
  },
  {
   "property": "C78",
   "status": "proved",
   "theorems": [
    "Rekordcrate.session_intact",
    "Rekordcrate.session_reopen",
    "Rekordcrate.PageGrown.sound",
    "Rekordcrate.inserted_rows_survive_reopen"
   ],
   "note": "The sufficient size of an allocation is that of Allocation.Adequate, as in C20; pages into which rows are inserted must have their rows packed below the used size, which holds for fresh pages and is kept by allocations."
  },
  {
   "property": "C79",
   "status": "proved",
   "theorems": [
    "Rekordcrate.career_keeps_pages",
    "Rekordcrate.career_goes_on",
    "Rekordcrate.career_keeps_rows",
    "Rekordcrate.flushed_file_stable"
   ],
   "note": ""
  },
  {
   "property": "C80",
   "status": "partial",
   "theorems": [
    "Rekordcrate.kind_unknown_succeeds",
    "Rekordcrate.silent_success_iff",
    "Rekordcrate.missing_file_fails",
    "Rekordcrate.only_export_changes_files",
    "Rekordcrate.main_depends_on_inputs",
    "Rekordcrate.dump_anlz_shows",
    "Rekordcrate.dump_anlz_panics_iff",
    "Rekordcrate.dump_setting_shows",
    "Rekordcrate.dump_xml_shows",
    "Rekordcrate.dump_pdb_panics_iff",
    "Rekordcrate.list_settings_succeeds",
    "Rekordcrate.other_name_not_shown"
   ],
   "note": "False in full: if the kind of the file cannot be told from its name, dump-pdb and dump-setting do nothing and end in success, even if there is no such file (kind_unknown_succeeds; silent_success_iff: this is the only case); dump-xml panics on every file that is not a document, dump-anlz and dump-pdb panic on some damaged files (exact conditions). Proved in full: what is shown is what the file holds, missing files are errors, the outcome depends only on the input files, only export-playlists changes files. For the other two commands see C57-C60, C68, C77."
  },
  {
   "property": "C81",
   "status": "proved",
   "theorems": [
    "Rekordcrate.row_assign_strict",
    "Rekordcrate.row_uses_session",
    "Rekordcrate.row_uses_exact",
    "Rekordcrate.edits_are_uses",
    "Rekordcrate.collect_then_use"
   ],
   "note": ""
  },
  {
   "property": "C82",
   "status": "proved",
   "theorems": [
    "Rekordcrate.anlz_extended",
    "Rekordcrate.anlz_truncated_or_same",
    "Rekordcrate.anlz_truncated",
    "Rekordcrate.setting_extended",
    "Rekordcrate.setting_truncated_or_same",
    "Rekordcrate.setting_truncated"
   ],
   "note": ""
  },
  {
   "property": "C83",
   "status": "partial",
   "theorems": [
    "Rekordcrate.open_truncated_or_same",
    "Rekordcrate.page_truncated_partial",
    "Rekordcrate.view_truncated_partial",
    "Rekordcrate.trail_truncated_partial",
    "Rekordcrate.rows_truncated_partial",
    "Rekordcrate.list_truncated_partial",
    "Rekordcrate.page_truncated_iff",
    "Rekordcrate.truncated_database_misread"
   ],
   "note": "False in full: a long string marked as ISRC whose text does not end within the length of the string can be read as UCS-2 text when the end of the file is missing (truncated_database_misread). Proved for all files in which every place that looks like an ISRC has its NUL byte within the length, as in all ISRC strings that the code writes; proved in full for the header. page_truncated_iff: a page read from a file that was cut off is that of every longer file exactly if it is also read with the bytes 3 and 0 appended."
  },
  {
   "property": "C84",
   "status": "partial",
   "theorems": [
    "Rekordcrate.page_isolated_partial",
    "Rekordcrate.open_isolated",
    "Rekordcrate.trail_isolated_partial",
    "Rekordcrate.rows_isolated_partial",
    "Rekordcrate.page_isolated_iff",
    "Rekordcrate.page_release_isolated_iff",
    "Rekordcrate.page_alone_iff",
    "Rekordcrate.trail_isolated",
    "Rekordcrate.rows_isolated",
    "Rekordcrate.row_outside_page_damaged",
    "Rekordcrate.row_inside_page_damaged"
   ],
   "note": "False in full: a row can lie outside its page (row_outside_page_damaged), and the search for the end of an ISRC can run out of the page (row_inside_page_damaged). page_isolated_iff and page_alone_iff say exactly which pages do not depend on other bytes; trail_isolated and rows_isolated are for tables of such pages. The partial theorems show that all pages stored by the code in the form of the writer are covered; proved in full for opening."
  },
  {
   "property": "C85",
   "status": "partial",
   "theorems": [
    "Rekordcrate.row_group_eq_iff",
    "Rekordcrate.page_eq_iff",
    "Rekordcrate.page_eq_equivalence",
    "Rekordcrate.page_readback_eq_iff",
    "Rekordcrate.equal_pages_same_history",
    "Rekordcrate.equal_pages_different_bytes"
   ],
   "note": "False in full: pages that compare equal may be stored as different bytes (equal_pages_different_bytes), and a page with a row whose offsets are left to the writer does not compare equal to what is read back (page_readback_eq_iff: this is the only case). Proved in full: what == means, that it is an equivalence relation, and that equal pages allow the same edits with equal results."
  },
  {
   "property": "C86",
   "status": "proved",
   "theorems": [
    "Rekordcrate.row_release_never_panics",
    "Rekordcrate.page_release_never_panics",
    "Rekordcrate.load_page_release_never_panics",
    "Rekordcrate.load_page_zero_release",
    "Rekordcrate.next_page_release_never_panics",
    "Rekordcrate.anlz_release_never_panics",
    "Rekordcrate.row_release_read_same",
    "Rekordcrate.page_release_read_same",
    "Rekordcrate.page_release_write_same",
    "Rekordcrate.allocate_release_same",
    "Rekordcrate.database_release_same",
    "Rekordcrate.anlz_release_same"
   ],
   "note": ""
  },
  {
   "property": "C87",
   "status": "partial",
   "theorems": [
    "Rekordcrate.row_heap_size_release",
    "Rekordcrate.row_heap_size_release_iff",
    "Rekordcrate.allocate_release_partial",
    "Rekordcrate.release_allocation_empty",
    "Rekordcrate.release_allocation_back",
    "Rekordcrate.release_allocation_granted",
    "Rekordcrate.release_allocations_overlap",
    "Rekordcrate.release_row_leaves_page"
   ],
   "note": "False in full: sizes are computed modulo 65536 (row_heap_size_release; right exactly for rows below 65536 bytes), allocate_row with 65529 to 65532 bytes moves the used counter back by 4 (release_allocation_back; release_allocations_overlap: then rows overlap) and with 65533 or more bytes acts as for 0 bytes (release_allocation_empty), and a row of 65557 bytes put on a page of 4096 bytes is stored over the following pages (release_row_leaves_page). Proved for all sizes up to 65528."
  },
  {
   "property": "C88",
   "status": "partial",
   "theorems": [
    "Rekordcrate.bad_string_release_partial",
    "Rekordcrate.bad_string_release_accepted",
    "Rekordcrate.string_release_read_iff"
   ],
   "note": "False in full: a long string that declares less than 4 bytes takes in at least 65532 following bytes if the file has them (bad_string_release_accepted), and an ISRC is read without regard to its length. Proved for files of less than 65532 bytes and strings other than ISRCs; string_release_read_iff says exactly which bytes are accepted in any file below 2 ^ 64 - 1 bytes."
  },
  {
   "property": "C89",
   "status": "partial",
   "theorems": [
    "Rekordcrate.Anlz.section_release_read_iff",
    "Rekordcrate.Anlz.anlz_release_read_held",
    "Rekordcrate.Anlz.anlz_release_rewrite_iff",
    "Rekordcrate.Anlz.section_release_rewrite_iff",
    "Rekordcrate.Anlz.anlz_release_rewrite_drops_section",
    "Rekordcrate.Anlz.anlz_release_rewrite",
    "Rekordcrate.Anlz.anlz_release_file_sizes",
    "Rekordcrate.Anlz.unknown_section_release_sizes",
    "Rekordcrate.string_release_rewrite",
    "Rekordcrate.Anlz.section_release_wrong_sizes"
   ],
   "note": "False in full: the sizes in the header of a section are only checked modulo 2 ^ 32, so sections with wrong sizes are accepted (section_release_wrong_sizes; section_release_read_iff: exactly what is accepted). Proved in full for the header of the file and unknown sections (files below 2 ^ 32 - 12 and 2 ^ 31 bytes). Files and sections are written back byte for byte exactly if the comments of extended cues have the length fields that the writer gives them (anlz_release_rewrite_iff, section_release_rewrite_iff). Rewriting is also proved for strings other than ISRCs; rows, pages and databases are C98."
  },
  {
   "property": "C90",
   "status": "proved",
   "theorems": [
    "Rekordcrate.tool_release_same",
    "Rekordcrate.dump_anlz_release_never_panics",
    "Rekordcrate.dump_pdb_release_panics_iff",
    "Rekordcrate.rows_release_panics_iff",
    "Rekordcrate.list_playlists_release_panics",
    "Rekordcrate.export_playlists_release_panics"
   ],
   "note": ""
  },
  {
   "property": "C91",
   "status": "proved",
   "theorems": [
    "Rekordcrate.release_rows_of_table",
    "Rekordcrate.FileTable.unique",
    "Rekordcrate.release_table_panics_iff",
    "Rekordcrate.list_playlists_release_problem",
    "Rekordcrate.list_playlists_release_text",
    "Rekordcrate.list_playlists_release_outcome",
    "Rekordcrate.list_playlists_release_returns",
    "Rekordcrate.list_playlists_release_panics_iff",
    "Rekordcrate.release_tree",
    "Rekordcrate.release_tree_failure",
    "Rekordcrate.export_playlists_release_problem",
    "Rekordcrate.export_playlists_release_requests",
    "Rekordcrate.export_playlists_release_panics_iff",
    "Rekordcrate.dump_pdb_release_outline"
   ],
   "note": ""
  },
  {
   "property": "C92",
   "status": "partial",
   "theorems": [
    "Rekordcrate.export_matches_listing",
    "Rekordcrate.export_ends_if_listing_ends",
    "Rekordcrate.export_leaves_out_listed",
    "Rekordcrate.export_ends_listing_does_not"
   ],
   "note": "The full property is false: playlists below playlists are listed but not exported (export_leaves_out_listed).  export_matches_listing gives the exact condition."
  },
  {
   "property": "C93",
   "status": "proved",
   "theorems": [
    "Rekordcrate.string_release_read_iff",
    "Rekordcrate.string_read_iff",
    "Rekordcrate.string_unambiguous"
   ],
   "note": "For builds without overflow checks in files of less than 2 ^ 64 - 1 bytes."
  },
  {
   "property": "C94",
   "status": "proved",
   "theorems": [
    "Rekordcrate.row_read_iff",
    "Rekordcrate.row_release_read_iff",
    "Rekordcrate.row_unambiguous"
   ],
   "note": "For builds without overflow checks in files of less than 2 ^ 64 - 1 bytes."
  },
  {
   "property": "C95",
   "status": "proved",
   "theorems": [
    "Rekordcrate.header_read_iff",
    "Rekordcrate.page_header_read_iff",
    "Rekordcrate.index_page_read_iff",
    "Rekordcrate.data_page_read_iff",
    "Rekordcrate.page_read_iff",
    "Rekordcrate.data_page_release_read_iff",
    "Rekordcrate.page_release_read_iff",
    "Rekordcrate.page_unambiguous"
   ],
   "note": "For builds without overflow checks in files of less than 2 ^ 64 - 1 bytes. Positions are unbounded in the model."
  },
  {
   "property": "C96",
   "status": "proved",
   "theorems": [
    "Rekordcrate.Anlz.anlz_read_iff",
    "Rekordcrate.Anlz.anlz_release_read_iff",
    "Rekordcrate.Anlz.anlz_section_read_iff",
    "Rekordcrate.Anlz.anlz_section_release_read_iff",
    "Rekordcrate.Anlz.anlz_content_read_iff",
    "Rekordcrate.Anlz.anlz_content_release_read_iff",
    "Rekordcrate.Anlz.anlz_unambiguous",
    "Rekordcrate.Anlz.anlz_section_unambiguous",
    "Rekordcrate.Anlz.anlz_at_release"
   ],
   "note": "Positions are unbounded in the model; the final position is a u64 sum in the code."
  },
  {
   "property": "C97",
   "status": "partial",
   "theorems": [
    "Rekordcrate.Anlz.anlz_section_alone_iff",
    "Rekordcrate.Anlz.anlz_section_release_alone_iff",
    "Rekordcrate.Anlz.anlz_read_sections_iff",
    "Rekordcrate.Anlz.anlz_compose",
    "Rekordcrate.Anlz.anlz_section_damaged_partial",
    "Rekordcrate.Anlz.anlz_section_damaged_release_partial",
    "Rekordcrate.Anlz.anlz_section_lost",
    "Rekordcrate.Anlz.anlz_section_damage_not_contained"
   ],
   "note": "The last sentence is false: a section that cannot be read makes the whole file unreadable (anlz_section_lost: always; anlz_section_damage_not_contained: a beat grid with a wrong number of beats), and a section read with another length moves the ones behind it. Proved for damage that leaves a section of the same length; the rest is proved in full."
  },
  {
   "property": "C98",
   "status": "proved",
   "theorems": [
    "Rekordcrate.flush_release_without_modification",
    "Rekordcrate.page_release_rewrite_contained",
    "Rekordcrate.page_release_rewrite",
    "Rekordcrate.row_release_rewrite",
    "Rekordcrate.CanonicalFile.release"
   ],
   "note": "Pages of less than 40 bytes have no room for their headers; they are excluded for flushing, as their ends are 2 ^ 32 bytes further without overflow checks."
  },
  {
   "property": "C99",
   "status": "partial",
   "theorems": [
    "Rekordcrate.failed_flush_exact",
    "Rekordcrate.failed_flush_partial",
    "Rekordcrate.failed_flush_in_front",
    "Rekordcrate.failed_flush_outside",
    "Rekordcrate.flush_crash_within",
    "Rekordcrate.failed_flush_changes_file",
    "Rekordcrate.calculated_rows_within",
    "Rekordcrate.failed_flush_trace",
    "Rekordcrate.flush_file",
    "Rekordcrate.row_parts"
   ],
   "note": "The property is false: failed_flush_changes_file is a file in which a flush that fails stores a change of an earlier page and writes over a later page that was never loaded. failed_flush_partial, failed_flush_in_front and failed_flush_outside describe the file in front of the page that cannot be written, and behind it if its rows lie inside the page; flush_crash_within also covers flushes that are cut off anywhere, as by an error of the operating system. failed_flush_exact says exactly what the file is, in terms of the first row that cannot be written and what it has written."
  }
 ]
}