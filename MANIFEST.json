{
 "claims": [
  {
   "property": "C01",
   "status": "proved",
   "theorems": [
    "Pdfmm.C01_hex_roundtrip"
   ],
   "note": ""
  },
  {
   "property": "C02",
   "status": "partial",
   "theorems": [
    "Pdfmm.C02_hex_spec_partial",
    "Pdfmm.C02_hex_spec_false",
    "Pdfmm.C02_hex_endmarker_false"
   ],
   "note": "False of the code for odd digit counts and '>' (witnesses proved); the partial theorem covers text with an even number of digits and no '>'."
  },
  {
   "property": "C03",
   "status": "proved",
   "theorems": [
    "Pdfmm.C03_a85_roundtrip",
    "Pdfmm.C03_a85_endmarker"
   ],
   "note": "For every cutting of the data and of the text into blocks; also with the end marker and trailing bytes."
  },
  {
   "property": "C04",
   "status": "proved",
   "theorems": [
    "Pdfmm.C04_a85_alphabet",
    "Pdfmm.C04_a85_rejects_foreign",
    "Pdfmm.C04_a85_rejects_z_inside_group",
    "Pdfmm.C04_a85_total",
    "Pdfmm.C04_a85_skips_white"
   ],
   "note": "Output alphabet, rejection of foreign characters, skipping of white space, and defined behaviour on every input."
  },
  {
   "property": "C05",
   "status": "partial",
   "theorems": [
    "Pdfmm.C05_rle_total_partial",
    "Pdfmm.C05_rle_false",
    "Pdfmm.C05_rle_repeat_false"
   ],
   "note": "The decoder does not invert run-length encoding (witnesses proved); the partial theorem gives totality and the output bound."
  },
  {
   "property": "C06",
   "status": "partial",
   "theorems": [
    "Pdfmm.C06_lzw_safe_partial",
    "Pdfmm.C06_lzw_empty_ub"
   ],
   "note": "Holds unless the first block is empty, where the code reads past the empty buffer (proved)."
  },
  {
   "property": "C07",
   "status": "proved",
   "theorems": [
    "Pdfmm.C07_lzw_decodes"
   ],
   "note": ""
  },
  {
   "property": "C08",
   "status": "partial",
   "theorems": [
    "Pdfmm.C08_hex_block_independent",
    "Pdfmm.C08_a85_block_independent_partial",
    "Pdfmm.C08_rle_block_independent",
    "Pdfmm.C08_predictor_block_independent",
    "Pdfmm.C08_a85_block_independent_false",
    "Pdfmm.C08_lzw_block_independent_false"
   ],
   "note": "Holds for hex, run length and the predictor; for ASCII85 without '~'; false for LZW and for the ASCII85 end marker (witnesses proved). Flate is an external library."
  },
  {
   "property": "C09",
   "status": "partial",
   "theorems": [
    "Pdfmm.C09_png_partial",
    "Pdfmm.C09_png_false"
   ],
   "note": "False for Average rows whose left and upper bytes are on different sides of 128 (witness proved); proved for all other images."
  },
  {
   "property": "C10",
   "status": "partial",
   "theorems": [
    "Pdfmm.C10_predictor_safe_partial",
    "Pdfmm.C10_paeth_div_zero",
    "Pdfmm.C10_overflow_ub"
   ],
   "note": "False for sub-byte pixels with Paeth and for int overflow of the row size (witnesses proved); proved for all other parameters."
  },
  {
   "property": "C11",
   "status": "proved",
   "theorems": [
    "Pdfmm.C11_tiff"
   ],
   "note": ""
  },
  {
   "property": "C12",
   "status": "proved",
   "theorems": [
    "Pdfmm.C12_chain_roundtrip",
    "Pdfmm.C12_read_stream",
    "Pdfmm.C12_ascii_filters_roundtrip",
    "Pdfmm.C12_empty_refused"
   ],
   "note": "For filters that round-trip for every cut of their input (proved for ASCIIHex and ASCII85, assumed of zlib)."
  },
  {
   "property": "C13",
   "status": "partial",
   "theorems": [
    "Pdfmm.C13_protocol_partial",
    "Pdfmm.C13_direction_not_checked",
    "Pdfmm.C13_flush_failure_blocks"
   ],
   "note": "False: the direction is not checked and a failing Flush leaves the filter open (witnesses proved); proved for histories without these."
  },
  {
   "property": "C14",
   "status": "proved",
   "theorems": [
    "Pdfmm.C14_name_escape_roundtrip",
    "Pdfmm.C14_name_escape_injective",
    "Pdfmm.escapeName_chars"
   ],
   "note": ""
  },
  {
   "property": "C15",
   "status": "proved",
   "theorems": [
    "Pdfmm.C15_name_tokenization"
   ],
   "note": "Stated for every following text that ends a token; the escaped name must fit the 4095-byte token buffer."
  },
  {
   "property": "C16",
   "status": "proved",
   "theorems": [
    "Pdfmm.C16_literal_string_roundtrip"
   ],
   "note": ""
  },
  {
   "property": "C17",
   "status": "proved",
   "theorems": [
    "Pdfmm.C17_hex_string_roundtrip"
   ],
   "note": ""
  },
  {
   "property": "C18",
   "status": "proved",
   "theorems": [
    "Pdfmm.C18_integer_roundtrip"
   ],
   "note": "Context must not continue the integer into a reference."
  },
  {
   "property": "C19",
   "status": "proved",
   "theorems": [
    "Pdfmm.C19_write_parse",
    "Pdfmm.C19_write_parse_context",
    "Pdfmm.C19_noInline_false",
    "Pdfmm.C19_nul_name_rejected"
   ],
   "note": "Compact and clean mode. C19_noInline_false: NoInlineLiteral without Clean runs array elements together."
  },
  {
   "property": "C20",
   "status": "proved",
   "theorems": [
    "Pdfmm.C20_tokens_progress",
    "Pdfmm.C20_parse_terminates"
   ],
   "note": ""
  },
  {
   "property": "C21",
   "status": "partial",
   "theorems": [
    "Pdfmm.C21_lookahead_partial",
    "Pdfmm.C21_last_token_lost_false"
   ],
   "note": "False as stated: a lone integer token at the end of input is dropped by the look-ahead. Everything else proved for every reachable tokenizer state."
  },
  {
   "property": "C22",
   "status": "partial",
   "theorems": [
    "Pdfmm.C22_deep_arrays_raise",
    "Pdfmm.C22_shallow_arrays_parse",
    "Pdfmm.C22_depth_history_partial",
    "Pdfmm.C22_limit_leaks_false",
    "Pdfmm.C22_dictionaries_unbounded_false"
   ],
   "note": "True for arrays on a fresh thread. False for dictionaries (values are not guarded) and for later parses (each overflow leaves the thread's depth one higher)."
  },
  {
   "property": "C23",
   "status": "partial",
   "theorems": [
    "Pdfmm.C23_real_text_partial",
    "Pdfmm.C23_precision_zero_false"
   ],
   "note": "Precision 0 is wrong: 100 prints as 1, and 0 reads out of bounds."
  },
  {
   "property": "C24",
   "status": "partial",
   "theorems": [
    "Pdfmm.C24_ne_false",
    "Pdfmm.C24_ne_always_true",
    "Pdfmm.C24_symmetry_false",
    "Pdfmm.C24_object_symmetry_false",
    "Pdfmm.C24_self_false",
    "Pdfmm.C24_eq_characterised",
    "Pdfmm.C24_transitive",
    "Pdfmm.C24_equality_partial",
    "Pdfmm.C24_array_ne_partial",
    "Pdfmm.C24_object_partial"
   ],
   "note": "False in the code: != of two different variants, dictionaries or objects is always true; null equals everything from the left only; NaN and unknown values are == and != themselves. Proved: what == decides for all values without raw data, transitivity for all values, and that == is equality of values on values without null, raw data, unknown and NaN."
  },
  {
   "property": "C25",
   "status": "proved",
   "theorems": [
    "Pdfmm.C25_reference_order"
   ],
   "note": ""
  },
  {
   "property": "C26",
   "status": "proved",
   "theorems": [
    "Pdfmm.C26_dict_is_map"
   ],
   "note": "Values up to ownership links; PdfObject streams are not part of the value."
  },
  {
   "property": "C27",
   "status": "partial",
   "theorems": [
    "Pdfmm.C27_array_is_list",
    "Pdfmm.C27_array_op",
    "Pdfmm.C27_index",
    "Pdfmm.C27_index_false"
   ],
   "note": "Proved for every operation sequence; operator[] takes a size_t and truncates it to unsigned, so indices from 2^32 on wrap (witness proved)."
  },
  {
   "property": "C28",
   "status": "partial",
   "theorems": [
    "Pdfmm.C28_changes_saved_partial",
    "Pdfmm.C28_lost_without_link",
    "Pdfmm.C28_array_growth_false",
    "Pdfmm.C28_array_insert_false",
    "Pdfmm.C28_dict_assign_false",
    "Pdfmm.C28_resize_false"
   ],
   "note": "False in the code: growing a non-empty array or inserting into it unlinks its elements from the array, later changes to them are not saved; assigning to a contained dictionary and PdfArray::resize are never noticed. Proved for all histories without these. Reads are not modelled."
  },
  {
   "property": "C29",
   "status": "proved",
   "theorems": [
    "Pdfmm.C29_list_is_map"
   ],
   "note": ""
  },
  {
   "property": "C30",
   "status": "partial",
   "theorems": [
    "Pdfmm.C30_fresh_partial",
    "Pdfmm.C30_fresh_false",
    "Pdfmm.C30_replaces_live_false"
   ],
   "note": "False from 65536 objects on (the next number is truncated to 16 bits); proved for all histories below that."
  },
  {
   "property": "C31",
   "status": "partial",
   "theorems": [
    "Pdfmm.C31_generations_partial",
    "Pdfmm.C31_exhausted_false"
   ],
   "note": "Proved for histories of creations and removals below 65535 objects; false for exhausted entries of a loaded file, where the generation instead of the number is remembered as unavailable."
  },
  {
   "property": "C32",
   "status": "partial",
   "theorems": [
    "Pdfmm.C32_replace_partial",
    "Pdfmm.C32_neighbour_false",
    "Pdfmm.C32_foreign_false"
   ],
   "note": "Proved when the reference is present and the object belongs to the document. False for an absent reference (the next object is removed) and for an object made outside the document (the old object is lost)."
  },
  {
   "property": "C33",
   "status": "proved",
   "theorems": [
    "Pdfmm.C33_garbage",
    "Pdfmm.C33_collected_are_free",
    "Pdfmm.C33_null_reference_false"
   ],
   "note": "For every list without an object stored under reference 0 0; the recursion depth is not bounded by the code."
  },
  {
   "property": "C34",
   "status": "proved",
   "theorems": [
    "Pdfmm.C34_table",
    "Pdfmm.C34_size"
   ],
   "note": "Object numbers from 1 to 2^32-2, pairwise distinct among the objects given an entry; the table has at least one block, else NoXRef is raised."
  },
  {
   "property": "C35",
   "status": "partial",
   "theorems": [
    "Pdfmm.C35_free_chain_partial",
    "Pdfmm.C35_no_head_false"
   ],
   "note": "True when the save is incremental or object 1 has an entry. False otherwise: a full save without object 1 writes no entry 0, so the free list has no head (proved for all such saves)."
  },
  {
   "property": "C36",
   "status": "partial",
   "theorems": [
    "Pdfmm.C36_entry_width_partial",
    "Pdfmm.C36_entry_width_false"
   ],
   "note": "True for offsets below 10^10 and generations below 10^5. False from 10^10 on: the line is longer than 20 bytes (proved for all such offsets)."
  },
  {
   "property": "C37",
   "status": "partial",
   "theorems": [
    "Pdfmm.C37_table_round_trip_partial",
    "Pdfmm.C37_many_sections_false"
   ],
   "note": "True for at most 511 subsections. False from 512 on: the reader raises NoEOFToken for the table the writer produced (proved for every save of 512 or more objects of which no two have neighbouring numbers)."
  },
  {
   "property": "C38",
   "status": "partial",
   "theorems": [
    "Pdfmm.C38_stream_round_trip_partial",
    "Pdfmm.C38_large_offset_false"
   ],
   "note": "True for offsets below 2^32 and generations below 2^16. False from 2^32 on: the offset is silently reduced (proved for all such offsets)."
  },
  {
   "property": "C39",
   "status": "partial",
   "theorems": [
    "Pdfmm.C39_stays_inside_partial",
    "Pdfmm.C39_reads_outside_false",
    "Pdfmm.C39_index_overflow_false"
   ],
   "note": "True when the data is a whole number of entries and the /Index sums do not overflow. False otherwise: a stream ending inside an entry is read past its end, and an overflowing /Index sum is undefined behaviour."
  },
  {
   "property": "C40",
   "status": "partial",
   "theorems": [
    "Pdfmm.C40_newest_wins_partial",
    "Pdfmm.C40_known_entries_stay",
    "Pdfmm.C40_long_chain_false"
   ],
   "note": "The claim is proved for every chain of classic, hybrid and stream sections that fits the nesting limit. It is false beyond: every section costs two levels of the recursion limit of 256, so no file with more than 128 revisions can be opened."
  },
  {
   "property": "C41",
   "status": "partial",
   "theorems": [
    "Pdfmm.C41_trailer_partial"
   ],
   "note": "Proved for the chains of C40; the limit on their length is that of C40_long_chain_false."
  },
  {
   "property": "C42",
   "status": "partial",
   "theorems": [
    "Pdfmm.C42_terminates_partial",
    "Pdfmm.C42_read_twice_false"
   ],
   "note": "Termination and a bound on the sections read are proved for every file. \"At most once\" is false: an offset named by /XRefStm is not marked as visited, so it can be read a second time through a /Prev."
  },
  {
   "property": "C43",
   "status": "partial",
   "theorems": [
    "Pdfmm.C43_header_partial",
    "Pdfmm.C43_partial_match_false",
    "Pdfmm.C43_other_version_false"
   ],
   "note": "False as stated: the scanner forgets the character that broke a partial match, so a header directly behind the beginning of another one (for instance %%PDF-1.4) is missed; a %PDF- with an unknown version hides the header that follows. Proved for all prefixes without %PDF- and without % in their last four bytes."
  },
  {
   "property": "C44",
   "status": "partial",
   "theorems": [
    "Pdfmm.C44_last_partial",
    "Pdfmm.C44_first_false",
    "Pdfmm.C44_missing_false",
    "Pdfmm.C44_missing_whole_partial"
   ],
   "note": "False as stated: a match at the very beginning of the searched part raises InternalLogic, and a missing token raises nothing but leaves the device one byte before the searched part (the test for the index is i == 0 instead of i < 0)."
  },
  {
   "property": "C45",
   "status": "partial",
   "theorems": [
    "Pdfmm.C45_page_at_partial",
    "Pdfmm.C45_deep_false"
   ],
   "note": "Proved for page trees of any shape no deeper than the recursion limit, with fewer than 2^31 pages. False beyond the limit for every limit: C45_deep_false."
  },
  {
   "property": "C46",
   "status": "partial",
   "theorems": [
    "Pdfmm.C46_insert_partial"
   ],
   "note": "Proved for page trees of any shape no deeper than the recursion limit, any index and any list of distinct new pages, up to 2^31 pages in total; also that /Parent links stay right. Missing: deeper trees, where the search raises (C45_deep_false)."
  },
  {
   "property": "C47",
   "status": "partial",
   "theorems": [
    "Pdfmm.C47_remove_partial"
   ],
   "note": "Proved for page trees of any shape no deeper than the recursion limit with fewer than 2^31 pages; an index behind the end raises and changes nothing in the tree. Missing: deeper trees."
  },
  {
   "property": "C48",
   "status": "partial",
   "theorems": [
    "Pdfmm.C48_history_partial",
    "Pdfmm.C48_failed_remove_false"
   ],
   "note": "Proved for every history over trees within the recursion limit. False where RemovePageAt fails in a tree deeper than the limit: the cache has been shifted already, C48_failed_remove_false."
  },
  {
   "property": "C49",
   "status": "partial",
   "theorems": [
    "Pdfmm.C49_name_tree_lookup",
    "Pdfmm.C49_empty_root_false"
   ],
   "note": "Proved for every sequence of additions to a document without the tree or to a well-formed tree with at least 65 kids and names allowed in a node (values resolved as GetValue does, keys compared by their texts). False for a root that exists and is empty (as made by GetDestsNode(true)) before anything is added: looking up raises NoObject. Keys read from files are C104."
  },
  {
   "property": "C50",
   "status": "proved",
   "theorems": [
    "Pdfmm.C50_name_tree_shape"
   ],
   "note": "For every sequence of additions to a document without the tree or to a tree with this shape: never fails and gives a tree of this shape with exactly the new entries."
  },
  {
   "property": "C51",
   "status": "partial",
   "theorems": [
    "Pdfmm.C51_links_partial",
    "Pdfmm.C51_calls_partial",
    "Pdfmm.C51_walk_partial",
    "Pdfmm.C51_loaded_false",
    "Pdfmm.C51_insert_false",
    "Pdfmm.C51_insert_parent_false",
    "Pdfmm.C51_erase_root_false"
   ],
   "note": "Proved for every history of CreateChild, CreateNext and Erase on an outline created in memory: each call succeeds, has the effect it should on the children of the items, and all pointers and keys fit. False for loaded outlines (the constructor never sets m_Last, so a child created afterwards is not reached from the others), for InsertChild (the parent is never set; an item can be inserted twice) and for Erase of the root."
  },
  {
   "property": "C52",
   "status": "partial",
   "theorems": [
    "Pdfmm.C52_never_raised_false",
    "Pdfmm.C51_insert_false"
   ],
   "note": "The property is false: InsertChild raises OutlineItemAlreadyPresent for no items at all, in no state, because one of the two roots compared is always null. C51_insert_false shows for every outline what happens instead."
  },
  {
   "property": "C53",
   "status": "partial",
   "theorems": [
    "Pdfmm.C53_append_partial",
    "Pdfmm.C53_consistent",
    "Pdfmm.C53_in_memory",
    "Pdfmm.C53_gap_false",
    "Pdfmm.C53_zero_reference_false"
   ],
   "note": "Proved for every target whose counter is the number of objects and free numbers plus one, which every document made in memory by up to 65534 creations and removals has, and every source whose numbers fit: all objects of the target stay, each source object comes with its stream under its number plus the difference with all references shifted, dangling references dangle, and the list stays consistent. False in general: the difference is the number of objects, not the highest number, so in a target with a gap (SetCanReuseObjectNumbers(false) after a removal, or a loaded file) a source object replaces an object of the target (C53_gap_false), and a null reference 0 0 R becomes a reference to the last target object. Not modelled: the page tree and outline part of append."
  },
  {
   "property": "C54",
   "status": "partial",
   "theorems": [
    "Pdfmm.C54_endless_false",
    "Pdfmm.C54_endless_no_free_false"
   ],
   "note": "The property is false: the loops go through the objects of the document itself instead of the source, and add to it, so after any number of copies (as long as numbers fit 32 bits) there is a next one; with free numbers the loop before invalidates its own deque iterator. Proved for every non-empty document."
  },
  {
   "property": "C55",
   "status": "proved",
   "theorems": [
    "Pdfmm.C55_text_round_trip",
    "Pdfmm.C55_text_bytes",
    "Pdfmm.C55_bytes_round_trip"
   ],
   "note": "Stated against a separate table of ISO 32000-1 Annex D.2; undefined codes 0x7F, 0x9F, 0xAD are excluded, the aliased code 0x16 comes back as 0x17."
  },
  {
   "property": "C56",
   "status": "partial",
   "theorems": [
    "Pdfmm.C56_any_order_partial",
    "Pdfmm.C56_order_matters_false"
   ],
   "note": "Proved for every history, every shuffle and every sequence of code points, provided no two codes have the same value and different sizes and no code points stand behind two codes. Without the second condition the property is false: C56_order_matters_false shows that either code may be returned, depending on the shuffle."
  },
  {
   "property": "C57",
   "status": "partial",
   "theorems": [
    "Pdfmm.C57_longest_partial"
   ],
   "note": "Proved for every history, shuffle and non-empty text in valid UTF-8; missing: histories in which two codes have the same value and different sizes (they overwrite each other, see C92), and invalid UTF-8 (which makes utf8::next throw)."
  },
  {
   "property": "C58",
   "status": "partial",
   "theorems": [
    "Pdfmm.C58_sequence_partial",
    "Pdfmm.C58_single_partial",
    "Pdfmm.C58_single_false"
   ],
   "note": "For sequences the property holds (codes with the same value and different sizes apart). For single code points it is false: the first code point of a mapped ligature that is not mapped itself is reported as found, with a code of size zero, for every such map (C58_single_false); what is reported with another code is mapped (C58_single_partial)."
  },
  {
   "property": "C59",
   "status": "proved",
   "theorems": [
    "Pdfmm.C59_date_roundtrip",
    "Pdfmm.C59_pdf_date_roundtrip",
    "Pdfmm.C59_w3c_date_roundtrip",
    "Pdfmm.C59_text_shows_the_clock",
    "Pdfmm.calendar_exact",
    "Pdfmm.C59_outside_false"
   ],
   "note": "All instants whose local time lies in the years 0 to 9999 and all offsets below 60 hours, for both forms. The calendar algorithms of the bundled date library are modelled and shown equal to the Gregorian calendar. C59_outside_false: both bounds are sharp."
  },
  {
   "property": "C60",
   "status": "partial",
   "theorems": [
    "Pdfmm.C60_standard_dates_read_partial",
    "Pdfmm.C60_accepted_partial",
    "Pdfmm.C60_truncated_false",
    "Pdfmm.C60_trailing_garbage_false",
    "Pdfmm.C60_no_such_day_false",
    "Pdfmm.C60_reads_behind_the_view_false",
    "Pdfmm.C60_short_number_false"
   ],
   "note": "FALSE as stated. After the seconds any text may follow, for every date (C60_trailing_garbage_false). A date that ends with the year is the 30th of November before it and one that ends with the month is the day before its first, for every year and month (C60_truncated_false). Days that the month does not have are taken (C60_no_such_day_false). The parser reads past the end of the view it is given (C60_reads_behind_the_view_false). Proved: dates of the standard with at least a day are read as what they say, and what a text that is taken looks like. A year of one to three digits is taken (C60_short_number_false)."
  },
  {
   "property": "C61",
   "status": "partial",
   "theorems": [
    "Pdfmm.C61_position_inside",
    "Pdfmm.C61_constructed_inside",
    "Pdfmm.C61_seek_partial",
    "Pdfmm.C61_seek_min_false",
    "Pdfmm.C61_read",
    "Pdfmm.C61_char",
    "Pdfmm.C61_write",
    "Pdfmm.C61_access",
    "Pdfmm.C61_write_seek_read",
    "Pdfmm.C61_copy_all",
    "Pdfmm.C61_copy_count"
   ],
   "note": "Proved for every history of calls, except seeks by the offset -2^63 relative to the current position or the end, which negate the smallest integer (undefined behaviour, C61_seek_min_false)."
  },
  {
   "property": "C62",
   "status": "partial",
   "theorems": [
    "Pdfmm.C62_history_save_partial",
    "Pdfmm.C62_write_read_partial",
    "Pdfmm.C62_compress_loses_data_false"
   ],
   "note": "Proved for every saveable stream object, every option and every history of uses, except unfiltered streams saved with compression, which are written empty and emptied in memory (C62_compress_loses_data_false: for every such stream). Flate is a parameter with a round-trip hypothesis about zlib; encryption is not modelled here."
  },
  {
   "property": "C63",
   "status": "partial",
   "theorems": [
    "Pdfmm.C63_passwords_partial",
    "Pdfmm.C63_permissions",
    "Pdfmm.C63_v1_length_false",
    "Pdfmm.C63_v2_length_false",
    "Pdfmm.C63_padding"
   ],
   "note": "For any digest of 16 bytes and any length-preserving cipher that is its own inverse: with RC4 version 1 and 40 bits, RC4 version 2 with 40, 56, 80, 96 or 128 bits, and AES-128, both passwords authenticate after writing and reading the dictionary, the user password gives the same key, so does the owner password unless it is itself accepted as user password, and exactly the given permissions are reported. False for RC4 version 1 with any other key length that PdfEncrypt::Create accepts (the length is not written, no password opens the file), and RC4 version 2 with 256 bits reads beyond the digest. The padding is that of the standard (C63_padding)."
  },
  {
   "property": "C64",
   "status": "partial",
   "theorems": [
    "Pdfmm.C64_filters",
    "Pdfmm.C64_short_filters",
    "Pdfmm.C64_annotations",
    "Pdfmm.C64_versions",
    "Pdfmm.C64_color_spaces_partial",
    "Pdfmm.C64_calrgb_false"
   ],
   "note": "Filters, annotation types and PDF versions are proved. The colour space CalRGB is missing in one direction (C64_calrgb_false); the others are proved."
  },
  {
   "property": "C65",
   "status": "proved",
   "theorems": [
    "Pdfmm.C65_round_trip",
    "Pdfmm.C65_read_unsigned",
    "Pdfmm.C65_write_unsigned",
    "Pdfmm.C65_big_endian_host_false"
   ],
   "note": "The round trip is proved for every host. On a big-endian host the bytes are not big-endian (C65_big_endian_host_false), on little-endian hosts they are."
  },
  {
   "property": "C66",
   "status": "proved",
   "theorems": [
    "Pdfmm.C66_exact"
   ],
   "note": ""
  },
  {
   "property": "C67",
   "status": "proved",
   "theorems": [
    "Pdfmm.C67_toString_roundtrip"
   ],
   "note": ""
  },
  {
   "property": "C68",
   "status": "partial",
   "theorems": [
    "Pdfmm.C68_literal_string_partial",
    "Pdfmm.C68_other_escape_false",
    "Pdfmm.C68_eol_false",
    "Pdfmm.C68_octal_paren_false"
   ],
   "note": "False in the code for a backslash before an ordinary character, unescaped CR, backslash CR LF, and short octal codes before inner parentheses; proved for every other literal string."
  },
  {
   "property": "C69",
   "status": "proved",
   "theorems": [
    "Pdfmm.C69_hex_string_reading"
   ],
   "note": ""
  },
  {
   "property": "C70",
   "status": "proved",
   "theorems": [
    "Pdfmm.C70_separators_ignored"
   ],
   "note": ""
  },
  {
   "property": "C71",
   "status": "proved",
   "theorems": [
    "Pdfmm.C71_name_reading"
   ],
   "note": ""
  },
  {
   "property": "C72",
   "status": "partial",
   "theorems": [
    "Pdfmm.C72_lookup_partial",
    "Pdfmm.C72_text_false"
   ],
   "note": "Lookup by PdfName is proved, by plain string only for texts whose PDFDocEncoding bytes are their UTF-8 bytes. For every other text the entry is not found by the plain string (C72_text_false): raw bytes are compared with UTF-8 text."
  },
  {
   "property": "C73",
   "status": "partial",
   "theorems": [
    "Pdfmm.C73_updates_partial",
    "Pdfmm.C73_hybrid_false"
   ],
   "note": "False for a hybrid file that was never updated: its /XRefStm is counted as an update. Proved for the chains of C40 whose oldest revision is not hybrid."
  },
  {
   "property": "C74",
   "status": "partial",
   "theorems": [
    "Pdfmm.C74_parse_again_false"
   ],
   "note": "False for every file: Reset does not forget the visited offsets, so the second Parse of a parser object raises InvalidXRef. PdfMemDocument makes a new parser for every load and is not affected."
  },
  {
   "property": "C75",
   "status": "partial",
   "theorems": [
    "Pdfmm.C75_entry_partial",
    "Pdfmm.C75_wide_false",
    "Pdfmm.C75_type_false"
   ],
   "note": "False for fields of more than four bytes, which are refused, and for unknown types, which raise an error instead of standing for null. Proved for all other widths and contents."
  },
  {
   "property": "C76",
   "status": "partial",
   "theorems": [
    "Pdfmm.C76_eof",
    "Pdfmm.C76_no_eof",
    "Pdfmm.C76_strict",
    "Pdfmm.C76_startxref_partial"
   ],
   "note": "Proved if less than 504 bytes stand between the keyword and the marker; beyond that the searched part of 512 bytes does not reach the keyword."
  },
  {
   "property": "C77",
   "status": "partial",
   "theorems": [
    "Pdfmm.C77_page_number_partial"
   ],
   "note": "Proved for page trees of any shape with right /Parent links and a recursion limit of at most 1000 (it is 256), which is where the code gives up climbing."
  },
  {
   "property": "C78",
   "status": "partial",
   "theorems": [
    "Pdfmm.C78_index_partial",
    "Pdfmm.C78_index_false"
   ],
   "note": "Proved for pages not served from the cache. False in general: a page keeps the index it was created with when other pages are inserted in front of it."
  },
  {
   "property": "C79",
   "status": "partial",
   "theorems": [
    "Pdfmm.C79_resources_partial",
    "Pdfmm.C79_inherited_false"
   ],
   "note": "Proved when the page or its parent node has resources. False for every other page: the loop over the parents overwrites what it found with the absent resources of the next node."
  },
  {
   "property": "C80",
   "status": "partial",
   "theorems": [
    "Pdfmm.C80_text_survives_partial",
    "Pdfmm.C80_mark_false"
   ],
   "note": "Proved for every text except those of PDFDocEncoding characters that start with the characters of a byte order mark; for each of those the text read back is different (C80_mark_false)."
  },
  {
   "property": "C81",
   "status": "partial",
   "theorems": [
    "Pdfmm.C81_evaluation_partial",
    "Pdfmm.C81_evaluation_idempotent",
    "Pdfmm.C81_evaluation_false"
   ],
   "note": "False in general: an unevaluated string is compared by its raw bytes (C81_evaluation_false). Proved for plain texts; idempotence of evaluation proved in general."
  },
  {
   "property": "C82",
   "status": "proved",
   "theorems": [
    "Pdfmm.C82_name_text",
    "Pdfmm.C82_name_accepted"
   ],
   "note": "Names with NUL are refused when written (C14)."
  },
  {
   "property": "C83",
   "status": "partial",
   "theorems": [
    "Pdfmm.C83_keywords_partial",
    "Pdfmm.C83_keywords_false"
   ],
   "note": "False for every list of two or more keywords: the separators become part of the keywords. Proved for none and one keyword without line breaks."
  },
  {
   "property": "C84",
   "status": "partial",
   "theorems": [
    "Pdfmm.C84_set_date_partial",
    "Pdfmm.C84_set_same_partial",
    "Pdfmm.C84_loaded_values_partial",
    "Pdfmm.C84_set_text_false",
    "Pdfmm.C84_set_author_false",
    "Pdfmm.C84_removed_date_false"
   ],
   "note": "The comparison operator of nullable values used by the text setters has the body of operator!=, so that setting a different text does nothing, in every state (C84_set_text_false). The date setters are proved right, up to dates that come back from the XMP packet after reloading."
  },
  {
   "property": "C85",
   "status": "proved",
   "theorems": [
    "Pdfmm.C85_null_counts",
    "Pdfmm.C85_null_never_readable"
   ],
   "note": ""
  },
  {
   "property": "C86",
   "status": "proved",
   "theorems": [
    "Pdfmm.C86_chars_joined"
   ],
   "note": ""
  },
  {
   "property": "C87",
   "status": "partial",
   "theorems": [
    "Pdfmm.C87_block_read_partial",
    "Pdfmm.C87_long_contents_lost_false",
    "Pdfmm.C87_single_stream_cut_false"
   ],
   "note": "True only for contents that fit into one buffer; the end is reported as soon as the buffer is full (C87_long_contents_lost_false: for every longer contents CopyTo loses data)."
  },
  {
   "property": "C88",
   "status": "partial",
   "theorems": [
    "Pdfmm.C88_use_partial",
    "Pdfmm.C88_history_partial",
    "Pdfmm.C88_stale_parms_false",
    "Pdfmm.C88_parms_overrun_false"
   ],
   "note": "Proved for objects without /DecodeParms. Replacing the data leaves /DecodeParms behind, which makes the new data undecodable (C88_stale_parms_false, for every PNG predictor and all data) or reads out of bounds (C88_parms_overrun_false). Flate is a parameter with a round-trip hypothesis."
  },
  {
   "property": "C89",
   "status": "partial",
   "theorems": [
    "Pdfmm.C89_failed_set_false",
    "Pdfmm.C89_failed_use_partial"
   ],
   "note": "False when a filter has no encoder: the data is lost (C89_failed_set_false, for every object); the other failures leave the object unchanged."
  },
  {
   "property": "C90",
   "status": "proved",
   "theorems": [
    "Pdfmm.C90_copy",
    "Pdfmm.C90_move"
   ],
   "note": ""
  },
  {
   "property": "C91",
   "status": "proved",
   "theorems": [
    "Pdfmm.C91_object_roundtrip",
    "Pdfmm.C91_stream_data_start"
   ],
   "note": "The data of a stream begins right after the line end, for every form of line end the standard allows."
  },
  {
   "property": "C92",
   "status": "partial",
   "theorems": [
    "Pdfmm.C92_code_points_partial",
    "Pdfmm.C92_other_size_false"
   ],
   "note": "False as stated: the map is ordered by the value of the code only, so after any push the code points are returned for codes of every size with this value (C92_other_size_false). Proved when no other code pushed has the value of the code asked for."
  },
  {
   "property": "C93",
   "status": "partial",
   "theorems": [
    "Pdfmm.C93_limits_partial",
    "Pdfmm.C93_zero_code_false"
   ],
   "note": "Proved for histories with some code above zero and none equal to 2^32-1. When only code 0 is pushed the last code keeps its initial size, the result of converting minus infinity to a byte (C93_zero_code_false)."
  },
  {
   "property": "C94",
   "status": "partial",
   "theorems": [
    "Pdfmm.C94_encode_decode_partial",
    "Pdfmm.C94_one_size_partial",
    "Pdfmm.C94_mixed_sizes_false"
   ],
   "note": "Proved when no code's bytes begin with bytes whose value is that of a code (in particular for codes of one size), for texts without U+0000. False in general: a one byte code in the map and a two byte code starting with the value of another code are confused (C94_mixed_sizes_false)."
  },
  {
   "property": "C95",
   "status": "proved",
   "theorems": [
    "Pdfmm.C95_decode_total"
   ],
   "note": "For every encoding, even one no history produces, and every byte string."
  },
  {
   "property": "C96",
   "status": "partial",
   "theorems": [
    "Pdfmm.C96_moved_limits_false"
   ],
   "note": "False: the constructor keeps a reference to the limits of the map it moves from, so the encoding has the limits of an empty map and decodes nothing, for every map and every string."
  },
  {
   "property": "C97",
   "status": "partial",
   "theorems": [
    "Pdfmm.C97_range_partial",
    "Pdfmm.C97_ligature_false"
   ],
   "note": "Proved for destinations of one character. False for two or more characters: the last one is kept and an incremented copy of it appended (C97_ligature_false)."
  },
  {
   "property": "C98",
   "status": "partial",
   "theorems": [
    "Pdfmm.C98_bfchar_partial",
    "Pdfmm.C98_bfrange_partial",
    "Pdfmm.C98_cid_range_false",
    "Pdfmm.C98_number_size_partial"
   ],
   "note": "Proved of bfchar and bfrange entries with texts as destinations. False for cidrange: the CID counts as a code and a CID below 256 makes the smallest size one (C98_cid_range_false). A code given as a number counts the bytes it needs."
  },
  {
   "property": "C99",
   "status": "partial",
   "theorems": [
    "Pdfmm.C99_terminates_partial",
    "Pdfmm.C99_negative_false",
    "Pdfmm.C99_long_code_false"
   ],
   "note": "Proved: reading a stream without a minus sign always ends. The full property is false: a negative number where a code is expected is read for ever (C99_negative_false), as the loop that counts its bytes shifts it with its sign; a code of more than four bytes is undefined behaviour (C99_long_code_false)."
  },
  {
   "property": "C100",
   "status": "partial",
   "theorems": [
    "Pdfmm.C100_listed_partial",
    "Pdfmm.C100_identity_false"
   ],
   "note": "Listed codes keep their texts. False for unlisted codes: when all listed codes stand for themselves without gaps every code is mapped (C100_identity_false)."
  },
  {
   "property": "C101",
   "status": "proved",
   "theorems": [
    "Pdfmm.C101_read_back"
   ],
   "note": ""
  },
  {
   "property": "C102",
   "status": "partial",
   "theorems": [
    "Pdfmm.C102_one_byte_false"
   ],
   "note": "False of every one-byte encoding: the text of the last code is not written, and reading the CMap back raises ValueOutOfRange."
  },
  {
   "property": "C103",
   "status": "partial",
   "theorems": [
    "Pdfmm.C103_identity_false",
    "Pdfmm.C103_four_bytes_false"
   ],
   "note": "False of every size: the last code is one too large, so that one digit more is written and longer codes are read; four bytes are undefined behaviour."
  },
  {
   "property": "C104",
   "status": "partial",
   "theorems": [
    "Pdfmm.C104_reloaded_keys_partial",
    "Pdfmm.C104_other_keys_false",
    "Pdfmm.C104_wrong_key_false"
   ],
   "note": "Holds for a leaf whose keys have plain (ASCII) characters only. False for every key with any other character: it is not found after loading, adding it again gives it twice, and one key can be taken for another. Not modelled: several levels with raw keys."
  },
  {
   "property": "C105",
   "status": "partial",
   "theorems": [
    "Pdfmm.C105_dictionary_partial",
    "Pdfmm.C105_other_characters_false"
   ],
   "note": "Holds for trees of fewer than 256 levels whose keys have characters of PDFDocEncoding only. False for every tree with any other key: an error is raised."
  },
  {
   "property": "C106",
   "status": "partial",
   "theorems": [
    "Pdfmm.C106_reload_partial",
    "Pdfmm.C106_many_chapters_false"
   ],
   "note": "Loading gives every item back when the nesting of the constructor, which calls itself for the first child and for the next item, stays within the limit of the recursion guard (256), and fails otherwise. In particular every outline with 256 or more items at the top level makes the document unreadable. The objects are taken as already read."
  },
  {
   "property": "C107",
   "status": "partial",
   "theorems": [
    "Pdfmm.C107_range_partial",
    "Pdfmm.C107_beyond_false"
   ],
   "note": "Proved for every range inside the source and sizes below 2^32. False beyond: the error comes after all pages of the source have been added, and they stay. Pages are a list here; RemovePageAt on the page tree is C47."
  },
  {
   "property": "C108",
   "status": "partial",
   "theorems": [
    "Pdfmm.C108_write_partial",
    "Pdfmm.C108_read_partial",
    "Pdfmm.C108_zero_key_false"
   ],
   "note": "Writes and reads in any pieces equal RC4 as specified, for every history of earlier streams, as long as no key is all zeros before the cache was filled. False for a first key of zeros: the empty cache is taken for its schedule and the data are written unencrypted."
  },
  {
   "property": "C109",
   "status": "partial",
   "theorems": [
    "Pdfmm.C109_given_password_partial",
    "Pdfmm.C109_empty_password_false",
    "Pdfmm.C109_two_saves_false"
   ],
   "note": "The saved file opens with the password that was given, with the same algorithm and permissions. False: authentication keeps only the password that was given, the other one is replaced by the empty password, so that for every digest and cipher each saved file opens with the empty password. Documents whose metadata are not encrypted are not covered."
  },
  {
   "property": "C110",
   "status": "partial",
   "theorems": [
    "Pdfmm.C110_same_identifier_partial",
    "Pdfmm.C110_update_false"
   ],
   "note": "Holds when the identifier made for the update is the first string of /ID. False otherwise: the key is derived from the new identifier while readers use the first string of /ID, which stays; there is a digest and cipher meeting all hypotheses for which no password opens the updated file."
  },
  {
   "property": "C111",
   "status": "partial",
   "theorems": [
    "Pdfmm.C111_no_ub_partial",
    "Pdfmm.C111_short_string_false",
    "Pdfmm.C111_negative_length_false",
    "Pdfmm.C111_no_length_false"
   ],
   "note": "No undefined behaviour when O and U have at least 32 bytes and the length is above -8. False for shorter strings (read beyond their end), for negative lengths (read beyond the digest), and a missing length gives an internal error for every password instead of 40 bits. AES-256 is the subject of C192."
  },
  {
   "property": "C112",
   "status": "partial",
   "theorems": [
    "Pdfmm.C112_same_info_partial",
    "Pdfmm.C112_same_length_false"
   ],
   "note": "False: the buffer is filled with zeros, the device writes behind them, and the digest is taken of the zeros. Two documents get the same identifier exactly because their information dictionaries have the same number of bytes."
  },
  {
   "property": "C113",
   "status": "proved",
   "theorems": [
    "Pdfmm.C113_user_password"
   ],
   "note": "For any digest of 16 bytes, self-inverse stream cipher and invertible block cipher; the algorithms and key lengths of C63."
  },
  {
   "property": "C114",
   "status": "partial",
   "theorems": [
    "Pdfmm.C114_load_partial",
    "Pdfmm.C114_long_stream_false",
    "Pdfmm.C114_long_stream_flag_false",
    "Pdfmm.C114_long_stream_cut",
    "Pdfmm.C114_small_buffer_false",
    "Pdfmm.C114_last_bytes_false"
   ],
   "note": "Streams below 4096 bytes are loaded as they were. For every longer stream CopyTo reads an end flag that is not initialised (readBuffer sets it only at the end); were it false, the stream is loaded as it was, were it true, it is cut off after 4080 bytes. Reading any stream of 16 or more bytes with a buffer of 1 to 15 bytes writes beyond the buffer. When the last bytes do not fit the buffer the next call begins again with the first of them (C114_last_bytes_false)."
  },
  {
   "property": "C115",
   "status": "partial",
   "theorems": [
    "Pdfmm.C115_signed_partial",
    "Pdfmm.C115_huge_file_false"
   ],
   "note": "Proved for files shorter than 10^10 bytes and any signer whose signature is not longer than announced. False of files with 10^10 bytes before and behind the signature: the text of /ByteRange overruns the 37 bytes reserved for it and overwrites what follows. The incremental saving itself is covered by the other claims."
  },
  {
   "property": "C116",
   "status": "partial",
   "theorems": [
    "Pdfmm.C116_save_load_partial",
    "Pdfmm.C116_free_generation_false"
   ],
   "note": "Proved for documents without reals, without encryption, with streams that the save does not compress itself, fewer than 511 runs of object numbers and files under 10 GB. Found: a free number comes back with its generation increased once more by each save and load (SafeAddFreeObject)."
  },
  {
   "property": "C117",
   "status": "partial",
   "theorems": [
    "Pdfmm.C117_history_partial",
    "Pdfmm.C117_identifier",
    "Pdfmm.C117_update_limit_false",
    "Pdfmm.C117_second_update_false",
    "Pdfmm.C117_update_new_document_false",
    "Pdfmm.C117_info_removed_false"
   ],
   "note": "Proved for up to 126 updates, under the conditions of C116. Found: with the 127th update the file cannot be opened any more (InvalidXRef by the recursion guard); a second SaveUpdate without opening the file in between drops the changes of the first one; SaveUpdate of a new document that was saved with Save loses all objects that are not written again; an /Info that was removed comes back."
  },
  {
   "property": "C118",
   "status": "partial",
   "theorems": [
    "Pdfmm.C118_save_version_partial",
    "Pdfmm.C118_save_version_false",
    "Pdfmm.C118_update_version_partial",
    "Pdfmm.C118_update_v20_false",
    "Pdfmm.C118_update_lower_false"
   ],
   "note": "Proved for full saves when the catalog has no other version, and for updates to a higher version up to 1.7. Found: a full save with another /Version in the catalog loads that one; an update to 2.0 raises ValueOutOfRange; an update to a lower version keeps the old one."
  },
  {
   "property": "C119",
   "status": "partial",
   "theorems": [
    "Pdfmm.C119_add",
    "Pdfmm.C119_has",
    "Pdfmm.C119_remove_false",
    "Pdfmm.C119_remove_other_false",
    "Pdfmm.C119_indirect_false"
   ],
   "note": "Adding, asking and listing are proved for documents whose extensions are stored directly, in the catalog or an indirect dictionary. Found: RemovePdfExtension removes the literal key \"ns\" instead of the given name; GetPdfExtensions raises for an extension that is an indirect object, which HasPdfExtension finds."
  },
  {
   "property": "C120",
   "status": "partial",
   "theorems": [
    "Pdfmm.C120_real_exact",
    "Pdfmm.C120_real_close",
    "Pdfmm.C120_integral_real_false",
    "Pdfmm.C120_large_real_false"
   ],
   "note": "The double is modelled as an exact decimal of at most fifteen digits. C120_integral_real_false: every real with an integral value is read back as an integer object. C120_large_real_false: an integral real of 2^63 or more is written without a point and the parser then raises NoNumber."
  },
  {
   "property": "C121",
   "status": "proved",
   "theorems": [
    "Pdfmm.C121_names",
    "Pdfmm.C121_operands"
   ],
   "note": ""
  },
  {
   "property": "C122",
   "status": "proved",
   "theorems": [
    "Pdfmm.C122_reader_delivers"
   ],
   "note": "Operators other than BI, and Do only on a bare device (forms are C123). Image data must not end with E or I (see C124)."
  },
  {
   "property": "C123",
   "status": "partial",
   "theorems": [
    "Pdfmm.C123_reading_ends",
    "Pdfmm.C123_nested_partial",
    "Pdfmm.C123_nested_handler_false"
   ],
   "note": "Termination is proved for every document, any mutually recursive forms and every consuming handler. That forms nest properly (every followed form is answered by one end and there is no other end) is proved without a handler; C123_nested_handler_false: with a handler, the warning about a missing EI replaces the warning that a form is already being read, so a form that was not entered looks as if it had been."
  },
  {
   "property": "C124",
   "status": "partial",
   "theorems": [
    "Pdfmm.C124_image_data_partial",
    "Pdfmm.C124_ends_with_E_false",
    "Pdfmm.C124_ends_stream_false",
    "Pdfmm.C124_unended_image_false",
    "Pdfmm.C124_bad_value_false",
    "Pdfmm.C124_handler_dictionary_false"
   ],
   "note": "C124_ends_with_E_false: data that ends with E hides the EI after it. C124_ends_stream_false: an image at the end of its stream, with nothing after EI, is lost. C124_unended_image_false: an image left open in a form makes the reader take what follows in the page as image data. C124_bad_value_false: a bad value in the dictionary silently drops the rest of the stream. C124_handler_dictionary_false: with a handler the keys of one image show up in the next."
  },
  {
   "property": "C125",
   "status": "partial",
   "theorems": [
    "Pdfmm.C125_operand_warning_partial",
    "Pdfmm.C125_throw_on_warnings_false"
   ],
   "note": "The operand count warning is exact. C125_throw_on_warnings_false: with ThrowOnWarnings the reader raises at the first content, warnings or not."
  },
  {
   "property": "C126",
   "status": "partial",
   "theorems": [
    "Pdfmm.C126_compressed_objects",
    "Pdfmm.C126_document",
    "Pdfmm.C126_unwanted_object_false",
    "Pdfmm.C126_eager_false",
    "Pdfmm.C126_negative_offset_false"
   ],
   "note": "Proved for every stream whose table and objects are well formed, for one stream and for a list of streams. False otherwise in three ways: a malformed object nobody wants makes the whole read fail; with loading on demand off, a compressed object already read is dereferenced as a parser object through a null pointer; a negative offset reaches seekg with a negative position."
  },
  {
   "property": "C127",
   "status": "partial",
   "theorems": [
    "Pdfmm.C127_widths_partial",
    "Pdfmm.C127_mapped_false",
    "Pdfmm.C127_default_false"
   ],
   "note": "Proved for every map and every assignment of widths in whole thousandths, for fonts without a /CIDToGIDMap stream, as the library writes them; CIDs are below 2^32 - 1. False for loaded fonts with a /CIDToGIDMap stream: widths are stated by CID and looked up by glyph. False for the default width when there are no CIDs."
  },
  {
   "property": "C128",
   "status": "partial",
   "theorems": [
    "Pdfmm.C128_widths_partial",
    "Pdfmm.C128_safe_partial",
    "Pdfmm.C128_last_false",
    "Pdfmm.C128_list_false",
    "Pdfmm.C128_bad_default"
   ],
   "note": "Proved for all well formed arrays, and safety for all arrays of any objects whose CIDs are below 2^31. False for the CID -1 (or 2^32 - 1): the length wraps to 0 and memory outside of the vector is written."
  },
  {
   "property": "C129",
   "status": "partial",
   "theorems": [
    "Pdfmm.C129_read_partial",
    "Pdfmm.C129_read_false",
    "Pdfmm.C129_write_partial",
    "Pdfmm.C129_write_false"
   ],
   "note": "Reading is right when all bytes are below 128, and wrong for every entry with a larger byte, because the bytes are sign-extended. Writing is right for a map of one CID, and wrong for every map of two or more."
  },
  {
   "property": "C130",
   "status": "proved",
   "theorems": [
    "Pdfmm.C130_cid_set",
    "Pdfmm.C130_length"
   ],
   "note": ""
  },
  {
   "property": "C131",
   "status": "proved",
   "theorems": [
    "Pdfmm.C131_numbering",
    "Pdfmm.C131_stable"
   ],
   "note": "The two ways of adding a glyph are modelled together; the mappings pushed for text extraction are not modelled."
  },
  {
   "property": "C132",
   "status": "partial",
   "theorems": [
    "Pdfmm.C132_length_partial",
    "Pdfmm.C132_length_false"
   ],
   "note": "True for loaded fonts; for every imported font with a Unicode mapping the length of every string is 0, because a local variable hides the result. Reals are modelled as integers."
  },
  {
   "property": "C133",
   "status": "partial",
   "theorems": [
    "Pdfmm.C133_tags_partial",
    "Pdfmm.C133_reopened_false"
   ],
   "note": "Proved within one session; false across sessions, since the counter starts again and the fonts of the file are not looked at."
  },
  {
   "property": "C134",
   "status": "partial",
   "theorems": [
    "Pdfmm.C134_same_outlines_partial",
    "Pdfmm.C134_zero_false",
    "Pdfmm.C134_twice_false",
    "Pdfmm.C134_empty_false"
   ],
   "note": "Proved for every undamaged font below 4 GB, every depth of components and every list without repetitions and without glyph 0, whenever the subset is built. False for lists that name the glyph 0 or a glyph twice. No subset is made when an empty glyph lies at the end of the file."
  },
  {
   "property": "C135",
   "status": "proved",
   "theorems": [
    "Pdfmm.C135_ends",
    "Pdfmm.C135_closure"
   ],
   "note": "For every file. The bytes behind an empty glyph are taken for its data, so that components of the glyph behind it count as needed."
  },
  {
   "property": "C136",
   "status": "partial",
   "theorems": [
    "Pdfmm.C136_metrics_partial",
    "Pdfmm.C136_metrics_false"
   ],
   "note": "Proved for fonts whose glyphs all have full metrics; false for every list in which a glyph without full metrics comes before one with full metrics: it gets the metrics of the latter."
  },
  {
   "property": "C137",
   "status": "partial",
   "theorems": [
    "Pdfmm.C137_tables_partial",
    "Pdfmm.C137_search_range_false",
    "Pdfmm.C137_checksum_false",
    "Pdfmm.C137_missing_false"
   ],
   "note": "The directory leads to the tables, and instructions and global data are kept. The search range is wrong in every subset, the checksums sum up signed bytes of the first quarter, and a font that has only some of the required tables is accepted."
  },
  {
   "property": "C138",
   "status": "partial",
   "theorems": [
    "Pdfmm.C138_encode_decode",
    "Pdfmm.C138_decode_encode_partial",
    "Pdfmm.C138_standard_partial",
    "Pdfmm.C138_standard_false",
    "Pdfmm.C138_undefined_false"
   ],
   "note": "Proved: conversion to codes finds the greatest code and is inverse to conversion from codes, except for code 96 of the standard encoding; WinAnsi is that of the PDF reference, Mac Roman except for code 219, the standard encoding except for code 96. False: code 219 of Mac Roman is read as the euro sign instead of the currency sign and code 96 of the standard encoding as grave instead of quoteleft, and those characters cannot be written; undefined codes are read as U+0000, which is written as an undefined code. The tables of MacExpert, Symbol and ZapfDingbats are not compared with the reference."
  },
  {
   "property": "C139",
   "status": "partial",
   "theorems": [
    "Pdfmm.C139_last_wins",
    "Pdfmm.C139_round_trip",
    "Pdfmm.C139_reread",
    "Pdfmm.C139_base_reread",
    "Pdfmm.C139_wrap_false",
    "Pdfmm.C139_overflow_false",
    "Pdfmm.C139_base_false"
   ],
   "note": "Proved for all histories and arrays: the last addition wins, differences and base encodings that were read are read back after writing. False: codes beyond 255 wrap around instead of being refused, a name after the greatest integer is undefined behaviour, and the symbol encodings and, for a font with its own encoding, the standard encoding cannot be read back as bases."
  },
  {
   "property": "C140",
   "status": "partial",
   "theorems": [
    "Pdfmm.C140_names_partial",
    "Pdfmm.C140_large_false",
    "Pdfmm.C140_unreadable_false",
    "Pdfmm.C140_shared_false"
   ],
   "note": "Proved: code points below 65536, except for those that share their name with another one, are read back from their name. False: no code point from 65536 on is read back; names that begin with uni and go on with something else than a number raise an error; the code points that share a name are read as another one."
  },
  {
   "property": "C141",
   "status": "partial",
   "theorems": [
    "Pdfmm.C141_difference_encoding",
    "Pdfmm.C141_encode_decode",
    "Pdfmm.C141_limits_false"
   ],
   "note": "Proved for base encodings with codes 0 to 255, which the predefined ones are. False for the encodings of font programs with fewer codes: differences outside of these codes are read but cannot be written."
  },
  {
   "property": "C142",
   "status": "partial",
   "theorems": [
    "Pdfmm.C142_drawing_partial",
    "Pdfmm.C142_unsaved_history",
    "Pdfmm.C142_glued_false"
   ],
   "note": "Proved for pages on which all content streams but the last end with white space, and for any number of drawings of painters that leave the old contents alone. False otherwise: the streams are put together without white space between them; in particular, a second default drawing on a page with contents turns the Q after the old contents and the q of the first drawing into the word Qq, which is no operator."
  },
  {
   "property": "C143",
   "status": "partial",
   "theorems": [
    "Pdfmm.C143_isolated_partial",
    "Pdfmm.C143_unbalanced_false"
   ],
   "note": "Proved for old contents that restore the states they save. False for contents that save a state without restoring it, since one restore is appended whatever the depth."
  },
  {
   "property": "C144",
   "status": "partial",
   "theorems": [
    "Pdfmm.C144_form_partial",
    "Pdfmm.C144_twice_false",
    "Pdfmm.C144_lost_false"
   ],
   "note": "Proved for forms that are empty. False otherwise: by default, the old contents are there twice afterwards, and with NoSaveRestorePrior they are removed."
  },
  {
   "property": "C145",
   "status": "partial",
   "theorems": [
    "Pdfmm.C145_other_pages_partial",
    "Pdfmm.C145_shared_false",
    "Pdfmm.C145_painters_false"
   ],
   "note": "Proved for pages that do not have the same array as contents, also when they share streams. False: pages that share the array all show the drawing, and when a second painter starts to draw on a page with contents before the first has finished, the drawing of the first is lost."
  },
  {
   "property": "C146",
   "status": "partial",
   "theorems": [
    "Pdfmm.C146_cases",
    "Pdfmm.C146_inherited_partial",
    "Pdfmm.C146_nearest",
    "Pdfmm.C146_cycle_false",
    "Pdfmm.C146_null_false"
   ],
   "note": "Holds for every document whose parents end. Parents in a cycle are followed until the stack is exhausted (C146_cycle_false), and an explicit null on a field hides the inherited value instead of counting as absent (C146_null_false)."
  },
  {
   "property": "C147",
   "status": "partial",
   "theorems": [
    "Pdfmm.C147_full_name_partial",
    "Pdfmm.C147_unique_partial",
    "Pdfmm.C147_escape_false",
    "Pdfmm.C147_empty_false",
    "Pdfmm.C147_cycle_false",
    "Pdfmm.C147_set_name",
    "Pdfmm.C147_raw",
    "Pdfmm.C147_remove_name"
   ],
   "note": "Full names are the joined partial names and distinguish paths of partial names without dots and empty names. Partial names with dots or empty ones make different paths collide, and parents in a cycle exhaust the stack."
  },
  {
   "property": "C148",
   "status": "partial",
   "theorems": [
    "Pdfmm.C148_flags_partial",
    "Pdfmm.C148_inverted_false"
   ],
   "note": "Proved for every single flag. Whether spell checking and scroll bars are enabled reads as the opposite of what was set (C148_inverted_false)."
  },
  {
   "property": "C149",
   "status": "proved",
   "theorems": [
    "Pdfmm.C149_created",
    "Pdfmm.C149_child",
    "Pdfmm.C149_kept",
    "Pdfmm.C149_history"
   ],
   "note": "The dictionary given to the constructors has no flags of its own (it is a new object or a widget)."
  },
  {
   "property": "C150",
   "status": "partial",
   "theorems": [
    "Pdfmm.C150_insert",
    "Pdfmm.C150_remove",
    "Pdfmm.C150_items",
    "Pdfmm.C150_history",
    "Pdfmm.C150_selected",
    "Pdfmm.C150_select_partial",
    "Pdfmm.C150_select_false",
    "Pdfmm.C150_stale_false"
   ],
   "note": "Items refine a list. The selected index is that of the first item with the same value, so an item whose value occurs before it is reported wrongly (C150_select_false), and removing the selected item leaves its value in the field (C150_stale_false)."
  },
  {
   "property": "C151",
   "status": "partial",
   "theorems": [
    "Pdfmm.C151_text_partial",
    "Pdfmm.C151_terminal",
    "Pdfmm.C151_checked_partial",
    "Pdfmm.C151_limit_false",
    "Pdfmm.C151_limit_type_false",
    "Pdfmm.C151_state_false",
    "Pdfmm.C151_inherit_false",
    "Pdfmm.C151_removed"
   ],
   "note": "Texts and check states set through the API read back. A limit on the length never has an effect because GetMaxLen tests the wrong way round, and check boxes whose state has another name than Yes or On, or whose value is inherited, read as not checked."
  },
  {
   "property": "C152",
   "status": "partial",
   "theorems": [
    "Pdfmm.C152_step_partial",
    "Pdfmm.C152_history_partial",
    "Pdfmm.C152_bad_false",
    "Pdfmm.C152_duplicate_false",
    "Pdfmm.C152_iterate_false"
   ],
   "note": "Proved for arrays of distinct entries that can be read, for every history. What is wrong: with an entry that cannot be read the first access raises and later ones work on a truncated collection; with an entry listed twice lookup and removal go wrong; iterating before any other access shows nothing."
  },
  {
   "property": "C153",
   "status": "partial",
   "theorems": [
    "Pdfmm.C153_create_partial",
    "Pdfmm.C153_widget",
    "Pdfmm.C153_history_partial",
    "Pdfmm.C153_loaded_false",
    "Pdfmm.C153_found_false",
    "Pdfmm.C153_orphan_false"
   ],
   "note": "Proved for forms made in memory, for every history of creations on fresh widgets. What is wrong with forms read from a file: unread names are never found, so a second field of the same name appears; once names have been read, creating a field of that name follows a null pointer, or gives a kid without parent, name and kind."
  },
  {
   "property": "C154",
   "status": "partial",
   "theorems": [
    "Pdfmm.C154_corners",
    "Pdfmm.C154_array_partial",
    "Pdfmm.C154_read",
    "Pdfmm.C154_intersect_partial",
    "Pdfmm.C154_zero_false",
    "Pdfmm.C154_disjoint_false"
   ],
   "note": "Proved for exact arithmetic; rounding of doubles is not modelled. Arrays read back for rectangles that are not inside out. What is wrong: intersecting with the rectangle 0 0 0 0 gives the whole first rectangle, and the intersection of disjoint rectangles has a negative size and, written and read back, contains points of neither."
  },
  {
   "property": "C155",
   "status": "partial",
   "theorems": [
    "Pdfmm.C155_product",
    "Pdfmm.C155_kinds",
    "Pdfmm.C155_frame_inverse",
    "Pdfmm.C155_frame_partial",
    "Pdfmm.C155_rect_partial",
    "Pdfmm.C155_apply_false"
   ],
   "note": "Proved for exact arithmetic. Frame rotation is aligned for quarter turns. A transformed rectangle contains the images of its points exactly if the matrix does not mix coordinates with opposite signs (it is computed from two corners only). What is wrong: prepending a translation in x (or y) drops the part in the other direction, for every matrix that has one."
  },
  {
   "property": "C156",
   "status": "partial",
   "theorems": [
    "Pdfmm.C156_box",
    "Pdfmm.C156_set",
    "Pdfmm.C156_rotation",
    "Pdfmm.C156_turn",
    "Pdfmm.C156_size_partial",
    "Pdfmm.C156_reference_false",
    "Pdfmm.C156_inherited_false",
    "Pdfmm.C156_rotation_false",
    "Pdfmm.C156_report_false",
    "Pdfmm.C156_shared_false",
    "Pdfmm.C156_moves_false"
   ],
   "note": "Lookup order, read-back and independence of other pages proved for every tree; sizes for pages with their own boxes. What is wrong: bleed, trim and art boxes are inherited; box numbers given by reference raise; a rotation written as a real raises; setting the size of a page changes all pages sharing an inherited box, reports failure when there is no crop box although the size changed, and moves the page when the corners are given from right to left."
  },
  {
   "property": "C157",
   "status": "partial",
   "theorems": [
    "Pdfmm.C157_positions_partial",
    "Pdfmm.C157_order",
    "Pdfmm.C157_quote_false",
    "Pdfmm.C157_rotated_line_false",
    "Pdfmm.C157_rotated_advance_false",
    "Pdfmm.C157_rise_false",
    "Pdfmm.C157_stretch_false",
    "Pdfmm.C157_form_false",
    "Pdfmm.C157_unmapped_false",
    "Pdfmm.C157_restore_false"
   ],
   "note": "Order proved for all operators; places for every well formed sequence of plain operators. What is wrong: quote operators show before they move; rotated text advances and breaks lines along the page; rise, horizontal scaling and the matrix of a form are ignored; a string without Unicode values takes no room; a restore too many throws and all text is lost. Widths of strings are inputs of the model; numbers are exact."
  },
  {
   "property": "C158",
   "status": "partial",
   "theorems": [
    "Pdfmm.C158_words",
    "Pdfmm.C158_lines_partial",
    "Pdfmm.C158_glued_false",
    "Pdfmm.C158_preserved",
    "Pdfmm.C158_tokens"
   ],
   "note": "Words and preservation of visible characters proved for everything shown; lines when no spaced string contains white space only after its first character, since the space before such a string is not written. The distance class of a string is an input here, see C160."
  },
  {
   "property": "C159",
   "status": "partial",
   "theorems": [
    "Pdfmm.C159_contains",
    "Pdfmm.C159_equal",
    "Pdfmm.C159_substring",
    "Pdfmm.C159_word_partial",
    "Pdfmm.C159_word_false",
    "Pdfmm.C159_no_pattern"
   ],
   "note": "Proved for containment, equality and substrings. With whole words and substrings together only the leftmost occurrence is looked at, so a later whole word is missed. Regular expressions are not modelled; lower case follows the model's table of the code."
  },
  {
   "property": "C160",
   "status": "partial",
   "theorems": [
    "Pdfmm.C160_length_partial",
    "Pdfmm.C160_length_several_partial",
    "Pdfmm.C160_word_partial",
    "Pdfmm.C160_contiguous",
    "Pdfmm.C160_text_matrix_false",
    "Pdfmm.C160_trim_false",
    "Pdfmm.C160_substring_false",
    "Pdfmm.C160_word_length_false",
    "Pdfmm.C160_word_place_false",
    "Pdfmm.C160_scale_false"
   ],
   "note": "Lengths of lines proved for upright text whose text matrix does not scale, from the start of a string, without trimming or on an unscaled page; places and lengths of words on unscaled pages. What is wrong: the text matrix is left out of lengths; unless white tokens are kept the page scale is applied twice to the last string of a line; with TokenizeWords it is applied three times to a word and the words after the first of a string are misplaced; the length of a substring counts the glyphs before it; gaps are compared with a space width to which the page scale was not applied. Rotated text is not part of the model; numbers are exact."
  },
  {
   "property": "C161",
   "status": "partial",
   "theorems": [
    "Pdfmm.C161_add_partial",
    "Pdfmm.C161_remove_partial",
    "Pdfmm.C161_remove_all_partial",
    "Pdfmm.C161_pointer_partial",
    "Pdfmm.C161_history_partial",
    "Pdfmm.C161_get",
    "Pdfmm.C161_found",
    "Pdfmm.C161_shared_false",
    "Pdfmm.C161_pointer_false",
    "Pdfmm.C161_separation_false",
    "Pdfmm.C161_lab_false",
    "Pdfmm.C161_color_false"
   ],
   "note": "Proved where the kinds of resources are separate objects. False of the code: kinds shared by reference are changed for both pages; a null pointer makes an empty entry; a second separation of the same name keeps the first colour; Lab colours are looked for under another name than they are written; a colour space entry that is no dictionary makes adding colours raise. Where the objects for colour spaces come from is a parameter."
  },
  {
   "property": "C162",
   "status": "partial",
   "theorems": [
    "Pdfmm.C162_ranges",
    "Pdfmm.C162_total",
    "Pdfmm.C162_rgb_cmyk_rgb",
    "Pdfmm.C162_gray",
    "Pdfmm.C162_cmyk_rgb",
    "Pdfmm.C162_array_partial",
    "Pdfmm.C162_array_refused",
    "Pdfmm.C162_number_partial",
    "Pdfmm.C162_number_sign",
    "Pdfmm.C162_hex",
    "Pdfmm.C162_hex_bad",
    "Pdfmm.C162_named_partial",
    "Pdfmm.C162_tint_partial",
    "Pdfmm.C162_tint_rgb_partial",
    "Pdfmm.C162_cmyk_rgb_cmyk_false",
    "Pdfmm.C162_array_false",
    "Pdfmm.C162_density_false",
    "Pdfmm.C162_separation_gray_false",
    "Pdfmm.C162_separation_false",
    "Pdfmm.C162_number_false",
    "Pdfmm.C162_hex_length_false",
    "Pdfmm.C162_unknown_false",
    "Pdfmm.C162_view_false",
    "Pdfmm.C162_tint_large_false",
    "Pdfmm.C162_tint_gray_false",
    "Pdfmm.C162_tint_lab_false"
   ],
   "note": "Exact numbers in place of doubles. False of the code: a CMYK separation converted to gray is RGB; Lab and separation colours written to an array come back as other colours, and the empty array is refused; the first character of a number is skipped, so 1.0 is black and .1 is white; codes of other lengths and unknown names are black without error; a name is read past the end of its view; separation densities are not checked; tint samples of 128 or more are undefined behaviour, gray ones are not scaled, RGB and gray ones are black at tint 0. Arrays in text form and the rest of BuildColorSpace are not modelled."
  },
  {
   "property": "C163",
   "status": "partial",
   "theorems": [
    "Pdfmm.C163_written",
    "Pdfmm.C163_fit_false",
    "Pdfmm.C163_kind",
    "Pdfmm.C163_left_partial",
    "Pdfmm.C163_top_partial",
    "Pdfmm.C163_zoom_partial",
    "Pdfmm.C163_value_partial",
    "Pdfmm.C163_fitbv_false",
    "Pdfmm.C163_null_false",
    "Pdfmm.C163_rect_false",
    "Pdfmm.C163_safe",
    "Pdfmm.C163_named",
    "Pdfmm.C163_exclusive",
    "Pdfmm.C163_set",
    "Pdfmm.C163_empty_false",
    "Pdfmm.C163_link_false",
    "Pdfmm.C163_link_named_false",
    "Pdfmm.C163_action_partial",
    "Pdfmm.C163_action_names",
    "Pdfmm.C163_action_false"
   ],
   "note": "Exact numbers in place of doubles; name trees are the lookup function proved in C49. False of the code: a fit that needs a value is accepted without one and written with an empty name; the value of FitBV cannot be read; coordinates left out raise when read; the rectangle reads back with its right and top sides as width and height; an empty destination is accepted and kept only in memory; a link with a destination accepts an action and keeps both; named destinations of links raise; two kinds of actions have no name, and creating them is undefined behaviour."
  },
  {
   "property": "C164",
   "status": "partial",
   "theorems": [
    "Pdfmm.C164_matrix_partial",
    "Pdfmm.C164_matrix_false",
    "Pdfmm.C164_rect_false",
    "Pdfmm.C164_box",
    "Pdfmm.C164_contents_partial",
    "Pdfmm.C164_contents_false",
    "Pdfmm.C164_loop_false",
    "Pdfmm.C164_resources_partial",
    "Pdfmm.C164_inherited_false",
    "Pdfmm.C164_draw_false"
   ],
   "note": "Exact numbers in place of doubles. False of the code: rotations of more than one turn misplace the page; the rectangle the form reports is not its box when the page lies on its side; several content streams are joined without separators; a loop of references in the contents never ends; inherited resources are not copied; drawing on a new form after filling it replaces the resources."
  },
  {
   "property": "C165",
   "status": "partial",
   "theorems": [
    "Pdfmm.C165_resources_partial",
    "Pdfmm.C165_resources_false",
    "Pdfmm.C165_draw_false",
    "Pdfmm.C165_create",
    "Pdfmm.C165_shared_false",
    "Pdfmm.C165_icc",
    "Pdfmm.C165_icc_false"
   ],
   "note": "False of the code: only the nearest parent counts, so resources further up are lost, and drawing then hides them behind an empty dictionary; pages that inherit one dictionary share what is drawn; setting a colour profile drops all other colour spaces."
  },
  {
   "property": "C166",
   "status": "partial",
   "theorems": [
    "Pdfmm.C166_written",
    "Pdfmm.C166_plain_partial",
    "Pdfmm.C166_path_false",
    "Pdfmm.C166_other_false",
    "Pdfmm.C166_strip",
    "Pdfmm.C166_memory",
    "Pdfmm.C166_kept_false",
    "Pdfmm.C166_dot_false",
    "Pdfmm.C166_file_partial",
    "Pdfmm.C166_changed_false",
    "Pdfmm.C166_failed_false",
    "Pdfmm.C166_attach",
    "Pdfmm.C166_same_false"
   ],
   "note": "False of the code: a name with any character other than letters, digits, underscores and separators, such as the dot of an extension, is written from a buffer without a terminating zero, which is undefined behaviour; separators are written as two backslashes and a slash; the path is stripped from the name even when it was to be kept; a file that changes meanwhile gets the wrong size; a file that cannot be read leaves objects behind; a second file of the same name replaces the first."
  },
  {
   "property": "C167",
   "status": "partial",
   "theorems": [
    "Pdfmm.C167_refused",
    "Pdfmm.C167_open_partial",
    "Pdfmm.C167_createnew_false",
    "Pdfmm.C167_openorcreate_false",
    "Pdfmm.C167_emptied_false",
    "Pdfmm.C167_save_false",
    "Pdfmm.C167_crash_false",
    "Pdfmm.C167_failed_false",
    "Pdfmm.C167_update",
    "Pdfmm.C167_update_crash_partial",
    "Pdfmm.C167_atomic_partial",
    "Pdfmm.C167_own_false",
    "Pdfmm.C167_own_all_false",
    "Pdfmm.C167_own_update_partial"
   ],
   "note": "Crashes of the program, not of the machine: bytes reach the file in order. Updates are proved atomic (the old document at every crash point before the marker is complete, the new one after), if the marker is not part of an object. False of the code: CreateNew never opens anything with its default access; OpenOrCreate does not create; Open for writing empties the file; Save empties the file first, so a crash or an error loses the old document; saving into the file the document was loaded from cannot read the objects not read before."
  },
  {
   "property": "C168",
   "status": "partial",
   "theorems": [
    "Pdfmm.C168_set_partial",
    "Pdfmm.C168_brackets_partial",
    "Pdfmm.C168_fresh_partial",
    "Pdfmm.C168_restore_false",
    "Pdfmm.C168_initial_false",
    "Pdfmm.C168_canvas_false",
    "Pdfmm.C168_refused_false",
    "Pdfmm.C168_matrix_false"
   ],
   "note": "The claim is false: Save and Restore do not touch what the painter remembers, so a value set in between and again afterwards is not written (restore); the painter starts with a width of 0 and square caps, which drawings do not start with (initial); it keeps its values on the next canvas (canvas) and after a refused call (refused); and SetCurrentMatrix multiplies (matrix). Proved: a setter that changes the reported value is drawn with, in every state, and in programs that set a parameter only outside of Save and Restore the getter goes on telling what is drawn with. Errors of the stream of the canvas are not modelled."
  },
  {
   "property": "C169",
   "status": "partial",
   "theorems": [
    "Pdfmm.C169_font",
    "Pdfmm.C169_text_partial",
    "Pdfmm.C169_open_partial",
    "Pdfmm.C169_mode_false",
    "Pdfmm.C169_scale_false",
    "Pdfmm.C169_spacing_false",
    "Pdfmm.C169_begin_false",
    "Pdfmm.C169_nofont_false",
    "Pdfmm.C169_fill_false"
   ],
   "note": "The claim is false: rendering modes are written with the number of the next one (mode, fill); values that went back to their default are not written, so the last ones stay (scale, spacing); BeginText writes no text state, so that texts after it have the old font or none (begin, nofont). Proved: DrawText uses the font and size set last, the exact condition under which all of the text state is right, and setters in an open text take effect at once."
  },
  {
   "property": "C170",
   "status": "partial",
   "theorems": [
    "Pdfmm.C170_text_partial",
    "Pdfmm.C170_strict_partial",
    "Pdfmm.C170_switch_false",
    "Pdfmm.C170_finish_false",
    "Pdfmm.C170_encode_false",
    "Pdfmm.C170_utf8_false",
    "Pdfmm.C170_multi_false",
    "Pdfmm.C170_inside_false",
    "Pdfmm.C170_restore_false"
   ],
   "note": "The claim is false: the canvas can be changed or finished with a text open (switch, finish); a text that cannot be encoded leaves a lone bracket (encode) and one that is not UTF-8 an open text object (utf8); DrawMultiLineText writes q and Q inside its text object (multi); drawing and saving are accepted in an open text (inside) and Restore without Save (restore). Proved for every program whose texts are UTF-8 and can be encoded and that does not change the canvas in an open text: text objects are never nested and are closed in every finished canvas; with no drawing in an open text, no operator is where it is not allowed."
  },
  {
   "property": "C171",
   "status": "partial",
   "theorems": [
    "Pdfmm.C171_straight_partial",
    "Pdfmm.C171_straight_false",
    "Pdfmm.C171_smoothQuad_partial",
    "Pdfmm.C171_chain_partial",
    "Pdfmm.C171_quad_false",
    "Pdfmm.C171_smooth_partial",
    "Pdfmm.C171_smooth_false",
    "Pdfmm.C171_arc_false",
    "Pdfmm.C171_circle",
    "Pdfmm.C171_ellipse",
    "Pdfmm.C171_round_partial",
    "Pdfmm.C171_rectangle",
    "Pdfmm.C171_round_false"
   ],
   "note": "The claim is false: MoveTo, LineTo and CubicBezierTo are not remembered, so that horizontal and vertical lines after them slant and smooth curves have corners (straight, smooth); QuadCurveTo uses a wrong second control point (quad); ArcTo turns points wrongly when the arc is rotated (arc); radii below 1 are ignored (round). Proved: circles, ellipses, rectangles and rounded rectangles with a radius of 1 or more, for every point of every curve, smooth curves after smooth curves, and the exact condition for straight lines. Coordinates are rational numbers; of ArcTo only the last transformation is modelled."
  },
  {
   "property": "C172",
   "status": "partial",
   "theorems": [
    "Pdfmm.C172_tabs_partial",
    "Pdfmm.C172_tabs_false",
    "Pdfmm.C172_align_partial",
    "Pdfmm.C172_align_false",
    "Pdfmm.C172_multi_partial",
    "Pdfmm.C172_wrap_false",
    "Pdfmm.C172_double_false"
   ],
   "note": "The claim is false: the tabulator is kept after its spaces (tabs), twice as many spaces are used for several lines (double), alignment measures the text before spaces are added (align), and texts are never broken into lines (wrap). Proved for texts without tabulators: horizontal and vertical alignment is exact, and the text is shown unchanged on one line. The length of a text is what the font gives (C138 and later)."
  },
  {
   "property": "C173",
   "status": "partial",
   "theorems": [
    "Pdfmm.C173_decode_partial",
    "Pdfmm.C173_set_partial",
    "Pdfmm.C173_round_trip_partial",
    "Pdfmm.C173_set_grey_partial",
    "Pdfmm.C173_buffer_partial",
    "Pdfmm.C173_grey_line_partial",
    "Pdfmm.C173_jpeg_partial",
    "Pdfmm.C173_fax_partial",
    "Pdfmm.C173_stride_false",
    "Pdfmm.C173_grey_false",
    "Pdfmm.C173_short_false",
    "Pdfmm.C173_mask_false",
    "Pdfmm.C173_width_false",
    "Pdfmm.C173_set_stride_false",
    "Pdfmm.C173_jpeg_false"
   ],
   "note": "Proved for RGB images of any size up to the limits of the arithmetic, for JPEG pictures and faxes as their decoders give the lines, for all formats, line lengths and soft masks. False of the code: grey images of two lines or more read outside their data (grey lines are looked for at three times their offset); longer lines are refused when a buffer is filled; data or soft masks that are too short, JPEG pictures wider than the dictionary says, line lengths that are too short for the pixels when setting, and widths of 2^30 are not refused and memory outside of the buffers is accessed. The JPEG and fax decoders are parameters."
  },
  {
   "property": "C174",
   "status": "partial",
   "theorems": [
    "Pdfmm.C174_set_partial",
    "Pdfmm.C174_saved_partial",
    "Pdfmm.C174_refused_false",
    "Pdfmm.C174_refused_decode_false",
    "Pdfmm.C174_stale_mask_false",
    "Pdfmm.C174_raw_partial",
    "Pdfmm.C174_raw_filters_false",
    "Pdfmm.C174_raw_space_false",
    "Pdfmm.C174_raw_unset_false",
    "Pdfmm.C174_raw_saved_partial",
    "Pdfmm.C174_raw_saved_false",
    "Pdfmm.C174_names_partial",
    "Pdfmm.C174_names_false",
    "Pdfmm.C174_icc_false",
    "Pdfmm.C174_dims_partial",
    "Pdfmm.C174_dims_false",
    "Pdfmm.C174_key_partial",
    "Pdfmm.C174_key_range_false",
    "Pdfmm.C174_image_dims",
    "Pdfmm.C174_grey_line_partial",
    "Pdfmm.C174_packed_jpeg"
   ],
   "note": "Proved for pixels and raw data set on any earlier image, also after saving. False, and proved false: a refused SetData has already changed the dimensions, after which decoding reads outside of the data; setting pixels keeps an earlier soft mask, whose memory is then read out of bounds; raw data with filters is decoded as if it had none until it was saved and read again, and saved with compression it is lost; a description that leaves the colour space unset reads an uninitialised value, even with a colour space array; the array of a colour space lacks its name; CalRGB has no name; an image with an ICC profile can no longer be decoded; negative dimensions wrap; bounds of colour keys may be negative."
  },
  {
   "property": "C175",
   "status": "partial",
   "theorems": [
    "Pdfmm.C175_kind",
    "Pdfmm.C175_found_partial",
    "Pdfmm.C175_new_form",
    "Pdfmm.C175_new_image_false",
    "Pdfmm.C175_bad_box_false",
    "Pdfmm.C175_untyped_false",
    "Pdfmm.C175_untyped_mask_false",
    "Pdfmm.C175_matrix_partial",
    "Pdfmm.C175_matrix_ref_false",
    "Pdfmm.C175_matrix_length",
    "Pdfmm.C175_names_distinct_partial",
    "Pdfmm.C175_names_false",
    "Pdfmm.C175_new_kind",
    "Pdfmm.C175_new_form_entries",
    "Pdfmm.C175_no_box"
   ],
   "note": "What is given out is of the kind it has and was asked for; forms with sound rectangles and resources and PostScript objects are found, also by reference; a new form is found with its rectangle; matrices are kept; objects drawn with one prefix draw what was given. False of the code: looking at a new image or at a form whose rectangle has not four numbers raises instead of saying no; XObjects without /Type (which the format allows) or with /Type by reference are not found, so that masks without /Type are ignored; a matrix by reference raises; with prefixes that end in digits two objects can get one name and the second is drawn twice."
  },
  {
   "property": "C176",
   "status": "partial",
   "theorems": [
    "Pdfmm.C176_rgba_partial",
    "Pdfmm.C176_rgb_partial",
    "Pdfmm.C176_grey_alpha_partial",
    "Pdfmm.C176_rest_false",
    "Pdfmm.C176_many_pixels_false",
    "Pdfmm.C176_palette_false",
    "Pdfmm.C176_palette_index_partial",
    "Pdfmm.C176_nibbles_false",
    "Pdfmm.C176_pairs_false",
    "Pdfmm.C176_bits_false",
    "Pdfmm.C176_palette_mask_partial"
   ],
   "note": "Proved for colours with and without opacities and for grey with opacities, of eight bits and fewer than 2^32 pixels; what libpng gives is a parameter. False of the code: data of images with opacities is longer than their pixels; with 2^32 pixels or more memory outside the mask is written; no file with a palette loads without undefined behaviour (its colour space is read before it is set); with four, two or one bits per pixel opacities go to the wrong pixels or memory behind the lines is read."
  },
  {
   "property": "C177",
   "status": "partial",
   "theorems": [
    "Pdfmm.C177_magic_partial",
    "Pdfmm.C177_tiny_false",
    "Pdfmm.C177_extension",
    "Pdfmm.C177_png_reads",
    "Pdfmm.C177_png_short_false",
    "Pdfmm.C177_tiff_reads_partial",
    "Pdfmm.C177_seek_end_false",
    "Pdfmm.C177_seek_back_false",
    "Pdfmm.C177_seek_4g_false",
    "Pdfmm.C177_tiff_rgb_partial",
    "Pdfmm.C177_tiff_grey_partial",
    "Pdfmm.C177_grey_decode_false",
    "Pdfmm.C177_white_is_zero_false",
    "Pdfmm.C177_tiff_bits_false",
    "Pdfmm.C177_tiff_refused_partial",
    "Pdfmm.C177_tiff_refused_false",
    "Pdfmm.C177_tiff_leak_false",
    "Pdfmm.C177_jpeg_partial",
    "Pdfmm.C177_jpeg_decode_false",
    "Pdfmm.C177_quality"
   ],
   "note": "The format of files and of buffers of more than four bytes, reads in memory counted from the beginning, TIFF files of colours and of greys, JPEG files saved without compression and the quality of those written are proved; the libraries are parameters. False of the code: shorter buffers are ignored without an error; short reads of PNG data are not reported; seeking from the end of TIFF data goes the wrong way, and before the end is undefined when read; position 2^32-1 cannot be reached; greys with white as zero are shown inverted; bilevel and palette TIFF files are undefined; every TIFF file that is refused is closed twice, and one loaded from memory never; before it is saved a JPEG file is decoded as if it were its pixels; greys of more than one line cannot be decoded."
  },
  {
   "property": "C178",
   "status": "partial",
   "theorems": [
    "Pdfmm.C178_unwrap_partial",
    "Pdfmm.C178_media_lost_false",
    "Pdfmm.C178_unwrap_failed_partial",
    "Pdfmm.C178_failed_open_false"
   ],
   "note": "Proved for streams without media filters and for streams with one filter that is for media. False of the code: with media filters besides others, the entry that names the media filters is lost; a stream whose decoders cannot be created stays locked for good after the failed attempt."
  },
  {
   "property": "C179",
   "status": "partial",
   "theorems": [
    "Pdfmm.C179_lock_partial",
    "Pdfmm.C179_own_stream_partial",
    "Pdfmm.C179_failed_open_false",
    "Pdfmm.C179_moved_false",
    "Pdfmm.C179_assign_false",
    "Pdfmm.C179_assign_out_false",
    "Pdfmm.C179_refused_output_partial"
   ],
   "note": "Proved for histories in which all streams can be opened and variables in use are not assigned to (locks) or moved (reading and writing). False of the code: a failed opening locks for good; a moved input or output stream has lost its device and using it dereferences a null pointer; an input stream that is assigned to keeps reading the old stream, and the old stream stays locked."
  },
  {
   "property": "C180",
   "status": "partial",
   "theorems": [
    "Pdfmm.C180_page_mode_read",
    "Pdfmm.C180_page_mode_set",
    "Pdfmm.C180_page_layout",
    "Pdfmm.C180_preference",
    "Pdfmm.C180_full_screen_partial",
    "Pdfmm.C180_full_screen_false",
    "Pdfmm.C180_full_screen_twice_false",
    "Pdfmm.C180_metadata_partial",
    "Pdfmm.C180_metadata_direct_false",
    "Pdfmm.C180_metadata_read_partial"
   ],
   "note": "Modes, layouts and preferences are proved for every catalog; full screen with a page mode; metadata in an object of its own. False of the code: full screen raises an error for every catalog without a page mode; called twice it names a mode to return to that is not allowed; metadata of a catalog that holds it as a direct dictionary is lost."
  },
  {
   "property": "C181",
   "status": "partial",
   "theorems": [
    "Pdfmm.C181_appearance_partial",
    "Pdfmm.C181_state_over_form_false",
    "Pdfmm.C181_text_partial",
    "Pdfmm.C181_removed_false",
    "Pdfmm.C181_flags",
    "Pdfmm.C181_rect",
    "Pdfmm.C181_open_partial",
    "Pdfmm.C181_open_false",
    "Pdfmm.C181_kind",
    "Pdfmm.C181_try_false"
   ],
   "note": "Proved for appearances when the annotation, its appearance dictionary and the form are distinct objects and, with a state, when the kind's entry is not already a form. False of the code: an appearance for a state over an existing form is written into that form's own dictionary and is not listed; a removed title or contents is still inherited from a parent; /Open held as an indirect object raises; trying to take an object that is no annotation raises instead of answering no."
  },
  {
   "property": "C182",
   "status": "partial",
   "theorems": [
    "Pdfmm.C182_text",
    "Pdfmm.C182_date",
    "Pdfmm.C182_no_value",
    "Pdfmm.C182_ensure",
    "Pdfmm.C182_prepare",
    "Pdfmm.C182_creator_partial",
    "Pdfmm.C182_creator_false",
    "Pdfmm.C182_certify_partial",
    "Pdfmm.C182_perms_false",
    "Pdfmm.C182_orphans_false",
    "Pdfmm.C182_certify_direct_false",
    "Pdfmm.C182_text_object"
   ],
   "note": "Texts, dates, a missing value, making a value and preparing are proved in full. False of the code: setting the creator drops every other entry of /Prop_Build; certifying drops every other permission of the catalog, leaves two objects that nothing refers to, and, when the value is a direct dictionary, raises an error after the signature's earlier reference was removed."
  },
  {
   "property": "C183",
   "status": "partial",
   "theorems": [
    "Pdfmm.C183_lazy_partial",
    "Pdfmm.C183_broken",
    "Pdfmm.C183_move_partial",
    "Pdfmm.C183_text_false",
    "Pdfmm.C183_text_clean_false",
    "Pdfmm.C183_raw_false",
    "Pdfmm.C183_assign_false",
    "Pdfmm.C183_length_false",
    "Pdfmm.C183_self_false",
    "Pdfmm.C183_move_false",
    "Pdfmm.C183_move_new_false",
    "Pdfmm.C183_moved_stream_false",
    "Pdfmm.C183_read"
   ],
   "note": "Proved for every history of the calls listed in Spec.LazyFair. The property fails in the code for the others: ToString marks a changed object clean, so that freeing it or updating the file loses the change; data written through GetOutputStreamRaw to a stream without /Filter mark nothing; assigning an object without a stream keeps the old stream if it had been looked at; a /Length changed before the first look changes the stream; self-assignment reads freed memory; moving from a stream not looked at ends the program, move construction of an object not looked at gives null and a moved stream keeps its old owner."
  },
  {
   "property": "C184",
   "status": "partial",
   "theorems": [
    "Pdfmm.C184_names",
    "Pdfmm.C184_names_plain",
    "Pdfmm.C184_embed",
    "Pdfmm.C184_std_partial",
    "Pdfmm.C184_name_partial",
    "Pdfmm.C184_std_again_partial",
    "Pdfmm.C184_std_false",
    "Pdfmm.C184_flags_false",
    "Pdfmm.C184_poison_false",
    "Pdfmm.C184_known_false"
   ],
   "note": "Proved for every history: names, embedding (with any hash table), and, with a table that never compares keys of two standard types, the fonts given. The code refutes the rest: equality of keys ignores the standard type (PdfFontManager.cpp:478-481), so a table that compares two of them gives the wrong font; a request for an exact name that fails leaves an empty entry (PdfFontManager.cpp:419-426), and the next request reads the first of no fonts or wrongly finds none; flags of later requests are ignored; and the object of an imported font is refused by GetLoadedFont, also once embedded. Fonts from a face or a buffer and the system's search are not modelled."
  },
  {
   "property": "C185",
   "status": "partial",
   "theorems": [
    "Pdfmm.C185_embed_partial",
    "Pdfmm.C185_empty",
    "Pdfmm.C185_type1_false",
    "Pdfmm.C185_type1_lengths_false",
    "Pdfmm.C185_opentype_false"
   ],
   "note": "Proved for every TrueType and CFF program. Refuted for the others: the search for the Type 1 lengths never ends when something that is no blank follows eexec (PdfFontMetricsFreetype.cpp:260-278), the getters of the second and third length give the first (PdfFontMetricsFreetype.cpp:463-485), and an OpenType program loses its /Subtype, which is set in a copy of the object (PdfFont.cpp:555)."
  },
  {
   "property": "C186",
   "status": "partial",
   "theorems": [
    "Pdfmm.C186_gstate_partial",
    "Pdfmm.C186_both_false",
    "Pdfmm.C186_stroke_false",
    "Pdfmm.C186_halftone"
   ],
   "note": "Proved for all programs that set overprinting for both before fills alone and strokes alone after. False otherwise: SetOverprint and SetStrokeOverprint both write /OP, so overprinting set for both after fills leaves fills as they were, and set for strokes alone it holds for fills too."
  },
  {
   "property": "C187",
   "status": "partial",
   "theorems": [
    "Pdfmm.C187_widths_partial",
    "Pdfmm.C187_outside_partial",
    "Pdfmm.C187_refused",
    "Pdfmm.C187_missing_false",
    "Pdfmm.C187_one_false",
    "Pdfmm.C187_truetype_false",
    "Pdfmm.C187_descendant_false",
    "Pdfmm.C187_stretch_false",
    "Pdfmm.C187_limits"
   ],
   "note": "Proved for simple fonts with /FirstChar below /LastChar. False: /MissingWidth is not scaled; a font of one character has its width looked up elsewhere; a TrueType font without descriptor, a composite font whose descendant is missing and a /FontStretch string go through null pointers."
  },
  {
   "property": "C188",
   "status": "partial",
   "theorems": [
    "Pdfmm.C188_raw_partial",
    "Pdfmm.C188_memory_false",
    "Pdfmm.C188_default_false",
    "Pdfmm.C188_filter_false",
    "Pdfmm.C188_close_false",
    "Pdfmm.C188_again_false",
    "Pdfmm.streamed_reach"
   ],
   "note": "Proved for the first stream, written raw with compression turned off. False: with compression on, every write to a stream for the file is refused after the first line of the object was written, and the stream stays locked; data through filters is in the file without /Filter; once one stream was opened all later ones are kept in memory; a second write to the same stream uses a freed object; closing always ends in an error."
  },
  {
   "property": "C189",
   "status": "partial",
   "theorems": [
    "Pdfmm.C189_made",
    "Pdfmm.C189_letters_false",
    "Pdfmm.C189_courier_partial",
    "Pdfmm.C189_listed_false",
    "Pdfmm.C189_beyond_false",
    "Pdfmm.C189_names"
   ],
   "note": "Fonts made by a program have the right width for every character of the tables (C189_made). For loaded fonts the property is false: without /Widths a code less 32 is taken for a glyph number although the tables start with another glyph, so letters of every Times and Helvetica font have the width of their neighbour (C189_letters_false; only the Courier fonts come out right, C189_courier_partial); with /Widths every listed code has the width 0, since the vector is made with that many zeros before the widths are added (C189_listed_false); and a Courier font with /FirstChar and /LastChar reads its table beyond the end, because its size is given as 315 and it has 244 entries (C189_beyond_false)."
  },
  {
   "property": "C190",
   "status": "partial",
   "theorems": [
    "Pdfmm.C190_embedded_partial",
    "Pdfmm.C190_unembedded_false",
    "Pdfmm.C190_default_false"
   ],
   "note": "Holds for embedded fonts with more than one code. A font that is not embedded is written without /FirstChar, /LastChar and /Widths, so all its codes have one width, and /MissingWidth is written in thousandths and read as units (C190_unembedded_false, C190_default_false). A font with one code is the subject of C187_one_false. The rounding of doubles is not modelled."
  },
  {
   "property": "C191",
   "status": "partial",
   "theorems": [
    "Pdfmm.C191_chars",
    "Pdfmm.C191_caption",
    "Pdfmm.C191_color_partial",
    "Pdfmm.C191_no_color_false",
    "Pdfmm.C191_button_false",
    "Pdfmm.C191_removed_false",
    "Pdfmm.C191_action_partial",
    "Pdfmm.C191_action_direct",
    "Pdfmm.C191_action_false",
    "Pdfmm.C191_action_removed_false",
    "Pdfmm.C191_color_removed",
    "Pdfmm.C191_open",
    "Pdfmm.C191_action_refused"
   ],
   "note": "Proved for all documents, widgets and call sequences: every caption and colour entry is the one last set, for every way of reading it, and nothing else changes. Missing because the code breaks it: buttons made or loaded by a form have no widget and their caption calls use a null pointer; a colour that is absent, or the empty array for no colour, is read as black, and the colour for none cannot be set; once /MK is removed from an open widget captions go to a lost object or through a dangling pointer; an action that is a direct entry, set on an annotation, writes a reference to object 0 and is lost; an action that was got is remembered after /A is removed. Lab and separation colours are the subject of C162."
  },
  {
   "property": "C192",
   "status": "partial",
   "theorems": [
    "Pdfmm.C192_hash",
    "Pdfmm.C192_authenticate",
    "Pdfmm.C192_user",
    "Pdfmm.C192_owner",
    "Pdfmm.C192_wrong",
    "Pdfmm.C192_perms",
    "Pdfmm.C192_data",
    "Pdfmm.C192_same",
    "Pdfmm.C192_open",
    "Pdfmm.C192_nul_false",
    "Pdfmm.C192_empty_owner_false",
    "Pdfmm.C192_short_false",
    "Pdfmm.C192_missing_false",
    "Pdfmm.C192_perms_false"
   ],
   "note": "Everything but four parts is proved. The four are false of the code and their negations are proved: a document encrypted with an empty owner password is opened without any password (C192_empty_owner_false); a password is cut at its first zero byte (C192_nul_false); an encryption dictionary of version 5 with a string that is too short, or without OE, UE or Perms, is undefined behaviour (C192_short_false, C192_missing_false); and the encrypted permissions are not compared with P, so that changing P is not noticed (C192_perms_false). Digests, AES on a block and SASLprep are parameters. OpenSSL is taken to pad again after it was initialised anew."
  },
  {
   "property": "C193",
   "status": "partial",
   "theorems": [
    "Pdfmm.C193_encode",
    "Pdfmm.C193_read_back_partial",
    "Pdfmm.C193_same_text_partial",
    "Pdfmm.C193_cids_partial",
    "Pdfmm.C193_reloaded_partial",
    "Pdfmm.C193_shared_false",
    "Pdfmm.C193_many_false",
    "Pdfmm.C193_code_cids"
   ],
   "note": "Encoding is proved as stated. Decoding holds only while at most 255 glyphs are in use and no two characters of the texts share a glyph: C193_many_false shows that the 256th glyph and all after it (up to 65535) get codes of two bytes whose first byte is read as a code of one byte, so that another text and other CIDs come back, and C193_shared_false that characters that share a glyph come back as the one drawn first. C193_reloaded_partial covers the ToUnicode CMap after saving and loading under the first of these limits. Fonts that are embedded whole (AddCharCodeSafe) are the subject of C195. C193_code_cids states the CIDs of a string for codes of any size none of which begins with a shorter one."
  },
  {
   "property": "C194",
   "status": "partial",
   "theorems": [
    "Pdfmm.C194_read_back",
    "Pdfmm.C194_sizes",
    "Pdfmm.C194_sizes_false",
    "Pdfmm.C194_dynamic_partial",
    "Pdfmm.C194_whole",
    "Pdfmm.C194_one_byte_partial",
    "Pdfmm.C194_no_character",
    "Pdfmm.C194_last_false"
   ],
   "note": "C194_read_back proves that every code has its CID after loading, for all sets of glyphs in use no two of which have the same code, and for font names without whitespace, delimiters, backslashes and backspaces (the name is written as it is). The part about sizes is false: C194_sizes shows that the CIDs are counted as codes, so that the sizes of codes that are tried range over the sizes of the CIDs, and C194_sizes_false that codes of one size k are not taken to have that size when a CID takes another number of bytes. C194_dynamic_partial gives the CIDs of texts for fonts made without an encoding with at most 255 glyphs in use. Fonts that are embedded whole: C194_whole proves the same for the map of a CMap, C194_one_byte_partial for all codes but the last of an encoding of one byte (from the code 1 on, or where the size of the code zero, a conversion of an infinite number, is 1), C194_no_character that such an encoding is refused if a code has no character, and C194_last_false shows that the last code is never written, so that its glyph is not its CID."
  },
  {
   "property": "C195",
   "status": "partial",
   "theorems": [
    "Pdfmm.C195_encode",
    "Pdfmm.C195_read_back_partial",
    "Pdfmm.C195_cids_partial",
    "Pdfmm.C195_many_false",
    "Pdfmm.C195_zero_false",
    "Pdfmm.C195_same_bytes"
   ],
   "note": "Proved for all texts and all orders of the tree if the size of the code zero, which C++ leaves open (the logarithm of zero is converted to an integer), comes out as one: C195_encode says which texts can be encoded, and as long as at most 256 different characters are in use C195_read_back_partial and C195_cids_partial say that every text is read back exactly and that its CIDs are the glyphs. The full statement is false: C195_many_false shows that from the 257th character on a character is read back as a text that begins with another character, as the codes of two bytes begin with codes of one byte; C195_zero_false shows that if the size comes out as zero the first text raises InvalidHandle. Other sizes of the code zero are not covered. What is written for such a font when it is saved is not part of this model. C195_same_bytes adds that the bytes do not depend on the random orders."
  }
 ]
}