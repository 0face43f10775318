{
 "claims": [
  {
   "property": "C01",
   "status": "proved",
   "theorems": [
    "Oaks.Props.C01_find_byte_some",
    "Oaks.Props.C01_find_byte_none",
    "Oaks.Props.C01_find_first_of_4_some",
    "Oaks.Props.C01_find_first_of_4_none",
    "Oaks.Props.C01_skip_byte",
    "Oaks.Props.C01_skip_two_bytes",
    "Oaks.Props.C01_skip_ascii_whitespace",
    "Oaks.Props.C01_skip_ascii_digits",
    "Oaks.Props.C01_skip_ascii_ident_continue",
    "Oaks.Props.C01_skip_ascii_hexdigits",
    "Oaks.Props.C01_skip_until"
   ],
   "note": ""
  },
  {
   "property": "C02",
   "status": "proved",
   "theorems": [
    "Oaks.Props.C02_rope_new",
    "Oaks.Props.C02_chunked_push",
    "Oaks.Props.C02_chunk_sizes"
   ],
   "note": ""
  },
  {
   "property": "C03",
   "status": "proved",
   "theorems": [
    "Oaks.Props.C03_rope_refines_string"
   ],
   "note": ""
  },
  {
   "property": "C04",
   "status": "proved",
   "theorems": [
    "Oaks.Props.C04_text_from",
    "Oaks.Props.C04_text_in",
    "Oaks.Props.C04_past_end_differs"
   ],
   "note": "In-range, boundary-aligned extraction. Past-end ranges differ between source kinds (C04_past_end_differs)."
  },
  {
   "property": "C05",
   "status": "proved",
   "theorems": [
    "Oaks.Props.C05_chunks_contiguous",
    "Oaks.Props.C05_chunk_at",
    "Oaks.Props.C05_read_chunks"
   ],
   "note": ""
  },
  {
   "property": "C06",
   "status": "partial",
   "theorems": [
    "Oaks.Props.C06_find_char",
    "Oaks.Props.C06_find_char_layout",
    "Oaks.Props.C06_get_char_at",
    "Oaks.Props.C06_find_str_sound_partial",
    "Oaks.Props.C06_find_str_partial",
    "Oaks.Props.C06_find_str_text_partial",
    "Oaks.Props.C06_find_str_rope_partial",
    "Oaks.Props.C06_find_str_misses",
    "Oaks.Props.C06_find_str_misses_two_chunks"
   ],
   "note": "Character search and get_char_at fully proved. Substring search: the code misses patterns that span three chunks or whose overlap cuts a character (C06_find_str_misses, C06_find_str_misses_two_chunks); proved right for single-chunk sources, fresh ASCII ropes and any layout with long enough aligned chunks."
  },
  {
   "property": "C07",
   "status": "partial",
   "theorems": [
    "Oaks.Props.C07_text_edits_partial",
    "Oaks.Props.C07_rope_edits_partial",
    "Oaks.Props.C07_valid_edits_are_batches",
    "Oaks.Props.C07_same_start_overwrites"
   ],
   "note": "Proved for every batch of disjoint edits in any listed order, insertions before replacements at the same start. A replacement listed before an insertion at the same start loses text (C07_same_start_overwrites)."
  },
  {
   "property": "C08",
   "status": "proved",
   "theorems": [
    "Oaks.Props.C08_rope_text_agree"
   ],
   "note": ""
  },
  {
   "property": "C09",
   "status": "proved",
   "theorems": [
    "Oaks.Props.C09_cursor_refines",
    "Oaks.Props.C09_past_end",
    "Oaks.Props.C09_read_chars",
    "Oaks.Props.C09_read_bytes",
    "Oaks.Props.C09_take_while_byte",
    "Oaks.Props.C09_mid_char_spins"
   ],
   "note": "All positions on character boundaries (all byte positions for byte reading). Off a boundary SourceText cursors can spin (C09_mid_char_spins)."
  },
  {
   "property": "C10",
   "status": "proved",
   "theorems": [
    "Oaks.Props.C10_prefix"
   ],
   "note": ""
  },
  {
   "property": "C11",
   "status": "proved",
   "theorems": [
    "Oaks.Props.C11_emission",
    "Oaks.Props.C11_nothing_dropped",
    "Oaks.Props.C11_words_never_merge"
   ],
   "note": ""
  },
  {
   "property": "C12",
   "status": "proved",
   "theorems": [
    "Oaks.Props.C12_run",
    "Oaks.Props.C12_guard",
    "Oaks.Props.C12_guarded_loop"
   ],
   "note": "Every lexer built from the scanner operations (decision trees over what is seen), over every lawful source; add_token with arbitrary caller-chosen spans is outside the claim."
  },
  {
   "property": "C13",
   "status": "proved",
   "theorems": [
    "Oaks.Props.C13_comment",
    "Oaks.Props.C13_line",
    "Oaks.Props.C13_block",
    "Oaks.Props.C13_determined",
    "Oaks.Props.C13_empty_closer_panics"
   ],
   "note": "Proved for every non-empty closer; scan_block_comment with an empty end sequence panics (C13_empty_closer_panics), CommentConfig with an empty closer runs to the end of the text."
  },
  {
   "property": "C14",
   "status": "partial",
   "theorems": [
    "Oaks.Props.C14_scan_partial",
    "Oaks.Props.C14_determined",
    "Oaks.Props.C14_paths_agree_partial",
    "Oaks.Props.C14_doubled_quotes",
    "Oaks.Props.C14_unterminated_silent"
   ],
   "note": "Holds when no quote is its own escape character. Code disagrees with the full claim: with escape = quote the two paths differ (C14_doubled_quotes); an unterminated literal is not reported, it yields the same token and answer as a terminated one (C14_unterminated_silent)."
  },
  {
   "property": "C15",
   "status": "partial",
   "theorems": [
    "Oaks.Props.C15_kept_partial",
    "Oaks.Props.C15_unchanged",
    "Oaks.Props.C15_stale_tokens",
    "Oaks.Props.C15_kept_not_fresh"
   ],
   "note": "Holds when relex_from is below the new length. Code disagrees otherwise: tokens past the new end are kept (C15_stale_tokens). Also recorded: kept tokens need not equal those of a fresh run (C15_kept_not_fresh)."
  },
  {
   "property": "C16",
   "status": "proved",
   "theorems": [
    "Oaks.Props.C16_len",
    "Oaks.Props.C16_constructible",
    "Oaks.Props.C16_spans_tile",
    "Oaks.Props.C16_child_at",
    "Oaks.Props.C16_children"
   ],
   "note": ""
  },
  {
   "property": "C17",
   "status": "proved",
   "theorems": [
    "Oaks.Props.C17_leaf_at_offset",
    "Oaks.Props.C17_child_at_offset"
   ],
   "note": ""
  },
  {
   "property": "C18",
   "status": "proved",
   "theorems": [
    "Oaks.Props.C18_offsets",
    "Oaks.Props.C18_moves",
    "Oaks.Props.C18_preorder",
    "Oaks.Props.C18_step_next"
   ],
   "note": ""
  },
  {
   "property": "C19",
   "status": "proved",
   "theorems": [
    "Oaks.Props.C19_preorder_iter",
    "Oaks.Props.C19_true_spans",
    "Oaks.Props.C19_visitor"
   ],
   "note": ""
  },
  {
   "property": "C20",
   "status": "partial",
   "theorems": [
    "Oaks.Props.C20_clone",
    "Oaks.Props.C20_provenance_partial",
    "Oaks.Props.C20_provenance_lost"
   ],
   "note": "Structure, lengths, kinds and metadata indices proved equal. Provenance is not readable through the new arena: indices still refer to the old arena's store (C20_provenance_lost); proved readable when the new store extends the old one."
  },
  {
   "property": "C21",
   "status": "partial",
   "theorems": [
    "Oaks.Props.C21_lossless",
    "Oaks.Props.C21_no_panic",
    "Oaks.Props.C21_reuse_partial",
    "Oaks.Props.C21_reuse_kinds_differ"
   ],
   "note": "Fully proved without node reuse. With reuse, lengths and offsets are proved to agree, but leaf kinds can differ from the tokens passed (C21_reuse_kinds_differ)."
  },
  {
   "property": "C22",
   "status": "proved",
   "theorems": [
    "Oaks.Props.C22_backtrack",
    "Oaks.Props.C22_success",
    "Oaks.Props.C22_reuse_lost"
   ],
   "note": "Errors recorded inside are kept. The cursor into the old tree is not restored, so reuse is lost after a failed attempt (C22_reuse_lost)."
  },
  {
   "property": "C23",
   "status": "proved",
   "theorems": [
    "Oaks.Props.C23_lookahead"
   ],
   "note": ""
  },
  {
   "property": "C24",
   "status": "proved",
   "theorems": [
    "Oaks.Props.C24_defined",
    "Oaks.Props.C24_text_agrees"
   ],
   "note": ""
  },
  {
   "property": "C25",
   "status": "partial",
   "theorems": [
    "Oaks.Props.C25_reuse_partial",
    "Oaks.Props.C25_leading_trivia"
   ],
   "note": "Proved at every point of every parse when the old root starts at byte 0 of the old text. With leading trivia outside the root a node is reused over the wrong text (C25_leading_trivia)."
  },
  {
   "property": "C26",
   "status": "partial",
   "theorems": [
    "Oaks.Props.C26_precedence_partial",
    "Oaks.Props.C26_unique",
    "Oaks.Props.C26_leaves",
    "Oaks.Props.C26_none_chains",
    "Oaks.Props.C26_overflow"
   ],
   "note": "Proved for the documented primary/infix implementation, any table and row. Non-associative operators chain like left-associative ones (C26_none_chains); precedence 255 overflows (C26_overflow)."
  },
  {
   "property": "C27",
   "status": "partial",
   "theorems": [
    "Oaks.Props.C27_owned_partial",
    "Oaks.Props.C27_last_root_after_one_failure",
    "Oaks.Props.C27_dangling"
   ],
   "note": "Proved for histories in which no parse fails after one succeeded. After success then failure, the next parse is offered a tree in a dropped arena (C27_dangling)."
  },
  {
   "property": "C28",
   "status": "proved",
   "theorems": [
    "Oaks.Props.C28_blocks",
    "Oaks.Props.C28_across_arenas",
    "Oaks.Props.C28_alloc_succeeds"
   ],
   "note": ""
  },
  {
   "property": "C29",
   "status": "partial",
   "theorems": [
    "Oaks.Props.C29_single_owner",
    "Oaks.Props.C29_drop_safe",
    "Oaks.Props.C29_no_leak_partial",
    "Oaks.Props.C29_full_pool_leaks"
   ],
   "note": "Single ownership, pool limit and safe drop proved for all histories. With a full pool a standard chunk is neither pooled nor freed (C29_full_pool_leaks); no leak is proved when the pool has room."
  },
  {
   "property": "C30",
   "status": "proved",
   "theorems": [
    "Oaks.Props.C30_read_back",
    "Oaks.Props.C30_indices_distinct",
    "Oaks.Props.C30_overflow_panics"
   ],
   "note": ""
  },
  {
   "property": "C31",
   "status": "proved",
   "theorems": [
    "Oaks.Props.C31_lines",
    "Oaks.Props.C31_tiles",
    "Oaks.Props.C31_layout"
   ],
   "note": ""
  },
  {
   "property": "C32",
   "status": "proved",
   "theorems": [
    "Oaks.Props.C32_offset_to_line_col",
    "Oaks.Props.C32_past_end",
    "Oaks.Props.C32_line_col_to_offset",
    "Oaks.Props.C32_roundtrip",
    "Oaks.Props.C32_column_past_newline"
   ],
   "note": "Texts below 4 GiB (line and column are u32). A column past the end of a line lands after its newline, that is on the next line (C32_column_past_newline)."
  },
  {
   "property": "C33",
   "status": "proved",
   "theorems": [
    "Oaks.Props.C33_last_content",
    "Oaks.Props.C33_one_to_one",
    "Oaks.Props.C33_stable",
    "Oaks.Props.C33_never_reassigned",
    "Oaks.Props.C33_removed",
    "Oaks.Props.C33_wraps",
    "Oaks.Props.C33_linearizable",
    "Oaks.Props.C33_no_deadlock"
   ],
   "note": "Sequential histories and all interleavings of any number of threads (linearizability, no deadlock). The 2^32 bound is needed (C33_wraps)."
  },
  {
   "property": "C34",
   "status": "proved",
   "theorems": [
    "Oaks.Props.C34_blank_indent",
    "Oaks.Props.C34_content",
    "Oaks.Props.C34_join"
   ],
   "note": "For every configuration whose indentation text is blanks; C34_blank_indent shows the builder makes no other."
  },
  {
   "property": "C35",
   "status": "proved",
   "theorems": [
    "Oaks.Props.C35_layout",
    "Oaks.Props.C35_flat",
    "Oaks.Props.C35_column",
    "Oaks.Props.C35_true_width",
    "Oaks.Props.C35_breaks",
    "Oaks.Props.C35_doc_example"
   ],
   "note": "C35_doc_example records that the documentation example of Document::render is wrong: a Line outside a group prints as a space."
  },
  {
   "property": "C36",
   "status": "partial",
   "theorems": [
    "Oaks.Props.C36_lines",
    "Oaks.Props.C36_trimmed",
    "Oaks.Props.C36_final_newline_partial",
    "Oaks.Props.C36_text_newline"
   ],
   "note": "Lines, indentation and trimming are proved for every document and configuration. The final newline is always a newline, and the configured ending unless a text of the document itself ends in a newline under CRLF: there the code leaves it (C36_text_newline)."
  },
  {
   "property": "C37",
   "status": "proved",
   "theorems": [
    "Oaks.Props.C37_order",
    "Oaks.Props.C37_determined",
    "Oaks.Props.C37_refuses",
    "Oaks.Props.C37_no_clash",
    "Oaks.Props.C37_add_rules",
    "Oaks.Props.C37_first_decides"
   ],
   "note": ""
  },
  {
   "property": "C38",
   "status": "proved",
   "theorems": [
    "Oaks.Props.C38_json_escape",
    "Oaks.Props.C38_json_export"
   ],
   "note": ""
  },
  {
   "property": "C39",
   "status": "partial",
   "theorems": [
    "Oaks.Props.C39_diagnostic_page_partial",
    "Oaks.Props.C39_code_injection",
    "Oaks.Props.C39_html_escape",
    "Oaks.Props.C39_routines_agree",
    "Oaks.Props.C39_highlight_page_partial",
    "Oaks.Props.C39_color_injection"
   ],
   "note": "Both escape routines, the highlight page with style classes, inline styles whose colours have no quote, and the page of a diagnostic whose code has no special characters are proved; colours and diagnostic codes are not escaped by the code (C39_color_injection, C39_code_injection)."
  },
  {
   "property": "C40",
   "status": "proved",
   "theorems": [
    "Oaks.Props.C40_resolve_style",
    "Oaks.Props.C40_unique",
    "Oaks.Props.C40_resolve_styles",
    "Oaks.Props.C40_token_names"
   ],
   "note": ""
  },
  {
   "property": "C41",
   "status": "partial",
   "theorems": [
    "Oaks.Props.C41_segments",
    "Oaks.Props.C41_plain",
    "Oaks.Props.C41_ansi_partial",
    "Oaks.Props.C41_ansi_escape_in_text"
   ],
   "note": "Segments tile the source and the plain result covers it, proved in full. The stripped terminal export equals the source only when the source has no escape character; otherwise false in the code (C41_ansi_escape_in_text)."
  },
  {
   "property": "C42",
   "status": "proved",
   "theorems": [
    "Oaks.Props.C42_references",
    "Oaks.Props.C42_selected"
   ],
   "note": ""
  },
  {
   "property": "C43",
   "status": "proved",
   "theorems": [
    "Oaks.Props.C43_symbols",
    "Oaks.Props.C43_all_elements"
   ],
   "note": ""
  },
  {
   "property": "C44",
   "status": "partial",
   "theorems": [
    "Oaks.Props.C44_query_file",
    "Oaks.Props.C44_sound",
    "Oaks.Props.C44_complete_partial",
    "Oaks.Props.C44_lost",
    "Oaks.Props.C44_query"
   ],
   "note": "Soundness, per-file query and query-by-text are proved for every history. Completeness is proved when no two files ever define the same qualified name at the same time; without it the code loses definitions (C44_lost)."
  },
  {
   "property": "C45",
   "status": "partial",
   "theorems": [
    "Oaks.Props.C45_ascii_partial",
    "Oaks.Props.C45_determined",
    "Oaks.Props.C45_crash",
    "Oaks.Props.C45_misplaced"
   ],
   "note": "Proved for every key sequence over one-byte characters and every handler. False in the code for other characters: LineBuffer counts characters but indexes bytes (C45_crash, C45_misplaced). Enter in the middle of a line opens a line after it, in the ideal editor too; Ctrl with a letter other than c and d types the letter."
  },
  {
   "property": "C46",
   "status": "partial",
   "theorems": [
    "Oaks.Props.C46_label",
    "Oaks.Props.C46_eof_without_place",
    "Oaks.Props.C46_total",
    "Oaks.Props.C46_plain_partial",
    "Oaks.Props.C46_error_report",
    "Oaks.Props.C46_console_partial",
    "Oaks.Props.C46_html_partial",
    "Oaks.Props.C46_lsp_partial",
    "Oaks.Props.C46_end_of_file",
    "Oaks.Props.C46_long_carets",
    "Oaks.Props.C46_lsp_inverted"
   ],
   "note": "Proved for every lawful source under 4 GiB and every label within one line (plain, console, HTML), including labels that end inside a multi-byte character, and for the quoted lines of labels over several lines; LSP positions for labels at character boundaries. The code violates the full statement: UnexpectedEof errors get no label (C46_eof_without_place), a label behind the last line break shows no line or caret (C46_end_of_file), carets of labels over several lines are drawn too far right (C46_long_carets), and the LSP range of an error on a multi-byte character is inverted (C46_lsp_inverted)."
  },
  {
   "property": "C47",
   "status": "partial",
   "theorems": [
    "Oaks.Props.C47_neighbors",
    "Oaks.Props.C47_connected",
    "Oaks.Props.C47_connected_undirected",
    "Oaks.Props.C47_connected_order",
    "Oaks.Props.C47_connected_directed_order",
    "Oaks.Props.C47_connected_dangling",
    "Oaks.Props.C47_cycles_sound",
    "Oaks.Props.C47_cycles_complete",
    "Oaks.Props.C47_cycles_undirected",
    "Oaks.Props.C47_layers",
    "Oaks.Props.C47_layers_edges",
    "Oaks.Props.C47_layers_dangling"
   ],
   "note": "Neighbours, degree, soundness and (for directed graphs) completeness of cycles, connectivity of graphs whose edges join their own nodes, and layers are proved for every graph and iteration order. The code violates the rest: is_connected of a directed graph depends on iteration order, an edge to a name that is no node is counted as a visited node or makes topological_layers panic, and every edge of an undirected graph is reported as a cycle (C47_connected_directed_order, C47_connected_dangling, C47_layers_dangling, C47_cycles_undirected)."
  },
  {
   "property": "C48",
   "status": "partial",
   "theorems": [
    "Oaks.Props.C48_lex",
    "Oaks.Props.C48_one_cut",
    "Oaks.Props.C48_gaps",
    "Oaks.Props.C48_tiles_partial",
    "Oaks.Props.C48_sign_witness",
    "Oaks.Props.C48_letter_witness",
    "Oaks.Props.C48_slash_witness"
   ],
   "note": "The lexer always ends and cuts the text in the one specified way (all configurations, any chunking); coverage holds where no piece is a gap. The code leaves bytes without a token for a sign or hex prefix without digits, a slash that begins no comment, and letters t/f/n that begin no keyword (C48_*_witness)."
  },
  {
   "property": "C49",
   "status": "partial",
   "theorems": [
    "Oaks.Props.C49_build_partial",
    "Oaks.Props.C49_one_value",
    "Oaks.Props.C49_to_string_partial",
    "Oaks.Props.C49_to_source",
    "Oaks.Props.C49_leading_blank_witness",
    "Oaks.Props.C49_trailing_blank_witness",
    "Oaks.Props.C49_escape_witness",
    "Oaks.Props.C49_write_quote_witness"
   ],
   "note": "Every text a value is written as (Writes) is built to that value, for all depths, sources and configurations; to_string round-trips for plain strings; to_source = to_string. Writes leaves out blanks before the document and after scalars, and escapes: there the code is wrong (C49_leading_blank_witness, C49_trailing_blank_witness, C49_escape_witness, C49_write_quote_witness)."
  },
  {
   "property": "C50",
   "status": "partial",
   "theorems": [
    "Oaks.Props.C50_lex",
    "Oaks.Props.C50_one_cut",
    "Oaks.Props.C50_blank_separator",
    "Oaks.Props.C50_parse",
    "Oaks.Props.C50_rows_partial",
    "Oaks.Props.C50_after_quote_witness",
    "Oaks.Props.C50_leading_blank_witness",
    "Oaks.Props.C50_tab_witness"
   ],
   "note": "Tiling, termination and losslessness are proved for every text, separator and quote (parser: texts below 4 GiB, the comma). The rows are proved for documents that do not begin with blanks and whose quoted fields are not followed by more text; witnesses show the code breaks the statement otherwise: text after a closing quote starts a new record, leading blanks are dropped from the tree so offsets shift, a blank separator is never seen."
  },
  {
   "property": "C51",
   "status": "proved",
   "theorems": [
    "Oaks.Props.C51_queries",
    "Oaks.Props.C51_sort",
    "Oaks.Props.C51_format",
    "Oaks.Props.C51_block_comment",
    "Oaks.Props.C51_line_comment",
    "Oaks.Props.C51_doc_witness",
    "Oaks.Props.C51_process"
   ],
   "note": "Query exactness, stable sort and formatting are proved for every list, content and indentation. Beyond the statement: a doc comment of several lines is printed so that only its first line is a comment (C51_doc_witness)."
  },
  {
   "property": "C52",
   "status": "partial",
   "theorems": [
    "Oaks.Props.C52_contains",
    "Oaks.Props.C52_innermost_partial",
    "Oaks.Props.C52_order_partial",
    "Oaks.Props.C52_not_innermost",
    "Oaks.Props.C52_order_dependent",
    "Oaks.Props.C52_register"
   ],
   "note": "Soundness and emptiness for all tables. Innermost and order independence proved for folders written without doubled slashes; false otherwise (C52_not_innermost). Two URIs of one folder make the returned URI order dependent (C52_order_dependent)."
  },
  {
   "property": "C53",
   "status": "proved",
   "theorems": [
    "Oaks.Props.C53_lists_tree",
    "Oaks.Props.C53_once",
    "Oaks.Props.C53_memory_finds_nothing"
   ],
   "note": "For every finite tree the file system shows. MemoryVfs never shows a directory, so nothing is found there (C53_memory_finds_nothing)."
  },
  {
   "property": "C54",
   "status": "partial",
   "theorems": [
    "Oaks.Props.C54_parse_partial",
    "Oaks.Props.C54_document",
    "Oaks.Props.C54_rest_witness"
   ],
   "note": "Totality, leaves = consecutive tokens, silent iff the tokens begin with a value: all proved. What follows the first value is dropped without a report (C54_rest_witness), so silence does not mean the whole text is a value."
  },
  {
   "property": "C55",
   "status": "partial",
   "theorems": [
    "Oaks.Props.C55_insert",
    "Oaks.Props.C55_trailing",
    "Oaks.Props.C55_once_partial",
    "Oaks.Props.C55_twice_witness",
    "Oaks.Props.C55_trailing_witness"
   ],
   "note": "Each insertion writes exactly the wanted comments. That a sequence of insertions writes each once is false in the code: leading comments are written again at each later position and a trailing comment at each earlier one (witnesses)."
  },
  {
   "property": "C56",
   "status": "proved",
   "theorems": [
    "Oaks.Props.C56_builtin_rules",
    "Oaks.Props.C56_content",
    "Oaks.Props.C56_standard"
   ],
   "note": ""
  },
  {
   "property": "C57",
   "status": "partial",
   "theorems": [
    "Oaks.Props.C57_settles_partial",
    "Oaks.Props.C57_spaces_grow"
   ],
   "note": "False in general: the comma rule adds a space at each run (C57_spaces_grow). Proved for trees on which no built-in rule acts."
  },
  {
   "property": "C58",
   "status": "partial",
   "theorems": [
    "Oaks.Props.C58_context",
    "Oaks.Props.C58_questions_partial",
    "Oaks.Props.C58_token_parent_witness"
   ],
   "note": "False for parent_kind at tokens (C58_token_parent_witness). Depth, path and is_inside are proved everywhere, parent_kind at nodes."
  },
  {
   "property": "C59",
   "status": "partial",
   "theorems": [
    "Oaks.Props.C59_broken_partial",
    "Oaks.Props.C59_one_line_witness"
   ],
   "note": "False outside groups that break (C59_one_line_witness). Proved for statements of a container that does not fit on the line."
  },
  {
   "property": "C60",
   "status": "partial",
   "theorems": [
    "Oaks.Props.C60_candidates",
    "Oaks.Props.C60_first_partial",
    "Oaks.Props.C60_no_directory_witness",
    "Oaks.Props.C60_relative_root_witness",
    "Oaks.Props.C60_initialize",
    "Oaks.Props.C60_added_folder_witness"
   ],
   "note": "False for base paths without a parent, candidates without URL and folders changed after initialize (witnesses). Proved otherwise."
  },
  {
   "property": "C61",
   "status": "partial",
   "theorems": [
    "Oaks.Props.C61_top_level_partial",
    "Oaks.Props.C61_nested_witness",
    "Oaks.Props.C61_outline_partial",
    "Oaks.Props.C61_outline_witness"
   ],
   "note": "False for references that are not direct children of the root and for files that were not indexed (witnesses). Proved for direct children and indexed files."
  },
  {
   "property": "C62",
   "status": "proved",
   "theorems": [
    "Oaks.Props.C62_request",
    "Oaks.Props.C62_lines",
    "Oaks.Props.C62_served",
    "Oaks.Props.C62_methods"
   ],
   "note": ""
  },
  {
   "property": "C63",
   "status": "partial",
   "theorems": [
    "Oaks.Props.C63_tools_partial",
    "Oaks.Props.C63_empty_witness",
    "Oaks.Props.C63_unknown_witness",
    "Oaks.Props.C63_listed_partial",
    "Oaks.Props.C63_missing"
   ],
   "note": "False: five tools always answer the empty list, two announced tools are unknown (witness theorems, for every service). Proved for hover and semantic_search."
  },
  {
   "property": "C64",
   "status": "proved",
   "theorems": [
    "Oaks.Viz.Props.C64_contains",
    "Oaks.Viz.Props.C64_intersects",
    "Oaks.Viz.Props.C64_intersects_witness",
    "Oaks.Viz.Props.C64_union",
    "Oaks.Viz.Props.C64_from_points",
    "Oaks.Viz.Props.C64_move",
    "Oaks.Viz.Props.C64_expand",
    "Oaks.Viz.Props.C64_transform"
   ],
   "note": "Over exact rationals; rounding of f64, distance_to and rotate are left out."
  },
  {
   "property": "C65",
   "status": "partial",
   "theorems": [
    "Oaks.Viz.Props.C65_layered_partial",
    "Oaks.Viz.Props.C65_layered_witness",
    "Oaks.Viz.Props.C65_compact_partial",
    "Oaks.Viz.Props.C65_compact_witness",
    "Oaks.Viz.Props.C65_shape",
    "Oaks.Viz.Props.C65_syntax"
   ],
   "note": "No overlap only when widths on a level differ by at most twice the gap (layered) or no node is wider than what is below it (compact); witnesses show the code overlaps otherwise. Holds in full for syntax trees."
  },
  {
   "property": "C66",
   "status": "proved",
   "theorems": [
    "Oaks.Viz.Props.C66_bounds",
    "Oaks.Viz.Props.C66_order",
    "Oaks.Viz.Props.C66_edges",
    "Oaks.Viz.Props.C66_counts"
   ],
   "note": "Over exact rationals."
  },
  {
   "property": "C67",
   "status": "partial",
   "theorems": [
    "Oaks.Viz.Props.C67_picture_partial",
    "Oaks.Viz.Props.C67_edges_witness",
    "Oaks.Viz.Props.C67_label_witness",
    "Oaks.Viz.Props.C67_class_witness"
   ],
   "note": "For labels, colours, classes and attributes without markup; witnesses show that the code does not escape, and that edges of trees are not drawn."
  },
  {
   "property": "C68",
   "status": "partial",
   "theorems": [
    "Oaks.Viz.Props.C68_forest_partial",
    "Oaks.Viz.Props.C68_direction_witness",
    "Oaks.Viz.Props.C68_bottom_up_witness",
    "Oaks.Viz.Props.C68_label_witness",
    "Oaks.Viz.Props.C68_cycle_witness",
    "Oaks.Viz.Props.C68_spin_witness",
    "Oaks.Viz.Props.C68_unknown_witness"
   ],
   "note": "For forests; child past parent for two directions. Witnesses show that the code fails the rest."
  },
  {
   "property": "C69",
   "status": "partial",
   "theorems": [
    "Oaks.Props.C69_roundtrip_partial",
    "Oaks.Props.C69_typed",
    "Oaks.Props.C69_text_partial",
    "Oaks.Props.C69_integers",
    "Oaks.Props.C69_integer_fields",
    "Oaks.Props.C69_struct_variants",
    "Oaks.Props.C69_nested_option",
    "Oaks.Props.C69_keys",
    "Oaks.Props.C69_wide",
    "Oaks.Props.C69_long_arrays",
    "Oaks.Props.C69_errors_witness"
   ],
   "note": "For types without integers, variants with named fields, options of what may be null, and keys that are no texts: theorems show that the code does not read these back. For texts: strings without quotes and backslashes (not escaped, see C49)."
  },
  {
   "property": "C70",
   "status": "partial",
   "theorems": [
    "Oaks.Dsk.Props.C70_write",
    "Oaks.Dsk.Props.C70_refused",
    "Oaks.Dsk.Props.C70_remove",
    "Oaks.Dsk.Props.C70_questions",
    "Oaks.Dsk.Props.C70_read_dir",
    "Oaks.Dsk.Props.C70_history_partial",
    "Oaks.Dsk.Props.C70_no_ids",
    "Oaks.Dsk.Props.C70_up",
    "Oaks.Dsk.Props.C70_slash"
   ],
   "note": "Proved for URIs without `..` on a file system without links, permissions and concurrent changes; histories for places none of which lies below another. Identifiers are never assigned and refused writes are silent, as theorems show."
  },
  {
   "property": "C71",
   "status": "partial",
   "theorems": [
    "Oaks.Props.C71_chunks",
    "Oaks.Props.C71_crash",
    "Oaks.Props.C71_never_found"
   ],
   "note": "The chunks are right; a theorem shows that the search finds none of them."
  },
  {
   "property": "C72",
   "status": "proved",
   "theorems": [
    "Oaks.Props.C72_lex",
    "Oaks.Props.C72_one_cut",
    "Oaks.Props.C72_name",
    "Oaks.Props.C72_comment",
    "Oaks.Props.C72_apostrophe",
    "Oaks.Props.C72_classes"
   ],
   "note": ""
  },
  {
   "property": "C73",
   "status": "partial",
   "theorems": [
    "Oaks.Props.C73_parse",
    "Oaks.Props.C73_elements_partial",
    "Oaks.Props.C73_written",
    "Oaks.Props.C73_bare",
    "Oaks.Props.C73_attribute",
    "Oaks.Props.C73_root_name",
    "Oaks.Props.C73_declaration",
    "Oaks.Props.C73_roundtrip",
    "Oaks.Props.C73_apostrophe",
    "Oaks.Props.C73_declaration_witness",
    "Oaks.Props.C73_shift_witness",
    "Oaks.Props.C73_empty_witness"
   ],
   "note": "proved: totality, which texts are accepted, and elements without attributes and without anything between the tags; the code refuses attributes, drops text and comments, shifts later names, and does not compare closing names (see DESIGN.md)"
  },
  {
   "property": "C74",
   "status": "partial",
   "theorems": [
    "Oaks.Props.C74_roundtrip_partial",
    "Oaks.Props.C74_typed",
    "Oaks.Props.C74_attributes_read",
    "Oaks.Props.C74_key_names",
    "Oaks.Props.C74_scalars",
    "Oaks.Props.C74_scalar_fields",
    "Oaks.Props.C74_attributes",
    "Oaks.Props.C74_none_fields",
    "Oaks.Props.C74_some_empty",
    "Oaks.Props.C74_enum_fields",
    "Oaks.Props.C74_empty_sequences",
    "Oaks.Props.C74_single_structs",
    "Oaks.Props.C74_nested_sequences",
    "Oaks.Props.C74_strings"
   ],
   "note": "proved for types of strings, structs, maps, tuples, sequences and enums at the places named in C74_roundtrip_partial; the code cannot read scalars, panics on attributes, and changes options, enums and sequences in fields (see DESIGN.md)"
  },
  {
   "property": "C75",
   "status": "partial",
   "theorems": [
    "Oaks.Viz.Props.C75_drawn_partial",
    "Oaks.Viz.Props.C75_grid",
    "Oaks.Viz.Props.C75_grid_clear",
    "Oaks.Viz.Props.C75_layers_clear",
    "Oaks.Viz.Props.C75_layers_down",
    "Oaks.Viz.Props.C75_circle",
    "Oaks.Viz.Props.C75_force_near",
    "Oaks.Viz.Props.C75_force_apart",
    "Oaks.Viz.Props.C75_force_edge",
    "Oaks.Viz.Props.C75_order",
    "Oaks.Viz.Props.C75_labels",
    "Oaks.Viz.Props.C75_dangling",
    "Oaks.Viz.Props.C75_overlap"
   ],
   "note": "proved for all algorithms and orders (layers: every edge leads to a node); the code drops labels of edges, draws in the order of a hash table and panics on dangling edges with layers (see DESIGN.md)"
  },
  {
   "property": "C76",
   "status": "partial",
   "theorems": [
    "Oaks.Props.C76_lex_partial",
    "Oaks.Props.C76_ascii",
    "Oaks.Props.C76_one_cut",
    "Oaks.Props.C76_tiles",
    "Oaks.Props.C76_gap",
    "Oaks.Props.C76_nested",
    "Oaks.Props.C76_accent",
    "Oaks.Props.C76_accented_key",
    "Oaks.Props.C76_parse_partial"
   ],
   "note": "proved for all texts that can be cut, among them every ASCII text and comments with any character; the code misplaces tokens behind other characters (see DESIGN.md)"
  },
  {
   "property": "C77",
   "status": "partial",
   "theorems": [
    "Oaks.Props.C77_bump_partial",
    "Oaks.Props.C77_bump_all",
    "Oaks.Props.C77_leading",
    "Oaks.Props.C77_advance",
    "Oaks.Props.C77_lost",
    "Oaks.Props.C77_empty"
   ],
   "note": "proved for the 14 parsers that call `bump`, except for ignored tokens before the first other one; for the 28 that call `advance` it is proved that every other token is lost (see DESIGN.md)"
  },
  {
   "property": "C78",
   "status": "partial",
   "theorems": [
    "Oaks.Props.C78_lex_partial",
    "Oaks.Props.C78_lex_total",
    "Oaks.Props.C78_one_cut",
    "Oaks.Props.C78_overlap",
    "Oaks.Props.C78_lost",
    "Oaks.Props.C78_ends",
    "Oaks.Props.C78_alternatives_partial",
    "Oaks.Props.C78_repeat",
    "Oaks.Props.C78_panic",
    "Oaks.Props.C78_class",
    "Oaks.Props.C78_build",
    "Oaks.Props.C78_place",
    "Oaks.Props.C78_first",
    "Oaks.Props.C78_comma"
   ],
   "note": "proved: tokens of all texts whose classes and repetitions are closed, the tree for alternatives of characters and groups, that parsing ends, exactly what the builder accepts; the code drops or doubles the rest (see DESIGN.md)"
  },
  {
   "property": "C79",
   "status": "partial",
   "theorems": [
    "Oaks.Props.C79_find",
    "Oaks.Props.C79_settles",
    "Oaks.Props.C79_check",
    "Oaks.Props.C79_regression_partial",
    "Oaks.Props.C79_force",
    "Oaks.Props.C79_unchecked",
    "Oaks.Props.C79_strict",
    "Oaks.Props.C79_testers",
    "Oaks.Props.C79_hang",
    "Oaks.Props.C79_legacy",
    "Oaks.Props.C79_lexer_sees",
    "Oaks.Props.C79_parser_sees",
    "Oaks.Props.C79_parser_blind"
   ],
   "note": "proved: which files are tested, that a passing run leaves the results of all files, that a later run passes iff nothing compared has changed, and exactly what is compared; the code does not fail on missing files, kinds of leaves and hanging functions (see DESIGN.md)"
  },
  {
   "property": "C80",
   "status": "partial",
   "theorems": [
    "Oaks.Props.C80_text_partial",
    "Oaks.Props.C80_text_test_failure",
    "Oaks.Props.C80_source_partial",
    "Oaks.Props.C80_source_last",
    "Oaks.Props.C80_source_eof",
    "Oaks.Props.C80_copy_partial",
    "Oaks.Props.C80_copy_code",
    "Oaks.Props.C80_key"
   ],
   "note": "proved: the text determines the error (except for TestFailure), with_source_id changes the source and nothing else (except for UnexpectedEof, which it leaves as it is), a clone is the same error (except for the code of the operating system)"
  },
  {
   "property": "C81",
   "status": "partial",
   "theorems": [
    "Oaks.Props.C81_lex_partial",
    "Oaks.Props.C81_cut",
    "Oaks.Props.C81_one_cut",
    "Oaks.Props.C81_colon",
    "Oaks.Props.C81_nested",
    "Oaks.Props.C81_escape",
    "Oaks.Props.C81_accepts",
    "Oaks.Props.C81_refused",
    "Oaks.Props.C81_where",
    "Oaks.Props.C81_bare"
   ],
   "note": "proved: the tokens of every text without an escaped character of several bytes; from any tokens the parser ends, and makes a tree with all of them exactly from documents, else one error. Disproved: that documents are accepted; every text is refused because of the token for the end of the file"
  },
  {
   "property": "C82",
   "status": "partial",
   "theorems": [
    "Oaks.Props.C82_parsers_end_partial",
    "Oaks.Props.C82_always_a_tree_partial",
    "Oaks.Props.C82_refusals",
    "Oaks.Props.C82_r_endless",
    "Oaks.Props.C82_nix_endless",
    "Oaks.Props.C82_tcl_endless"
   ],
   "note": "proved: 35 of 38 modelled parsers end on every token stream, 28 of them always with a tree. Five of them (Cobol, LLVM IR, MSIL, Org, Svelte) read the text; for these the source must not panic in `get_text_in` (`str` and `SourceText` never do). Disproved for oak-r, oak-nix and oak-tcl: token streams on which they never end. Not modelled: parsers with Pratt tables or `restore`"
  },
  {
   "property": "C83",
   "status": "partial",
   "theorems": [
    "Oaks.Props.C83_only_tokens",
    "Oaks.Props.C83_every_token_partial",
    "Oaks.Props.C83_after_blanks_partial",
    "Oaks.Props.C83_blanks_lost",
    "Oaks.Props.C83_up_to_eof_partial",
    "Oaks.Props.C83_eof_last_partial",
    "Oaks.Props.C83_kinds_lost",
    "Oaks.Props.C83_dropped"
   ],
   "note": "proved: trees hold tokens only, in order, each at most once; all of them for 12 parsers; all from the first not ignored for 10; the same up to the token for the end of the file for 5; without a tree there is an error. Disproved: ignored tokens at the beginning are lost, and eight parsers drop other tokens"
  },
  {
   "property": "C84",
   "status": "partial",
   "theorems": [
    "Oaks.Props.C84_parsers_end_partial",
    "Oaks.Props.C84_always_a_tree_partial",
    "Oaks.Props.C84_no_endless_partial",
    "Oaks.Props.C84_c_overflow",
    "Oaks.Props.C84_swift_endless",
    "Oaks.Props.C84_kotlin_endless",
    "Oaks.Props.C84_kotlin_default_endless",
    "Oaks.Props.C84_lua_endless",
    "Oaks.Props.C84_mojo_refuses"
   ],
   "note": "proved: 6 of 18 parsers return on every token stream, 5 of them always with a tree; 9 more return a tree or fail on the length of a node, and never hang. Disproved for Swift, Kotlin, Lua (never end) and C (overflow); Mojo refuses functions, conditions and loops. Not modelled: TypeScript, Java"
  },
  {
   "property": "C85",
   "status": "partial",
   "theorems": [
    "Oaks.Props.C85_only_tokens_partial",
    "Oaks.Props.C85_wolfram_every_token",
    "Oaks.Props.C85_mojo_every_token_partial",
    "Oaks.Props.C85_none_lost_partial",
    "Oaks.Props.C85_copies",
    "Oaks.Props.C85_dropped",
    "Oaks.Props.C85_scala_nothing"
   ],
   "note": "proved: 8 parsers have tokens only in the tree, in order, each at most once; Wolfram keeps all, Mojo all from the first not ignored; C, C# and Elixir lose none from the first not ignored. Disproved: ten parsers put tokens twice into the tree, nine lose tokens, Scala loses all"
  },
  {
   "property": "C86",
   "status": "partial",
   "theorems": [
    "Oaks.Props.C86_grouped_partial",
    "Oaks.Props.C86_one_grouping",
    "Oaks.Props.C86_otherwise",
    "Oaks.Props.C86_unknown",
    "Oaks.Props.C86_blank"
   ],
   "note": "proved for rows of operands of one token and operators the parser knows, where no pair is disputed: 16 parsers, all rows; the reference allows one grouping only. Disproved for the disputed pairs of ten languages, the unknown operators of ten, and rows with blanks in C#, JavaScript, PHP and Wolfram. Not modelled: prefix and postfix operators and operands of more than one token within the row, C++ (operands twice in the tree), Scala (no operators)"
  },
  {
   "property": "C87",
   "status": "partial",
   "theorems": [
    "Oaks.Props.C87_ends_partial",
    "Oaks.Props.C87_msil_endless",
    "Oaks.Props.C87_nix_endless"
   ],
   "note": "proved for 44 lexers, all texts, sources and answers of the Unicode tables; disproved for MSIL and Nix. The analysis does not pass the lexers of C, Lua, Zig, Prolog, WGSL, Django and Julia, which are modelled too: nothing is shown of their end. Not modelled: the kinds of the tokens, the messages of errors, and the lexers of the other example languages"
  },
  {
   "property": "C88",
   "status": "partial",
   "theorems": [
    "Oaks.Props.C88_pieces_partial",
    "Oaks.Props.C88_nonempty_partial",
    "Oaks.Props.C88_cuts",
    "Oaks.Props.C88_empty"
   ],
   "note": "proved for 44 lexers (40 with tokens that are never empty); disproved for 20, and for the own end tokens of four. Not modelled: the kinds of the tokens, the messages of errors, and the lexers of the other example languages"
  },
  {
   "property": "C89",
   "status": "partial",
   "theorems": [
    "Oaks.Props.C89_lossless_partial",
    "Oaks.Props.C89_gaps"
   ],
   "note": "proved for 30 lexers; disproved for 20. Dart, Delphi and the lexers of C, Prolog, WGSL and Julia: neither shown nor disproved. Not modelled: the kinds of the tokens, the messages of errors, and the lexers of the other example languages"
  },
  {
   "property": "C90",
   "status": "partial",
   "theorems": [
    "Oaks.Props.C90_again_partial",
    "Oaks.Props.C90_deleted",
    "Oaks.Props.C90_typescript",
    "Oaks.Props.C90_smalltalk"
   ],
   "note": "proved for the 17 modelled lexers that resume at 0 and texts that are not empty; disproved for the empty text (all 17, all caches), and for the two lexers that resume at the first edit. Not modelled: the other 17 lexers of the examples with a cache"
  },
  {
   "property": "C91",
   "status": "partial",
   "theorems": [
    "Oaks.Props.C91_whole_partial",
    "Oaks.Props.C91_after_partial",
    "Oaks.Props.C91_after_all_partial",
    "Oaks.Props.C91_blanks_lost",
    "Oaks.Props.C91_eof_partial",
    "Oaks.Props.C91_flat_partial"
   ],
   "note": "proved in full for four languages; for nine more from the first token that is not ignored on; disproved there for texts that begin with an ignored token. Not modelled: the kinds the lexers give (all kinds are allowed instead), the other languages"
  },
  {
   "property": "C92",
   "status": "partial",
   "theorems": [
    "Oaks.Props.C92_cut",
    "Oaks.Props.C92_words_partial",
    "Oaks.Props.C92_split"
   ],
   "note": "proved for the words of 53 languages that are not in the `split` field of the table, disproved for those that are. Seven lexers look at `rest()`; for them the text has to come in one piece (`str`, `SourceText`). Fortran: lines with line breaks between the words only, as it makes no token of a space. Lua: without `-` and `[`, which its lexer takes for comments up to the end of the line. Not covered: names and numbers other than those listed, quotes and comments, kinds of tokens"
  },
  {
   "property": "C93",
   "status": "partial",
   "theorems": [
    "Oaks.Props.C93_cut",
    "Oaks.Props.C93_phrases_partial",
    "Oaks.Props.C93_odd"
   ],
   "note": "proved for the phrases of 53 languages that are not in the `odd` field of the table, disproved for those that are. Seven lexers look at `rest()`; for them the text has to come in one piece (`str`, `SourceText`). Not covered: phrases other than those listed, among them 65 quotes and comments the tracer cannot follow; kinds of tokens"
  },
  {
   "property": "C94",
   "status": "partial",
   "theorems": [
    "Oaks.Props.C94_forms_partial",
    "Oaks.Props.C94_wgsl_witness"
   ],
   "note": "proved for the 545 forms of the table in 53 languages. Not covered: quotes with escapes in the middle, decimals with exponents, comments inside comments; quotes and comments read by `StringConfig` and `CommentConfig`; names with letters beyond ASCII; words without blanks between them (see C95); kinds of tokens"
  },
  {
   "property": "C95",
   "status": "partial",
   "theorems": [
    "Oaks.Props.C95_chains_partial",
    "Oaks.Props.C95_c_witness"
   ],
   "note": "proved for 21 forms of names, numbers and quotes in 53 languages with brackets, separators and operators right after them, and for signs and operators with the next name, number, quote or bracket right after them; C fails for `+` and `-` after a number (C95_c_witness). Not covered: comments and the other forms of C94 without a blank after them, operators right after operators, the exceptions of the table, kinds of tokens"
  }
 ]
}