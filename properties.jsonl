{"id": "C01", "title": "Vectorised byte scanners agree with a plain scan", "statement": "Each vectorised scanning routine (find a byte, skip a byte, skip either of two bytes, skip ASCII whitespace / digits / identifier characters / hex digits, skip until any of four bytes) returns exactly the index a byte-by-byte scan returns: the first position whose byte satisfies the stop condition, or the end (None for find).", "quantifier": "every byte sequence of any length, any needle bytes, any starting alignment of the 32-byte lanes", "why_tests_cant": "the lane loop and the scalar tail take different code paths depending on length mod 32 and on the position of the hit; a test covers finitely many lengths and contents", "anchors": ["projects/oak-core/src/source/simd.rs: SimdScanner::{find_byte,skip_byte,skip_two_bytes,skip_ascii_whitespace,skip_ascii_digits,skip_ascii_ident_continue,skip_ascii_hexdigits,find_first_of_4,skip_until}"]}
{"id": "C02", "title": "Buffers hold exactly the text put into them", "statement": "A rope buffer created from a text, and a chunked buffer after any sequence of pushes, reports as length the number of bytes of the text (resp. of the concatenation of the pushes), reads back as that text, and every chunk it hands out is non-empty and a piece of the text at its stated start offset.", "quantifier": "every text, every sequence of pushes, wherever multi-byte characters fall relative to the 4096-byte chunk limit", "why_tests_cant": "chunk splitting depends on where multi-byte characters fall relative to the chunk size; the space of texts is unbounded", "anchors": ["projects/oak-core/src/source/rope.rs: RopeBuffer::new,new_with_id,snapshot,chunkify", "projects/oak-core/src/source/streaming.rs: ChunkedBuffer::push_str,snapshot"]}
{"id": "C03", "title": "Rope editing refines string editing over any history", "statement": "After any sequence of edits on character boundaries inside the text, the text held by a rope buffer equals the text obtained by performing the same replacements on a plain string; length, text_in and every snapshot agree with that string.", "quantifier": "every initial text and every finite history of in-range, boundary-aligned edits, with any replacement texts", "why_tests_cant": "the chunk table is split, spliced and re-indexed at each edit; errors only show up for particular sequences of splits", "anchors": ["projects/oak-core/src/source/rope.rs: RopeBuffer::replace_range,split_at,boundary_index,rebuild_starts,apply_edits_range"]}
{"id": "C04", "title": "Text extraction is the same for every source kind", "statement": "For every byte range that lies inside the text and starts and ends on character boundaries, get_text_in returns exactly the bytes of that range, for plain strings, SourceText, rope snapshots and chunked snapshots alike, however the text is split into chunks.", "quantifier": "every text, every splitting of it into chunks, every in-range boundary-aligned range (and, separately, what each kind does outside that set)", "why_tests_cant": "the multi-chunk paths use binary search over chunk starts; correctness has to hold for every chunk layout", "anchors": ["projects/oak-core/src/source/mod.rs: Source for str", "projects/oak-core/src/source/text.rs: SourceText::get_text_in", "projects/oak-core/src/source/rope.rs: RopeSource::get_text_in,text_in_chunks", "projects/oak-core/src/source/streaming.rs: ChunkedSource::get_text_in"]}
{"id": "C05", "title": "chunk_at locates the text at an offset and chunk-wise iteration covers the text once", "statement": "For every source kind and every character-boundary offset below the length, chunk_at returns a chunk that contains the offset and whose text is the text of the source at the chunk's position; following chunk ends from 0 visits every byte of the text exactly once, in order, and terminates.", "quantifier": "every text, every chunk layout, every boundary offset", "why_tests_cant": "depends on binary search over an arbitrary chunk table", "anchors": ["projects/oak-core/src/source/mod.rs: TextChunk::{end,slice_from},Source::chunk_at", "projects/oak-core/src/source/rope.rs: chunk_index,chunk_at", "projects/oak-core/src/source/streaming.rs: chunk_at"]}
{"id": "C06", "title": "Character and substring search do not depend on chunking", "statement": "find_char_from / find_str_from return the byte offset of the first occurrence at or after the given offset, or None if there is none; the answer depends only on the text, not on how it is split into chunks. get_char_at returns the character at the offset.", "quantifier": "every text, chunk layout, boundary offset, needle", "why_tests_cant": "matches that straddle one or several chunk boundaries depend on layouts no finite test set enumerates", "anchors": ["projects/oak-core/src/source/mod.rs: Source::{get_char_at,find_char_from,find_str_from}", "projects/oak-core/src/source/cursor.rs: SourceCursor::find_str"]}
{"id": "C07", "title": "A batch of edits equals the simultaneous splice, and the reported range covers every change", "statement": "Applying a batch of non-overlapping in-range edits (given in any order, positions in the old text) yields the old text with each span replaced by its text; in the returned range [from,to), everything before `from` is unchanged and everything after `to` is a suffix of the old text.", "quantifier": "every text and every finite set of non-overlapping boundary-aligned edits, in any order", "why_tests_cant": "the result depends on sorting, reverse application and accumulated length deltas over arbitrarily many edits", "anchors": ["projects/oak-core/src/source/text.rs: SourceText::apply_edits_range", "projects/oak-core/src/source/rope.rs: RopeBuffer::apply_edits_range"]}
{"id": "C08", "title": "Rope and string sources stay equivalent under the same edits", "statement": "Starting from the same text and applying the same batches of edits, a rope buffer and a SourceText contain the same text and return the same reparse ranges after every batch.", "quantifier": "every text and every history of batches of in-range boundary-aligned edits", "why_tests_cant": "two independent implementations; agreement over all histories cannot be sampled", "anchors": ["projects/oak-core/src/source/text.rs: SourceText::apply_edits_range", "projects/oak-core/src/source/rope.rs: RopeBuffer::apply_edits_range,replace_range"]}
{"id": "C09", "title": "Reading a source with a cursor does not depend on chunking", "statement": "Repeatedly peeking and advancing a cursor over any source yields exactly the characters of the text in order; peek, take_while, take_while_byte, the ASCII skip functions and skip_until move to the offset a scan of the plain text would give.", "quantifier": "every text, chunk layout, boundary offset, predicate", "why_tests_cant": "each routine has a chunk-refill loop whose behaviour depends on the chunk layout", "anchors": ["projects/oak-core/src/source/cursor.rs: SourceCursor::{peek_char,advance_char,take_while,take_while_byte,skip_ascii_whitespace,skip_ascii_digits,skip_ascii_ident_continue,skip_until,ensure_chunk}"]}
{"id": "C10", "title": "Prefix tests work across chunk boundaries", "statement": "starts_with / consume_if_starts_with succeed exactly when the remaining text begins with the pattern, and consuming moves the position by exactly the pattern's byte length, otherwise not at all.", "quantifier": "every text, chunk layout, boundary offset and pattern, including patterns spanning many chunks", "why_tests_cant": "a pattern may span any number of chunks", "anchors": ["projects/oak-core/src/source/cursor.rs: SourceCursor::{starts_with,consume_if_starts_with}"]}
{"id": "C11", "title": "Code emission never merges adjacent words", "statement": "The text in a source buffer after any sequence of pushes consists of the pushed strings in order, with at most one space inserted between two consecutive non-empty pushes, and that space is present exactly when the characters on both sides are word characters; so two words pushed separately never become one word, and nothing is dropped.", "quantifier": "every sequence of pushed strings", "why_tests_cant": "unbounded sequences of tokens; the separator decision depends on the last character across empty pushes", "anchors": ["projects/oak-core/src/source/buffer.rs: SourceBuffer::push,finish"]}
{"id": "C12", "title": "Tokens lie inside the source and scanning always progresses", "statement": "Every lexer step leaves the position inside the source and never moves it backwards; the dead-lock guard strictly advances when a step made no progress, so a scan loop guarded by it ends after at most as many iterations as there are characters; each recorded token has start < end or is the end-of-file token at the source length.", "quantifier": "every source and every sequence of scanner operations", "why_tests_cant": "termination and monotonicity are statements about all runs", "anchors": ["projects/oak-core/src/lexer/mod.rs: LexerState::{advance,bump,take_while,add_token,add_eof,advance_if_dead_lock}"]}
{"id": "C13", "title": "Comment scanning consumes exactly the comment", "statement": "A line-comment scan consumes from the marker up to, not including, the next newline or the end. A block-comment scan consumes up to and including the first terminator after the opener, or to the end if there is none. With nesting enabled it stops exactly where openers and closers balance for the first time.", "quantifier": "every text, every marker pair, every nesting depth", "why_tests_cant": "nesting depth and comment length are unbounded", "anchors": ["projects/oak-core/src/lexer/scan_comment.rs: CommentConfig::scan", "projects/oak-core/src/lexer/mod.rs: scan_line_comment,scan_block_comment"]}
{"id": "C14", "title": "String-literal scanning stops at the first unescaped closing quote", "statement": "The string scanner consumes from the opening quote through the first matching quote that is not escaped; if there is none it reports an unterminated literal. The ASCII fast path and the general path agree.", "quantifier": "every text, every quote set and escape character", "why_tests_cant": "runs of escape characters of any length decide the outcome", "anchors": ["projects/oak-core/src/lexer/scan_string.rs: StringConfig::scan"]}
{"id": "C15", "title": "Re-lexing after an edit keeps only tokens that are still valid", "statement": "When lexing resumes from a cached token list after an edit, every token kept from the cache denotes the same text at the same offset in the new source, and lies inside the new source.", "quantifier": "every old text, edit and cached token list", "why_tests_cant": "needs to hold for every edit position relative to every token boundary", "anchors": ["projects/oak-core/src/lexer/mod.rs: LexerState::new_with_cache"]}
{"id": "C16", "title": "A node's length is the sum of its leaves", "statement": "The text length of every green node equals the total length of the leaves below it, for any tree built with the public constructors whose total length fits in 32 bits; in a red tree, leaf spans tile the root span in order without gap or overlap.", "quantifier": "every tree of any shape and depth", "why_tests_cant": "trees are unbounded; the claim is inductive", "anchors": ["projects/oak-core/src/tree/green_tree.rs: GreenNode::new", "projects/oak-core/src/tree/red_tree.rs: RedNode::{span,children,child_at}"]}
{"id": "C17", "title": "Offset lookup in the tree finds the leaf containing the offset", "statement": "leaf_at_offset returns a leaf whose span contains the offset for every offset inside the root's span, returns nothing outside it, and child_at_offset / child_index_at_offset return the direct child containing the offset.", "quantifier": "every tree (including zero-length nodes and leaves) and every offset", "why_tests_cant": "zero-width children and depth make the case space unbounded", "anchors": ["projects/oak-core/src/tree/red_tree.rs: RedNode::{child_index_at_offset,child_at_offset,leaf_at_offset}"]}
{"id": "C18", "title": "Tree cursor offsets are right and stepping enumerates the tree in preorder", "statement": "In every state reachable by any sequence of step operations, the cursor's offset is the sum of the lengths of everything before the current element; repeatedly stepping from the root visits every element exactly once in preorder and then ends at the root.", "quantifier": "every tree, every sequence of cursor operations", "why_tests_cant": "invariant over all operation histories", "anchors": ["projects/oak-core/src/tree/cursor.rs: Cursor::{step_into,step_over,step_out,step,step_next,offset,end_offset}"]}
{"id": "C19", "title": "Preorder iteration and visitors see every element once with its true span", "statement": "The preorder iterator yields exactly the elements of the tree, parents before children and siblings left to right, each with its true absolute span; the default visitor walk delivers leaves in source order.", "quantifier": "every tree", "why_tests_cant": "inductive claim about trees of any shape", "anchors": ["projects/oak-core/src/visitor/mod.rs: PreOrder::next,Visitor::walk_node"]}
{"id": "C20", "title": "Promoting a node to another arena copies it faithfully", "statement": "A deep clone of a node is structurally equal to the original: same kinds, lengths, shape; provenance recorded for a token can still be read through the new arena.", "quantifier": "every tree", "why_tests_cant": "inductive claim about trees; provenance indices refer to a per-arena store", "anchors": ["projects/oak-core/src/parser/state.rs: deep_clone_node", "projects/oak-core/src/memory/arena.rs: SyntaxArena::{add_metadata,get_metadata}"]}
{"id": "C21", "title": "Parsing is lossless when tokens are consumed through the tree-building operations", "statement": "For a token list that tiles a prefix of the source, after any sequence of bump, eat, expect, trivia skipping, node finishing at valid checkpoints and node reuse, the leaves collected so far are exactly the consumed tokens in order (kinds and lengths), so their total length is the current offset.", "quantifier": "every token list and every sequence of parser operations", "why_tests_cant": "invariant over all programs written against the parser state", "anchors": ["projects/oak-core/src/parser/state.rs: ParserState::{bump,eat,expect,skip_trivia,advance,finish_at,push_child}, TreeSink::finish_node"]}
{"id": "C22", "title": "Backtracking restores the parser exactly", "statement": "If a try_parse body fails, the token position and the collected children are exactly what they were before, whatever sequence of parser operations the body performed (as long as it does not finish nodes before its own start); diagnostics recorded inside are kept or dropped as documented.", "quantifier": "every parser state and every body", "why_tests_cant": "bodies are arbitrary programs", "anchors": ["projects/oak-core/src/parser/state.rs: ParserState::{try_parse,checkpoint,restore}"]}
{"id": "C23", "title": "Lookahead over trivia returns the n-th significant token", "statement": "peek_non_trivia_at(n) is the n-th token at or after the current position that is not trivia, None if there are fewer.", "quantifier": "every token list, position and n", "why_tests_cant": "unbounded interleavings of trivia and tokens", "anchors": ["projects/oak-core/src/parser/state.rs: ParserState::peek_non_trivia_at"]}
{"id": "C24", "title": "Position mapping between old and new text is exact", "statement": "For sorted non-overlapping edits, mapping a position of the new text back to the old text succeeds exactly for positions outside the replaced regions, and then the texts to the right up to the next edit agree at the two positions.", "quantifier": "every old text, every list of edits, every position", "why_tests_cant": "accumulated deltas over arbitrarily many edits", "anchors": ["projects/oak-core/src/parser/state.rs: IncrementalContext::{new,map_new_to_old,is_dirty}"]}
{"id": "C25", "title": "Node reuse never puts a node over text it was not built from", "statement": "When a node of the previous tree is reused, the text now covered by the node equals the text it covered in the previous version, the node has the requested kind, and the tokens skipped are exactly the tokens tiling its span.", "quantifier": "every previous tree and text, every batch of edits, every parser position", "why_tests_cant": "needs every combination of edit, tree shape and position", "anchors": ["projects/oak-core/src/parser/state.rs: ParserState::{try_reuse,incremental_node,incremental_opt}, IncrementalContext"]}
{"id": "C26", "title": "Operator precedence and associativity are respected", "statement": "For a table of binary operators with precedences and associativities, the Pratt parser produces from every operand/operator sequence the unique tree in which each operator binds its operands according to precedence and associativity, and the leaves of the tree are the input in order.", "quantifier": "every operator table and every expression of any length", "why_tests_cant": "expressions are unbounded and all combinations of operators matter", "anchors": ["projects/oak-core/src/parser/pratt.rs: PrattParser::parse,binary,unary,postfix,OperatorInfo"]}
{"id": "C27", "title": "Parse sessions never hand out a tree whose memory was released", "statement": "In every history of parses (successful or failed) on one session, the tree offered for reuse, and the last root, point into an arena the session still owns.", "quantifier": "every sequence of parse successes and failures", "why_tests_cant": "the fault needs a particular history of generations", "anchors": ["projects/oak-core/src/parser/session.rs: ParseSession::{prepare_generation,commit_generation,old_tree,last_root}", "projects/oak-core/src/parser/mod.rs: parse_with_lexer"]}
{"id": "C28", "title": "Arena allocations are aligned, in bounds and disjoint", "statement": "Across any sequence of allocations of any sizes, every returned block is 8-byte aligned, lies inside a chunk owned by the arena, and overlaps no other block returned by that arena.", "quantifier": "every sequence of allocation requests, every placement of chunks by the system allocator", "why_tests_cant": "memory safety over all allocation histories", "anchors": ["projects/oak-core/src/memory/arena.rs: SyntaxArena::{alloc_raw,alloc_slow,alloc_chunk,alloc,alloc_slice_copy,alloc_slice_fill_iter}"]}
{"id": "C29", "title": "Memory chunks have a single owner and the pool is bounded", "statement": "In every interleaving of arena creation, allocation and drop, each chunk is owned by at most one live arena or by the recycling pool, never both; the pool never exceeds its limit; a chunk given up by a dropped arena is either pooled or returned to the system.", "quantifier": "every interleaving of operations on any number of arenas", "why_tests_cant": "ownership is a global invariant over schedules", "anchors": ["projects/oak-core/src/memory/arena.rs: SyntaxArena::{alloc_chunk,drop},recycle_chunk"]}
{"id": "C30", "title": "Provenance metadata can always be read back", "statement": "The index returned when provenance is added reads back exactly that record at any later time on the same arena, and indices never collide.", "quantifier": "every sequence of additions", "why_tests_cant": "history property", "anchors": ["projects/oak-core/src/memory/arena.rs: add_metadata,get_metadata", "projects/oak-core/src/tree/metadata.rs: TokenProvenance"]}
{"id": "C31", "title": "The line map records exactly the line starts", "statement": "The line map of a source has one line more than the text has newlines; line i starts right after the i-th newline; lines tile the text; the map is the same for every chunk layout of the same text.", "quantifier": "every text, every source kind and chunk layout", "why_tests_cant": "unbounded texts and layouts", "anchors": ["projects/oak-vfs/src/line_map.rs: LineMap::{from_source,line_count,line_start,line_end}"]}
{"id": "C32", "title": "Offset and line/column conversion are inverse", "statement": "Converting a character-boundary offset to (line, UTF-16 column) and back yields the same offset; the line is the number of newlines before the offset and the column is the number of UTF-16 units since the line start; converting any (line, column) yields a boundary offset inside that line or its end, the first whose column is at least the requested one.", "quantifier": "every text, offset, line and column", "why_tests_cant": "surrogate pairs, last lines, columns past the end: unbounded combinations", "anchors": ["projects/oak-vfs/src/line_map.rs: LineMap::{offset_to_line_col_utf16,line_col_utf16_to_offset}"]}
{"id": "C33", "title": "The in-memory file system behaves like a map with stable identities", "statement": "After any history of writes and removals, reading a URI returns the last content written and not removed since; ids and URIs are in one-to-one correspondence for existing files; an id is stable across rewrites and never given to another URI within 2^32 creations; ids of removed files resolve to nothing.", "quantifier": "every history of operations, and every interleaving of concurrent calls", "why_tests_cant": "history and schedule property over three maps and a counter", "anchors": ["projects/oak-vfs/src/vfs/memory.rs: MemoryVfs::{write_file,remove_file,get_source,get_uri,get_id,exists,metadata}"]}
{"id": "C34", "title": "Pretty printing never loses or reorders content", "statement": "The rendered output contains the non-blank characters of the document's texts in order and nothing else but blanks and line endings, whatever the configuration.", "quantifier": "every document and configuration", "why_tests_cant": "documents are unbounded trees; layout decisions depend on widths", "anchors": ["projects/oak-pretty-print/src/document/printer.rs: Printer::{print,render,newline,finalize}"]}
{"id": "C35", "title": "Groups stay flat exactly when they fit", "statement": "A group without forced line breaks whose flat width fits in the remaining width is printed on one line with its soft breaks flat; otherwise its own breaks become line breaks. When printed flat the line does not exceed the maximum width.", "quantifier": "every document, width and starting column", "why_tests_cant": "width decisions on arbitrary nesting", "anchors": ["projects/oak-pretty-print/src/document/printer.rs: Printer::{render,will_break,check_width}"]}
{"id": "C36", "title": "Printed lines carry the configured indentation and no trailing blanks, and the final newline rule holds", "statement": "Every line break emitted by the printer is followed by exactly one indentation text per enclosing indent; with trimming on, no line the printer ends has trailing blanks; with the final-newline option a non-empty result ends with the configured line ending.", "quantifier": "every document and configuration", "why_tests_cant": "claims about all lines of unbounded outputs", "anchors": ["projects/oak-pretty-print/src/document/printer.rs: Printer::{newline,write_indent,finalize}"]}
{"id": "C37", "title": "Formatting rules apply in priority order and conflicts are refused", "statement": "In a rule set built by any sequence of additions, rules are ordered by descending priority, insertion order among equals; a rule conflicting with an accepted one is never accepted and leaves the set unchanged; the first applicable rule that produces a document decides.", "quantifier": "every sequence of rules", "why_tests_cant": "history property over an unbounded list", "anchors": ["projects/oak-pretty-print/src/rules/mod.rs: RuleSet::{add_rule,add_rules,apply_node_rules,apply_token_rules}"]}
{"id": "C38", "title": "JSON string escaping is exact", "statement": "For every text, the escaped form produced by the JSON exporter contains no raw quote, no raw control character, and a JSON reader decodes it back to exactly the original text.", "quantifier": "every text over all Unicode scalar values", "why_tests_cant": "all strings over 1.1M code points", "anchors": ["projects/oak-highlight/src/exporters/mod.rs: json_escape"]}
{"id": "C39", "title": "HTML escaping is exact and injection-free", "statement": "The escaped text contains none of < > \" ' and every & starts a produced entity; un-escaping returns the original; the two HTML escaping routines in the code base agree. No part of a highlight or diagnostic page reaches the page unescaped.", "quantifier": "every text", "why_tests_cant": "all strings; sequential replacement order matters", "anchors": ["projects/oak-highlight/src/exporters/mod.rs: html_escape,HtmlExporter", "projects/oak-diagnostic/src/lib.rs: html_escape,HtmlEmitter"]}
{"id": "C40", "title": "Theme lookup returns the most specific matching scope", "statement": "resolve_style returns the style of the longest dotted prefix of the scope present in the theme, falling back to `none`; resolve_styles returns a match of maximal depth among all scopes, the earliest one on ties.", "quantifier": "every theme and every scope or list of scopes", "why_tests_cant": "unbounded scopes and themes", "anchors": ["projects/oak-highlight/src/highlighter/mod.rs: HighlightTheme::{resolve_style,resolve_styles}"]}
{"id": "C41", "title": "Highlighting covers the source exactly", "statement": "The segments produced for a tree that covers the whole source are contiguous, in order, and their texts concatenate to the source; ANSI output with escape sequences removed is the source.", "quantifier": "every source and every tree covering it", "why_tests_cant": "inductive over trees", "anchors": ["projects/oak-highlight/src/highlighter/mod.rs: HighlightVisitor", "projects/oak-highlight/src/exporters/mod.rs: AnsiExporter"]}
{"id": "C42", "title": "Reference search finds exactly the matching names", "statement": "SimpleReferenceFinder returns, in source order, exactly the spans of the leaves with the Name role whose text equals the requested name.", "quantifier": "every tree, source and name", "why_tests_cant": "inductive over trees", "anchors": ["projects/oak-navigation/src/lib.rs: SimpleReferenceFinder::find"]}
{"id": "C43", "title": "Document symbols list every definition with its container", "statement": "The universal symbol provider lists every node with the Definition role exactly once in preorder, with the node's span, the text of its first direct Name leaf, and the name of the nearest enclosing definition as container.", "quantifier": "every tree and source", "why_tests_cant": "inductive over trees", "anchors": ["projects/oak-symbols/src/lib.rs: UniversalSymbolProvider::{collect_symbols,document_symbols}"]}
{"id": "C44", "title": "The workspace symbol index reflects the files currently indexed", "statement": "After any history of per-file updates, looking up a fully qualified name returns a symbol defined in some file's latest symbol list if one exists, and nothing otherwise; the per-file query returns the latest list.", "quantifier": "every history of updates over any number of files", "why_tests_cant": "cross-file interference needs particular histories", "anchors": ["projects/oak-resolver/src/lib.rs: GlobalSymbolTable::{update_file_symbols,lookup,query_file,query}"]}
{"id": "C45", "title": "Line editing in the REPL follows the keys typed", "statement": "For every sequence of character insertions, backspaces, cursor moves and line breaks, the buffer equals the text an ideal editor would hold, the cursor stays inside the line, and no key sequence crashes the editor.", "quantifier": "every key sequence over all characters", "why_tests_cant": "byte and character indices differ only on non-ASCII input in particular positions", "anchors": ["projects/oak-repl/src/lib.rs: LineBuffer::{insert,backspace,full_text,is_empty}, OakRepl::run"]}
{"id": "C46", "title": "Diagnostic locations are inside the source and point at the right line and column", "statement": "The label attached to an error lies within the source; the rendered location is the 1-based line and character column of the label start; the caret line is as long as the label; the quoted line is the source line.", "quantifier": "every source, error offset and label span", "why_tests_cant": "multi-byte characters, line ends, out-of-range offsets", "anchors": ["projects/oak-diagnostic/src/lib.rs: OakError::to_diagnostic, PlainTextEmitter::render_snippet, LspEmitter"]}
{"id": "C47", "title": "Graph queries are correct", "statement": "Neighbours, degree, connectivity and layered topological ordering reported for a graph agree with its edges: connected exactly when every node is reachable from the first; every edge of an acyclic graph goes from an earlier to a later layer, every node is in exactly one layer, also when the graph has a cycle; every reported cycle is a cycle, and a graph with a cycle reports at least one.", "quantifier": "every finite graph, and every iteration order of its node table", "why_tests_cant": "graphs are unbounded and the node table is iterated in arbitrary order", "anchors": ["projects/oak-visualize/src/graph/mod.rs: Graph::{get_neighbors,get_degree,is_connected,find_cycles}, GraphLayout::topological_layers"]}
{"id": "C48", "title": "The JSON lexer accounts for every byte", "statement": "The tokens produced for a JSON text are contiguous, cover the whole source and end with the end-of-file token.", "quantifier": "every text, every configuration of the language options", "why_tests_cant": "malformed inputs are unbounded", "anchors": ["examples/oak-json/src/lexer/mod.rs: JsonLexer::{run,lex_number,lex_keyword,lex_string_fast}"]}
{"id": "C49", "title": "Building a JSON document returns the value written", "statement": "Building a JSON text that represents a value returns that value, independent of insignificant whitespace around or inside it; writing a value and reading it back yields the same value.", "quantifier": "every JSON value of any depth, any placement of whitespace", "why_tests_cant": "values are unbounded trees", "anchors": ["examples/oak-json/src/parser/mod.rs: JsonParser", "examples/oak-json/src/builder/mod.rs: JsonBuilder::{build_root,build_value,build_field}", "examples/oak-json/src/ast/mod.rs: JsonValue::to_string,ToSource"]}
{"id": "C50", "title": "CSV lexing and parsing account for every byte and always finish", "statement": "The CSV lexer's tokens tile the source; the parser terminates on every input; the tree's records and fields are those of the text (fields separated by the separator outside quotes, records by newlines).", "quantifier": "every text, separator and quote character", "why_tests_cant": "quoted fields with doubled quotes, unterminated quotes, any length", "anchors": ["examples/oak-csv/src/lexer/mod.rs: CsvLexer::run", "examples/oak-csv/src/parser/parse_top_level.rs: CsvParser::parse_root_internal"]}
{"id": "C51", "title": "Comment collection queries and ordering are exact", "statement": "Range, before and after queries return exactly the comments whose spans satisfy the bound, in collection order; sorting orders by start offset and keeps the order of equal ones; formatting a comment keeps its non-blank content.", "quantifier": "every list of comments and every position", "why_tests_cant": "unbounded lists and contents", "anchors": ["projects/oak-pretty-print/src/comment/mod.rs: CommentCollector,Comment::formatted_text"]}
{"id": "C52", "title": "The workspace root of a file is its innermost folder", "statement": "find_root returns a folder containing the file, and no other registered folder containing the file is deeper; it returns nothing exactly when no registered folder contains the file. The result does not depend on the iteration order of the folder table.", "quantifier": "every set of folders, every path, every table order", "why_tests_cant": "arbitrary sets and hash orders", "anchors": ["projects/oak-lsp/src/workspace.rs: WorkspaceManager::{find_root,is_within_workspace,add_folder,remove_folder}"]}
{"id": "C53", "title": "Listing a workspace returns every file below the root once", "statement": "For a finite directory tree, list_all_files terminates and returns every file below the root exactly once and nothing else.", "quantifier": "every finite directory tree", "why_tests_cant": "unbounded trees", "anchors": ["projects/oak-lsp/src/service.rs: LanguageService::list_all_files"]}
{"id": "C54", "title": "The JSON parser is silent exactly on values", "statement": "Parsing any text ends, without a panic; the leaves of the tree are consecutive tokens of the lexer; no error is recorded if and only if the significant tokens of the whole text are one JSON value under the language configuration (brackets, commas, keys and colons in their places, a trailing comma only where it is allowed).", "quantifier": "every text, every source it is read from, every language configuration, unbounded nesting", "why_tests_cant": "rows of tokens of any length and any nesting depth", "anchors": ["examples/oak-json/src/parser/mod.rs: parse_value, parse_object, parse_object_entry, parse_array, parse_root_internal"]}
{"id": "C55", "title": "Comments are inserted once, at their place", "statement": "Inserting comments at a position writes exactly the non-trailing comments that end before it, each on its own line in collection order, and at most one trailing comment, the next one; inserting at increasing positions writes every comment once.", "quantifier": "every collection of comments, every position, every sequence of insertions", "why_tests_cant": "unbounded collections and sequences of calls", "anchors": ["projects/oak-pretty-print/src/comment/mod.rs: CommentProcessor::{insert_comments_at_position,insert_trailing_comment,process_comments}"]}
{"id": "C56", "title": "Formatting keeps the program text", "statement": "Formatting a tree over its source with the built-in rules never fails and prints the document these rules describe; with any added rules that keep content, whatever conflicts they report, a successful run prints the characters of the source in order, blanks and line endings aside, and `changed` says whether the text differs.", "quantifier": "every tree, every source, every assignment of roles, every set of content-keeping rules, every configuration", "why_tests_cant": "unbounded trees and arbitrary rule sets", "anchors": ["projects/oak-pretty-print/src/formatter/mod.rs: Formatter::{new,add_rule,format,format_node,format_children,format_token}", "projects/oak-pretty-print/src/builtin_rules/mod.rs"]}
{"id": "C57", "title": "Formatting formatted text changes nothing", "statement": "Formatting the output of the formatter again, over the tree of that output, returns it unchanged with `changed` false.", "quantifier": "every tree and source", "why_tests_cant": "all texts and two runs in a row", "anchors": ["projects/oak-pretty-print/src/formatter/mod.rs: Formatter::{new,add_rule,format,format_node,format_children,format_token}", "projects/oak-pretty-print/src/builtin_rules/mod.rs"]}
{"id": "C58", "title": "Rules are told the right context", "statement": "When a rule is asked about a node or token, depth and path in the context are those of the place in the tree; is_inside tells whether a kind is on the path; parent_kind is the kind of the parent.", "quantifier": "every tree, every place in it, every rule", "why_tests_cant": "unbounded nesting", "anchors": ["projects/oak-pretty-print/src/formatter/mod.rs: FormatContext::{enter,is_inside,parent_kind}", "projects/oak-pretty-print/src/formatter/mod.rs: Formatter::{new,add_rule,format,format_node,format_children,format_token}"]}
{"id": "C59", "title": "Statements go on their own lines", "statement": "After every statement the formatter breaks the line.", "quantifier": "every tree, every statement in it", "why_tests_cant": "unbounded trees, all widths", "anchors": ["projects/oak-pretty-print/src/builtin_rules/mod.rs: statement_newline rule", "projects/oak-pretty-print/src/formatter/mod.rs: Formatter::{new,add_rule,format,format_node,format_children,format_token}"]}
{"id": "C60", "title": "An import resolves to the first existing candidate", "statement": "Resolving an import looks beside the importing file and then in each root directory in order, and returns the URL of the first candidate that exists, or nothing when none exists; the root directories are those of the workspace folders.", "quantifier": "every file system, every list of roots, every base URI and import path", "why_tests_cant": "arbitrary file systems and root lists", "anchors": ["projects/oak-resolver/src/lib.rs: StandardResolver::resolve", "projects/oak-lsp/src/workspace.rs: WorkspaceManager::{initialize,add_folder,remove_folder}"]}
{"id": "C61", "title": "Go to definition resolves the reference under the cursor", "statement": "On a reference, definition returns the place of the indexed symbol of that name, else the file the name resolves to, else nothing; document_symbols lists the definitions of the file.", "quantifier": "every tree, every offset, every index, every resolver", "why_tests_cant": "unbounded trees and arbitrary indexes", "anchors": ["projects/oak-lsp/src/service.rs: LanguageService::{definition,document_symbols}"]}
{"id": "C62", "title": "The MCP server answers every request once, in order, with its id", "statement": "On any input the server runs to the end and writes one line per request line, in the order of the requests: a response with the id of the request, version 2.0 and either a result or an error; lines that hold no request are not answered; unknown methods get the error -32601.", "quantifier": "every input text, every language service, every JSON reader and writer", "why_tests_cant": "unbounded sessions, arbitrary interleavings of requests, notifications and garbage", "anchors": ["projects/oak-mcp/src/lib.rs: McpServer::{run,handle_request,handle_notification}, JsonRpcRequest::from_json"]}
{"id": "C63", "title": "The tools the MCP server announces can be called and answer what the service finds", "statement": "Every tool in tools/list can be called with the arguments it requires; its answer is what the language service or the searcher returns for them.", "quantifier": "every language service, every searcher, all arguments", "why_tests_cant": "arbitrary services and arguments", "anchors": ["projects/oak-mcp/src/lib.rs: McpServer::handle_tool_call", "projects/oak-mcp/src/tools.json"]}
{"id": "C64", "title": "Rectangles and transformations are exact", "statement": "Rectangles behave as sets of points: containment, intersection, union, bounding box of two points, moving, scaling and expanding mean what they say on every point; composing two transformations applies the first and then the second. Numbers are taken as exact.", "quantifier": "all rectangles (not inside out where stated), points, factors and transformations over the rational numbers", "why_tests_cant": "infinitely many coordinates; touching, nested and degenerate rectangles", "anchors": ["projects/oak-visualize/src/geometry/mod.rs"]}
{"id": "C65", "title": "Tree layouts show every node and keep nodes apart", "statement": "A layered or compact layout of a tree shows each node exactly once with its label, type and size, on the height of its level, and no two nodes overlap. For a syntax tree the nodes are its elements in order.", "quantifier": "all trees, sizes and configurations", "why_tests_cant": "arbitrary tree shapes and sizes; overlaps show only for certain combinations of widths", "anchors": ["projects/oak-visualize/src/tree/mod.rs: TreeLayout::layered_layout, compact_layout", "projects/oak-visualize/src/tree/mod.rs: TreeNode"]}
{"id": "C66", "title": "The bounds of a layout are exact", "statement": "The bounds of a layout are the smallest rectangle around its nodes, whatever nodes are added or replaced and in whatever order; edges join parents to children once each; counts and depth of a tree are right.", "quantifier": "all layouts and trees", "why_tests_cant": "the order of a hash map and infinitely many coordinates", "anchors": ["projects/oak-visualize/src/layout/mod.rs: Layout::add_node_with_metadata, update_bounds", "projects/oak-visualize/src/tree/mod.rs: add_tree_edges, node_count, leaf_count, depth"]}
{"id": "C67", "title": "The SVG picture shows the layout", "statement": "Read back as XML, the picture of a layout has one box and one text for each node and one path for each edge, in their places, with their colours and labels, and nothing else; every node keeps the padding to the border of the canvas.", "quantifier": "all layouts, configurations and styles", "why_tests_cant": "arbitrary labels and styles end up in the markup", "anchors": ["projects/oak-visualize/src/render/mod.rs: SvgRenderer::render_layout"]}
{"id": "C68", "title": "The hierarchical layout shows the hierarchy", "statement": "The hierarchical layout of a graph shows each node once with its size and label, no two nodes overlap, each child lies past its parent in the direction chosen, and each edge runs from the middle of its source to the middle of its target.", "quantifier": "all graphs, directions and configurations", "why_tests_cant": "arbitrary graphs, including cyclic ones", "anchors": ["projects/oak-visualize/src/layout/mod.rs: HierarchicalLayout::layout"]}
{"id": "C69", "title": "Values survive being written as JSON and read back", "statement": "Any value of a Rust type that `to_value` (`to_string`) writes is read back by `from_value` (`from_str`) as the same value of the same type, and whatever is read is of the type asked for.", "quantifier": "all types of serde's data model and all their values", "why_tests_cant": "types nest without bound; each kind of type goes through its own methods of the serializer and the deserializer", "anchors": ["examples/oak-json/src/serde.rs: to_value, from_value, KeySerializer, EnumDeserializer", "examples/oak-json/src/lib.rs: to_string, from_str"]}
{"id": "C70", "title": "The disk gives back what was written", "statement": "After any writes and removals through `DiskVfs`, `get_source` of a URI gives the text last written at the place the URI names, whichever URI was used to write it; other files stay as they were, directories on the way are made, `read_dir` lists each entry once by a URI that names it, and a file that can be read has an identifier.", "quantifier": "all root paths, working directories, URIs, disks and sequences of calls", "why_tests_cant": "one place has infinitely many URIs (relative, absolute, doubled slashes, dots), and what a call does depends on everything that was written before", "anchors": ["projects/oak-vfs/src/vfs/disk.rs: uri_to_path, path_to_uri, get_source, read_dir, write_file, remove_file"]}
{"id": "C71", "title": "Code is cut into chunks and found again", "statement": "`index_code` makes one chunk for every definition, statement and documentation of more than twenty bytes, with its text and place, and `search` finds indexed chunks.", "quantifier": "all languages, sources and trees", "why_tests_cant": "trees nest without bound", "anchors": ["projects/oak-semantic-search/src/lib.rs: ChunkCollector, index_code, search"]}
{"id": "C72", "title": "An XML text is cut into XML's tokens", "statement": "`XmlLexer::lex` ends on every text and cuts it in one way into blanks, comments, declarations, CDATA sections, instructions, tag marks, references, quoted values, names and text; the tokens lie side by side over the whole text, whatever kind of source holds it.", "quantifier": "all texts and kinds of sources", "why_tests_cant": "eleven scanners are tried at every place, and what one takes decides what the others see from there on", "anchors": ["examples/oak-xml/src/lexer/mod.rs: XmlLexer"]}
{"id": "C73", "title": "Parsing XML gives the elements of the text", "statement": "`oak_xml::parse` ends on every text and does not panic; for a well-formed document the value has the elements of the text with their names, attributes, text, comments and places, at any depth, and `to_string` of a value parses to that value; a document whose tags do not match is refused.", "quantifier": "all texts below 4 GiB, elements of any depth, values of any shape", "why_tests_cant": "documents nest without bound, and offsets in the tree are sums over everything before them, so an error shows only behind the content that causes it", "anchors": ["examples/oak-xml/src/parser/mod.rs: XmlParser", "examples/oak-xml/src/builder/mod.rs: XmlBuilder", "examples/oak-xml/src/lib.rs: parse, to_string", "examples/oak-xml/src/ast/mod.rs: XmlValue"]}
{"id": "C74", "title": "Rust values survive being written as XML and read back", "statement": "`oak_xml::from_value(to_value(v))` is `v` for every value of every type that derives `Serialize` and `Deserialize`, and `from_str(to_string(v))` is `v`; neither panics.", "quantifier": "all types of serde's data model (except `f32`, bytes, borrowed types) and all their values", "why_tests_cant": "what is written for a value depends on what is around it, so types behave differently alone, in a field, in a sequence and in a variant", "anchors": ["examples/oak-xml/src/serde.rs: to_value, from_value, Serializer, MapDeserializer", "examples/oak-xml/src/lib.rs: to_string, from_str"]}
{"id": "C75", "title": "Drawings of graphs show the graph", "statement": "`GraphLayout::visualize`/`layout_graph` does not panic for any graph and draws every node once with its label, type and size and every edge between two nodes with its label; the grid has one node per cell and no overlaps, layers have every edge of an acyclic graph going down, the circle has every node on it, forces move a node by no more than the greatest velocity per round and push unconnected nodes apart; the same graph is drawn the same each time.", "quantifier": "all graphs (also with cycles and dangling edges), all configurations, all five algorithms, all orders in which the hash tables are iterated", "why_tests_cant": "the nodes come out of a hash table in an order that differs from run to run, and the simulation runs for any number of rounds over any graph", "anchors": ["projects/oak-visualize/src/graph/mod.rs: layout_graph, grid_layout, hierarchical_layout, circular_layout, force_directed_layout, organic_layout"]}
{"id": "C76", "title": "TOML is cut into its tokens", "statement": "The lexer of `oak-toml` ends on every text and does not panic; its tokens are those of the text cut from left to right into blanks, comments, strings, numbers, keys, marks and brackets, they lie side by side from the first byte to the last and on character boundaries, whatever the source; the parser keeps every token in order.", "quantifier": "all texts, all sources that hold them", "why_tests_cant": "a text has any length and a character more than one byte, so a wrong step shows only behind the character that causes it", "anchors": ["examples/oak-toml/src/lexer/mod.rs: TomlLexer::lex, run, lex_string, lex_number, lex_punctuation, lex_identifier", "examples/oak-toml/src/parser/mod.rs: TomlParser::parse"]}
{"id": "C77", "title": "The tree of a language without a grammar holds its tokens", "statement": "For the 42 languages whose parser puts all tokens below one node, the tree has every token of the text once, in order, with its kind and length, and the root is as long as the text; parsing ends, does not panic and reports nothing.", "quantifier": "all token sequences below 4 GiB, all choices of ignored kinds", "why_tests_cant": "whether a token is in the tree depends on the tokens around it, and a test that prints the tree was generated from what the parser does", "anchors": ["examples/oak-ascii-doc/src/parser/parse_top_level.rs: parse_root_internal", "examples/oak-yaml/src/parser/parse_top_level.rs: parse_root_internal", "examples/oak-clojure/src/parser/parse_top_level.rs: parse_root_internal", "projects/oak-core/src/parser/state.rs: bump, advance, finish_at", "projects/oak-core/src/parser/mod.rs: parse_with_lexer"]}
{"id": "C78", "title": "A regular expression is read as a whole", "statement": "For every text `oak-regex` cuts it into tokens that lie side by side from the first byte to the last; parsing ends without a panic, the tree holds every token once and in order and is as long as the text; the builder answers the whole expression or an error.", "quantifier": "all texts, all sources that hold them, all token sequences, all definitions of white space that leave the signs alone", "why_tests_cant": "what is lost or doubled depends on how deep the expression is nested and on what comes after its first item; the smallest text that overflows has 92 characters", "anchors": ["examples/oak-regex/src/lexer/lex.rs: run, lex_character_class, lex_quantifier, lex_escape, lex_character", "examples/oak-regex/src/parser/mod.rs: primary, prefix, infix, parse_root_internal", "examples/oak-regex/src/builder/mod.rs: build, build_root, build_pattern", "projects/oak-core/src/parser/pratt.rs: PrattParser::parse, binary"]}
{"id": "C79", "title": "A test that passes has checked the result", "statement": "The testers of `oak-testing` run every file with one of the extensions and no result file; a run passes exactly if each result is the expected one beside the file, and then changes nothing; after a run that passed, a changed lexer, parser or builder passes exactly if it gives the same tokens, tree or value and messages on every file; a file without an expected result does not pass unnoticed; a function that does not end fails after the timeout.", "quantifier": "all sets of files, all functions under test, all orders in which the files are found", "why_tests_cant": "the testers are what the project's own tests rely on: what they do not look at no test of a language can see", "anchors": ["projects/oak-testing/src/lexing.rs: LexerTester::run_tests, find_test_files, test_single_file", "projects/oak-testing/src/parsing.rs: ParserTester::run_tests, test_single_file, to_ast", "projects/oak-testing/src/building.rs: BuilderTester::run_tests, test_single_file"]}
{"id": "C80", "title": "An error tells what went wrong and where", "statement": "The printed text of an `OakError` tells its kind, its message, its file and its offset: two errors with the same text are the same. `with_source_id` gives an error that has room for it the file, and changes nothing else. A clone of an error is the same error.", "quantifier": "all errors of all kinds, with all messages", "why_tests_cant": "messages are arbitrary text and could be mistaken for a place or for another kind; lists of printed errors are what the test runners compare", "anchors": ["projects/oak-core/src/errors/display.rs: Display for OakErrorKind", "projects/oak-core/src/errors/mod.rs: OakErrorKind::key, OakError::with_source_id, Clone for OakErrorKind"]}
{"id": "C81", "title": "INI documents are parsed, and nothing else", "statement": "`IniLexer::lex` cuts a text into blanks, line ends, comments, strings, numbers, words and marks, each token where its piece is. `IniParser::parse` gives a tree that holds all the tokens, and no errors, exactly if the text is a document: lines `key = value` and tables `[key]`, `[[key]]`; otherwise it gives an error at the place where the document goes wrong. The parser ends on every text.", "quantifier": "all texts; all sequences of tokens", "why_tests_cant": "documents are of any length, and arrays and inline tables nest to any depth; that a grammar accepts no document is not seen by tests that only run the lexer", "anchors": ["examples/oak-ini/src/lexer/mod.rs: IniLexer::run", "examples/oak-ini/src/parser/mod.rs: IniParser::parse_root_internal", "examples/oak-ini/src/parser/parse_top_level.rs: parse_table, parse_key_value, parse_key, parse_value, parse_array, parse_inline_table"]}
{"id": "C82", "title": "Hand-written parsers end", "statement": "The parsers that are written by hand as functions over `ParserState` return on every sequence of tokens, malformed ones too: a tree, or an error in place of it.", "quantifier": "38 example parsers; all sources; all sequences of tokens whose lengths add up to less than 2^32", "why_tests_cant": "a loop that takes no token hangs on particular malformed texts only; the number of such texts is not bounded and tests use well-formed ones", "anchors": ["projects/oak-core/src/parser/state.rs: ParserState::{bump, advance, eat, expect, checkpoint, finish_at}", "projects/oak-core/src/parser/mod.rs: parse_with_lexer", "examples/oak-r/src/parser/parse_top_level.rs: parse_statement", "examples/oak-nix/src/parser/mod.rs: parse_set, parse_binding", "examples/oak-tcl/src/parser/parse_top_level.rs: parse_command, parse_word", "examples/oak-css/src/parser/mod.rs: parse_root_internal"]}
{"id": "C83", "title": "Hand-written parsers keep the tokens", "statement": "The tree of a parser holds every token of the text once, in order and with its length, and the root is as long as the text; if there is no tree, an error is recorded.", "quantifier": "38 example parsers; all sources; all sequences of tokens whose lengths add up to less than 2^32", "why_tests_cant": "a token is lost only on the path on which its statement forgets it; the paths through nested functions and loops are not finite in number", "anchors": ["projects/oak-core/src/parser/state.rs: ParserState::{bump, advance, eat, expect, checkpoint, finish_at}", "projects/oak-core/src/parser/mod.rs: parse_with_lexer", "examples/oak-html/src/parser/mod.rs: parse_tag", "examples/oak-handlebars/src/parser/parse_top_level.rs: parse_item", "examples/oak-apl/src/parser/mod.rs: parse_expression", "examples/oak-tailwind/src/parser/parse_top_level.rs: parse_root_internal"]}
{"id": "C84", "title": "Parsers with operator precedence end", "statement": "The example parsers that parse expressions with `PrattParser` return on every sequence of tokens, malformed ones too: a tree, or an error in place of it. They do not panic and do not hang.", "quantifier": "18 example parsers; all sources; all sequences of tokens whose lengths add up to less than 2^32", "why_tests_cant": "a loop that takes no token hangs on particular malformed texts only, and lengths that double with the depth overflow only at a depth that tests do not reach", "anchors": ["projects/oak-core/src/parser/pratt.rs: PrattParser::parse, binary, unary, postfix", "projects/oak-core/src/parser/state.rs: ParserState::{bump, advance, expect, checkpoint_before, push_child, finish_at, incremental_node}", "examples/oak-swift/src/parser/mod.rs: parse_block, parse_statement", "examples/oak-kotlin/src/parser/mod.rs: parse_function_declaration, parse_class_declaration", "examples/oak-lua/src/parser/mod.rs: parse_root_internal, primary", "examples/oak-mojo/src/parser/mod.rs: parse_block", "examples/oak-c/src/parser/mod.rs: primary, parse_statement"]}
{"id": "C85", "title": "Parsers with operator precedence keep the tokens", "statement": "The tree of a parser that uses `PrattParser` holds every token of the text once, in order and with its length.", "quantifier": "18 example parsers; all sources; all sequences of tokens whose lengths add up to less than 2^32", "why_tests_cant": "whether a node is put into the tree a second time depends on which checkpoint was open around it; the paths through nested expressions are not finite in number", "anchors": ["projects/oak-core/src/parser/pratt.rs: PrattParser::parse, binary, unary, postfix", "projects/oak-core/src/parser/state.rs: ParserState::{bump, advance, expect, checkpoint_before, push_child, finish_at, incremental_node}", "examples/oak-c/src/parser/mod.rs: primary, parse_statement", "examples/oak-javascript/src/parser/mod.rs: infix", "examples/oak-scala/src/parser/mod.rs: parse", "examples/oak-go/src/parser/mod.rs: parse_import_declaration", "examples/oak-rust/src/parser/mod.rs: parse_function"]}
{"id": "C86", "title": "Operators are grouped as the language says", "statement": "A row of operands and binary operators is parsed into one node whose nesting is the grouping that the reference of the language gives: operators that bind tighter are nested deeper, those that bind equally tight nest to the side of their associativity. No error is recorded, and the parser stops at the token after the row.", "quantifier": "16 example parsers; all rows of any length of the operators of the reference and operands of one token, with trivia after each; all parser states and all tokens after the row that end an expression", "why_tests_cant": "rows are not bounded in length, and a wrong pair of levels shows only for the two operators next to each other in one order", "anchors": ["projects/oak-core/src/parser/pratt.rs: PrattParser::parse, binary, OperatorInfo", "examples/oak-actionscript/src/parser/mod.rs: infix, primary", "examples/oak-c/src/parser/mod.rs: infix, primary", "examples/oak-csharp/src/parser/mod.rs: infix, primary", "examples/oak-elixir/src/parser/mod.rs: infix, primary", "examples/oak-go/src/parser/mod.rs: infix, primary", "examples/oak-javascript/src/parser/mod.rs: infix, primary", "examples/oak-kotlin/src/parser/mod.rs: infix, primary", "examples/oak-lua/src/parser/mod.rs: infix, primary", "examples/oak-mojo/src/parser/mod.rs: infix, primary", "examples/oak-php/src/parser/mod.rs: infix, primary", "examples/oak-ruby/src/parser/mod.rs: infix, primary", "examples/oak-rust/src/parser/mod.rs: infix, primary", "examples/oak-sql/src/parser/mod.rs: infix, primary", "examples/oak-swift/src/parser/mod.rs: infix, primary", "examples/oak-wolfram/src/parser/mod.rs: infix, primary", "examples/oak-zig/src/parser/mod.rs: infix, primary"]}
{"id": "C87", "title": "Example lexers end", "statement": "Lexing with a hand-written lexer of the example languages ends, without a panic, on every text.", "quantifier": "71 example lexers, translated statement by statement; all texts, all ways a source hands the text out in chunks, all answers of the Unicode tables beyond ASCII", "why_tests_cant": "a loop that does not move on shows only on the text that drives it there, and texts are not bounded", "anchors": ["projects/oak-core/src/lexer/mod.rs: LexerState::advance, advance_if, add_token", "examples/oak-actionscript/src/lexer/mod.rs: run", "examples/oak-ada/src/lexer/mod.rs: run", "examples/oak-apl/src/lexer/mod.rs: run", "examples/oak-ascii-doc/src/lexer/mod.rs: run", "examples/oak-bat/src/lexer/mod.rs: run", "examples/oak-clojure/src/lexer/mod.rs: run", "examples/oak-cmd/src/lexer/mod.rs: run", "examples/oak-coq/src/lexer/mod.rs: run", "examples/oak-crystal/src/lexer/mod.rs: run", "examples/oak-csharp/src/lexer/mod.rs: run", "examples/oak-css/src/lexer/mod.rs: run", "examples/oak-d/src/lexer/mod.rs: run", "examples/oak-dart/src/lexer/mod.rs: run", "examples/oak-delphi/src/lexer/mod.rs: run", "examples/oak-dhall/src/lexer/mod.rs: run", "examples/oak-dockerfile/src/lexer/mod.rs: run", "examples/oak-elm/src/lexer/mod.rs: run", "examples/oak-fortran/src/lexer/mod.rs: run", "examples/oak-go/src/lexer/mod.rs: run", "examples/oak-graphql/src/lexer/mod.rs: run", "examples/oak-haskell/src/lexer/mod.rs: run", "examples/oak-hlsl/src/lexer/mod.rs: run", "examples/oak-idl/src/lexer/mod.rs: run", "examples/oak-j/src/lexer/mod.rs: run", "examples/oak-jasm/src/lexer/mod.rs: run", "examples/oak-jasmin/src/lexer/mod.rs: run", "examples/oak-java/src/lexer/mod.rs: run", "examples/oak-javadoc/src/lexer/mod.rs: run", "examples/oak-kotlin/src/lexer/mod.rs: run", "examples/oak-lean/src/lexer/mod.rs: run", "examples/oak-matlab/src/lexer/mod.rs: run", "examples/oak-mermaid/src/lexer/mod.rs: run", "examples/oak-msil/src/lexer/mod.rs: run", "examples/oak-nim/src/lexer/mod.rs: run", "examples/oak-nix/src/lexer/mod.rs: run", "examples/oak-objective-c/src/lexer/mod.rs: run", "examples/oak-ocaml/src/lexer/mod.rs: run", "examples/oak-org-mode/src/lexer/mod.rs: run", "examples/oak-pascal/src/lexer/mod.rs: run", "examples/oak-perl/src/lexer/mod.rs: run", "examples/oak-php/src/lexer/mod.rs: run", "examples/oak-powershell/src/lexer/mod.rs: run", "examples/oak-protobuf/src/lexer/mod.rs: run", "examples/oak-purescript/src/lexer/mod.rs: run", "examples/oak-rbq/src/lexer/mod.rs: run", "examples/oak-smalltalk/src/lexer/mod.rs: run", "examples/oak-solidity/src/lexer/mod.rs: run", "examples/oak-sql/src/lexer/mod.rs: run", "examples/oak-swift/src/lexer/mod.rs: run", "examples/oak-tailwind/src/lexer/mod.rs: run", "examples/oak-tex/src/lexer/mod.rs: run", "examples/oak-toml/src/lexer/mod.rs: run", "examples/oak-twig/src/lexer/mod.rs: run", "examples/oak-typescript/src/lexer/mod.rs: run", "examples/oak-vala/src/lexer/mod.rs: run", "examples/oak-verilog/src/lexer/mod.rs: run", "examples/oak-vhdl/src/lexer/mod.rs: run", "examples/oak-vlang/src/lexer/mod.rs: run", "examples/oak-voml/src/lexer/mod.rs: run", "examples/oak-wat/src/lexer/mod.rs: run", "examples/oak-wolfram/src/lexer/mod.rs: run", "examples/oak-c/src/lexer/mod.rs: run", "examples/oak-cpp/src/lexer/mod.rs: run", "examples/oak-lua/src/lexer/mod.rs: run", "examples/oak-zig/src/lexer/mod.rs: run", "examples/oak-nginx/src/lexer/mod.rs: run", "examples/oak-prolog/src/lexer/mod.rs: run", "examples/oak-wgsl/src/lexer/mod.rs: run", "examples/oak-wit-component/src/lexer/mod.rs: run", "examples/oak-django/src/lexer/mod.rs: run", "examples/oak-julia/src/lexer/mod.rs: run"]}
{"id": "C88", "title": "Tokens of example lexers are pieces of the text", "statement": "Each token of an example lexer begins and ends between two characters of the text, has at least one character, and ends before the next begins.", "quantifier": "71 example lexers; all texts and sources", "why_tests_cant": "a cut inside a character needs a character of more than one byte at just the place where the lexer advances by a fixed number of bytes", "anchors": ["projects/oak-core/src/lexer/mod.rs: LexerState::advance, advance_if, add_token", "examples/oak-actionscript/src/lexer/mod.rs: run", "examples/oak-ada/src/lexer/mod.rs: run", "examples/oak-apl/src/lexer/mod.rs: run", "examples/oak-ascii-doc/src/lexer/mod.rs: run", "examples/oak-bat/src/lexer/mod.rs: run", "examples/oak-clojure/src/lexer/mod.rs: run", "examples/oak-cmd/src/lexer/mod.rs: run", "examples/oak-coq/src/lexer/mod.rs: run", "examples/oak-crystal/src/lexer/mod.rs: run", "examples/oak-csharp/src/lexer/mod.rs: run", "examples/oak-css/src/lexer/mod.rs: run", "examples/oak-d/src/lexer/mod.rs: run", "examples/oak-dart/src/lexer/mod.rs: run", "examples/oak-delphi/src/lexer/mod.rs: run", "examples/oak-dhall/src/lexer/mod.rs: run", "examples/oak-dockerfile/src/lexer/mod.rs: run", "examples/oak-elm/src/lexer/mod.rs: run", "examples/oak-fortran/src/lexer/mod.rs: run", "examples/oak-go/src/lexer/mod.rs: run", "examples/oak-graphql/src/lexer/mod.rs: run", "examples/oak-haskell/src/lexer/mod.rs: run", "examples/oak-hlsl/src/lexer/mod.rs: run", "examples/oak-idl/src/lexer/mod.rs: run", "examples/oak-j/src/lexer/mod.rs: run", "examples/oak-jasm/src/lexer/mod.rs: run", "examples/oak-jasmin/src/lexer/mod.rs: run", "examples/oak-java/src/lexer/mod.rs: run", "examples/oak-javadoc/src/lexer/mod.rs: run", "examples/oak-kotlin/src/lexer/mod.rs: run", "examples/oak-lean/src/lexer/mod.rs: run", "examples/oak-matlab/src/lexer/mod.rs: run", "examples/oak-mermaid/src/lexer/mod.rs: run", "examples/oak-msil/src/lexer/mod.rs: run", "examples/oak-nim/src/lexer/mod.rs: run", "examples/oak-nix/src/lexer/mod.rs: run", "examples/oak-objective-c/src/lexer/mod.rs: run", "examples/oak-ocaml/src/lexer/mod.rs: run", "examples/oak-org-mode/src/lexer/mod.rs: run", "examples/oak-pascal/src/lexer/mod.rs: run", "examples/oak-perl/src/lexer/mod.rs: run", "examples/oak-php/src/lexer/mod.rs: run", "examples/oak-powershell/src/lexer/mod.rs: run", "examples/oak-protobuf/src/lexer/mod.rs: run", "examples/oak-purescript/src/lexer/mod.rs: run", "examples/oak-rbq/src/lexer/mod.rs: run", "examples/oak-smalltalk/src/lexer/mod.rs: run", "examples/oak-solidity/src/lexer/mod.rs: run", "examples/oak-sql/src/lexer/mod.rs: run", "examples/oak-swift/src/lexer/mod.rs: run", "examples/oak-tailwind/src/lexer/mod.rs: run", "examples/oak-tex/src/lexer/mod.rs: run", "examples/oak-toml/src/lexer/mod.rs: run", "examples/oak-twig/src/lexer/mod.rs: run", "examples/oak-typescript/src/lexer/mod.rs: run", "examples/oak-vala/src/lexer/mod.rs: run", "examples/oak-verilog/src/lexer/mod.rs: run", "examples/oak-vhdl/src/lexer/mod.rs: run", "examples/oak-vlang/src/lexer/mod.rs: run", "examples/oak-voml/src/lexer/mod.rs: run", "examples/oak-wat/src/lexer/mod.rs: run", "examples/oak-wolfram/src/lexer/mod.rs: run", "examples/oak-c/src/lexer/mod.rs: run", "examples/oak-cpp/src/lexer/mod.rs: run", "examples/oak-lua/src/lexer/mod.rs: run", "examples/oak-zig/src/lexer/mod.rs: run", "examples/oak-nginx/src/lexer/mod.rs: run", "examples/oak-prolog/src/lexer/mod.rs: run", "examples/oak-wgsl/src/lexer/mod.rs: run", "examples/oak-wit-component/src/lexer/mod.rs: run", "examples/oak-django/src/lexer/mod.rs: run", "examples/oak-julia/src/lexer/mod.rs: run"]}
{"id": "C89", "title": "The tokens of example lexers are the text", "statement": "The texts of the tokens of an example lexer, one after the other, are the text that was lexed: nothing is left out and nothing is there twice.", "quantifier": "71 example lexers; all texts and sources", "why_tests_cant": "a gap shows only for a character that no rule of the lexer takes, after any text", "anchors": ["projects/oak-core/src/lexer/mod.rs: LexerState::advance, advance_if, add_token", "examples/oak-actionscript/src/lexer/mod.rs: run", "examples/oak-ada/src/lexer/mod.rs: run", "examples/oak-apl/src/lexer/mod.rs: run", "examples/oak-ascii-doc/src/lexer/mod.rs: run", "examples/oak-bat/src/lexer/mod.rs: run", "examples/oak-clojure/src/lexer/mod.rs: run", "examples/oak-cmd/src/lexer/mod.rs: run", "examples/oak-coq/src/lexer/mod.rs: run", "examples/oak-crystal/src/lexer/mod.rs: run", "examples/oak-csharp/src/lexer/mod.rs: run", "examples/oak-css/src/lexer/mod.rs: run", "examples/oak-d/src/lexer/mod.rs: run", "examples/oak-dart/src/lexer/mod.rs: run", "examples/oak-delphi/src/lexer/mod.rs: run", "examples/oak-dhall/src/lexer/mod.rs: run", "examples/oak-dockerfile/src/lexer/mod.rs: run", "examples/oak-elm/src/lexer/mod.rs: run", "examples/oak-fortran/src/lexer/mod.rs: run", "examples/oak-go/src/lexer/mod.rs: run", "examples/oak-graphql/src/lexer/mod.rs: run", "examples/oak-haskell/src/lexer/mod.rs: run", "examples/oak-hlsl/src/lexer/mod.rs: run", "examples/oak-idl/src/lexer/mod.rs: run", "examples/oak-j/src/lexer/mod.rs: run", "examples/oak-jasm/src/lexer/mod.rs: run", "examples/oak-jasmin/src/lexer/mod.rs: run", "examples/oak-java/src/lexer/mod.rs: run", "examples/oak-javadoc/src/lexer/mod.rs: run", "examples/oak-kotlin/src/lexer/mod.rs: run", "examples/oak-lean/src/lexer/mod.rs: run", "examples/oak-matlab/src/lexer/mod.rs: run", "examples/oak-mermaid/src/lexer/mod.rs: run", "examples/oak-msil/src/lexer/mod.rs: run", "examples/oak-nim/src/lexer/mod.rs: run", "examples/oak-nix/src/lexer/mod.rs: run", "examples/oak-objective-c/src/lexer/mod.rs: run", "examples/oak-ocaml/src/lexer/mod.rs: run", "examples/oak-org-mode/src/lexer/mod.rs: run", "examples/oak-pascal/src/lexer/mod.rs: run", "examples/oak-perl/src/lexer/mod.rs: run", "examples/oak-php/src/lexer/mod.rs: run", "examples/oak-powershell/src/lexer/mod.rs: run", "examples/oak-protobuf/src/lexer/mod.rs: run", "examples/oak-purescript/src/lexer/mod.rs: run", "examples/oak-rbq/src/lexer/mod.rs: run", "examples/oak-smalltalk/src/lexer/mod.rs: run", "examples/oak-solidity/src/lexer/mod.rs: run", "examples/oak-sql/src/lexer/mod.rs: run", "examples/oak-swift/src/lexer/mod.rs: run", "examples/oak-tailwind/src/lexer/mod.rs: run", "examples/oak-tex/src/lexer/mod.rs: run", "examples/oak-toml/src/lexer/mod.rs: run", "examples/oak-twig/src/lexer/mod.rs: run", "examples/oak-typescript/src/lexer/mod.rs: run", "examples/oak-vala/src/lexer/mod.rs: run", "examples/oak-verilog/src/lexer/mod.rs: run", "examples/oak-vhdl/src/lexer/mod.rs: run", "examples/oak-vlang/src/lexer/mod.rs: run", "examples/oak-voml/src/lexer/mod.rs: run", "examples/oak-wat/src/lexer/mod.rs: run", "examples/oak-wolfram/src/lexer/mod.rs: run", "examples/oak-c/src/lexer/mod.rs: run", "examples/oak-cpp/src/lexer/mod.rs: run", "examples/oak-lua/src/lexer/mod.rs: run", "examples/oak-zig/src/lexer/mod.rs: run", "examples/oak-nginx/src/lexer/mod.rs: run", "examples/oak-prolog/src/lexer/mod.rs: run", "examples/oak-wgsl/src/lexer/mod.rs: run", "examples/oak-wit-component/src/lexer/mod.rs: run", "examples/oak-django/src/lexer/mod.rs: run", "examples/oak-julia/src/lexer/mod.rs: run"]}
{"id": "C90", "title": "Lexing anew gives the tokens of the new text", "statement": "`lex` with a cache that holds the tokens of an earlier text, and with the edits made since, answers the tokens that it answers for the new text without a cache.", "quantifier": "19 example lexers that take the tokens of the cache into account; all texts, sources, edits and caches", "why_tests_cant": "the answer depends on the history: one needs the pair of an earlier text and a new one for which the reused tokens are wrong", "anchors": ["projects/oak-core/src/lexer/mod.rs: LexerState::new_with_cache", "examples/oak-ada/src/lexer/mod.rs: lex", "examples/oak-apl/src/lexer/mod.rs: lex", "examples/oak-bat/src/lexer/mod.rs: lex", "examples/oak-cmd/src/lexer/mod.rs: lex", "examples/oak-dart/src/lexer/mod.rs: lex", "examples/oak-delphi/src/lexer/mod.rs: lex", "examples/oak-elm/src/lexer/mod.rs: lex", "examples/oak-go/src/lexer/mod.rs: lex", "examples/oak-j/src/lexer/mod.rs: lex", "examples/oak-msil/src/lexer/mod.rs: lex", "examples/oak-ocaml/src/lexer/mod.rs: lex", "examples/oak-php/src/lexer/mod.rs: lex", "examples/oak-purescript/src/lexer/mod.rs: lex", "examples/oak-smalltalk/src/lexer/mod.rs: lex", "examples/oak-tex/src/lexer/mod.rs: lex", "examples/oak-typescript/src/lexer/mod.rs: lex", "examples/oak-vhdl/src/lexer/mod.rs: lex", "examples/oak-vlang/src/lexer/mod.rs: lex", "examples/oak-voml/src/lexer/mod.rs: lex"]}
{"id": "C91", "title": "The tree of a text holds the text", "statement": "Parsing a text, from the lexer to the tree, gives a tree; the root is as long as the text, and the leaves cut the text into pieces from the first byte to the last, each between two characters.", "quantifier": "13 example languages with the lexer and the parser both modelled; all texts shorter than 2^32 bytes, all sources, all kinds the lexer may give the tokens", "why_tests_cant": "a byte that is in no leaf shows only for the texts that drive the lexer or the parser past it; editors and printers that walk the tree rely on it for every text", "anchors": ["projects/oak-core/src/parser/mod.rs: parse_with_lexer", "examples/oak-matlab/src/lexer/mod.rs: lex, run", "examples/oak-protobuf/src/lexer/mod.rs: lex, run", "examples/oak-wat/src/lexer/mod.rs: lex, run", "examples/oak-wolfram/src/lexer/mod.rs: lex, run", "examples/oak-objective-c/src/lexer/mod.rs: lex, run", "examples/oak-org-mode/src/lexer/mod.rs: lex, run", "examples/oak-perl/src/lexer/mod.rs: lex, run", "examples/oak-powershell/src/lexer/mod.rs: lex, run", "examples/oak-bat/src/lexer/mod.rs: lex, run", "examples/oak-cmd/src/lexer/mod.rs: lex, run", "examples/oak-mermaid/src/lexer/mod.rs: lex, run", "examples/oak-pascal/src/lexer/mod.rs: lex, run", "examples/oak-smalltalk/src/lexer/mod.rs: lex, run", "examples/oak-matlab/src/parser/mod.rs: parse", "examples/oak-protobuf/src/parser/mod.rs: parse", "examples/oak-wat/src/parser/mod.rs: parse", "examples/oak-wolfram/src/parser/mod.rs: parse", "examples/oak-objective-c/src/parser/mod.rs: parse", "examples/oak-org-mode/src/parser/mod.rs: parse", "examples/oak-perl/src/parser/mod.rs: parse", "examples/oak-powershell/src/parser/mod.rs: parse", "examples/oak-bat/src/parser/mod.rs: parse", "examples/oak-cmd/src/parser/mod.rs: parse", "examples/oak-mermaid/src/parser/mod.rs: parse", "examples/oak-pascal/src/parser/mod.rs: parse", "examples/oak-smalltalk/src/parser/mod.rs: parse"]}
{"id": "C92", "title": "Operators and numbers are tokens", "statement": "Each operator, separator and number notation of a language is one token, from its first character to its last, wherever it stands among other such words with blanks between them; the blanks are the other tokens.", "quantifier": "53 example lexers with the words of their language references; all sequences of words, all sources", "why_tests_cant": "a text has words in an order of its own; whether a word is cut does not depend on the texts a test picks only if no register, mark or mode of the lexer outlives the word before it", "anchors": ["examples/oak-java/src/lexer/mod.rs: run", "examples/oak-go/src/lexer/mod.rs: run", "examples/oak-kotlin/src/lexer/mod.rs: run", "examples/oak-php/src/lexer/mod.rs: run", "examples/oak-typescript/src/lexer/mod.rs: run", "examples/oak-csharp/src/lexer/mod.rs: run", "examples/oak-swift/src/lexer/mod.rs: run", "examples/oak-dart/src/lexer/mod.rs: run", "examples/oak-d/src/lexer/mod.rs: run", "examples/oak-solidity/src/lexer/mod.rs: run", "examples/oak-vala/src/lexer/mod.rs: run", "examples/oak-hlsl/src/lexer/mod.rs: run", "examples/oak-objective-c/src/lexer/mod.rs: run", "examples/oak-pascal/src/lexer/mod.rs: run", "examples/oak-delphi/src/lexer/mod.rs: run", "examples/oak-ada/src/lexer/mod.rs: run", "examples/oak-vhdl/src/lexer/mod.rs: run", "examples/oak-fortran/src/lexer/mod.rs: run", "examples/oak-ocaml/src/lexer/mod.rs: run", "examples/oak-elm/src/lexer/mod.rs: run", "examples/oak-perl/src/lexer/mod.rs: run", "examples/oak-powershell/src/lexer/mod.rs: run", "examples/oak-smalltalk/src/lexer/mod.rs: run", "examples/oak-sql/src/lexer/mod.rs: run", "examples/oak-verilog/src/lexer/mod.rs: run", "examples/oak-wolfram/src/lexer/mod.rs: run", "examples/oak-nim/src/lexer/mod.rs: run", "examples/oak-vlang/src/lexer/mod.rs: run", "examples/oak-lean/src/lexer/mod.rs: run", "examples/oak-idl/src/lexer/mod.rs: run", "examples/oak-graphql/src/lexer/mod.rs: run", "examples/oak-protobuf/src/lexer/mod.rs: run", "examples/oak-wat/src/lexer/mod.rs: run", "examples/oak-haskell/src/lexer/mod.rs: run", "examples/oak-coq/src/lexer/mod.rs: run", "examples/oak-purescript/src/lexer/mod.rs: run", "examples/oak-crystal/src/lexer/mod.rs: run", "examples/oak-nix/src/lexer/mod.rs: run", "examples/oak-css/src/lexer/mod.rs: run", "examples/oak-dhall/src/lexer/mod.rs: run", "examples/oak-tex/src/lexer/mod.rs: run", "examples/oak-matlab/src/lexer/mod.rs: run", "examples/oak-actionscript/src/lexer/mod.rs: run", "examples/oak-j/src/lexer/mod.rs: run", "examples/oak-c/src/lexer/mod.rs: run", "examples/oak-cpp/src/lexer/mod.rs: run", "examples/oak-lua/src/lexer/mod.rs: run", "examples/oak-zig/src/lexer/mod.rs: run", "examples/oak-prolog/src/lexer/mod.rs: run", "examples/oak-wgsl/src/lexer/mod.rs: run", "examples/oak-julia/src/lexer/mod.rs: run", "examples/oak-nginx/src/lexer/mod.rs: run", "examples/oak-wit-component/src/lexer/mod.rs: run"]}
{"id": "C93", "title": "Code without blanks falls into its elements", "statement": "A phrase written without blanks (`a+1`, `f(a,b)`, `a<=b`, `1..2`, a quote, a comment) becomes exactly the lexical elements it is made of by the reference of the language, wherever the phrase stands among others on lines of their own; the line breaks are the other tokens.", "quantifier": "53 example lexers with phrases of their languages; all sequences of phrases, all sources", "why_tests_cant": "longest match, signs after numbers and quotes depend on what stands next to an element; whether a phrase is cut the same way at every place of every text needs all texts", "anchors": ["examples/oak-java/src/lexer/mod.rs: run", "examples/oak-csharp/src/lexer/mod.rs: run", "examples/oak-dart/src/lexer/mod.rs: run", "examples/oak-d/src/lexer/mod.rs: run", "examples/oak-solidity/src/lexer/mod.rs: run", "examples/oak-vala/src/lexer/mod.rs: run", "examples/oak-hlsl/src/lexer/mod.rs: run", "examples/oak-objective-c/src/lexer/mod.rs: run", "examples/oak-actionscript/src/lexer/mod.rs: run", "examples/oak-c/src/lexer/mod.rs: run", "examples/oak-cpp/src/lexer/mod.rs: run", "examples/oak-typescript/src/lexer/mod.rs: run", "examples/oak-php/src/lexer/mod.rs: run", "examples/oak-go/src/lexer/mod.rs: run", "examples/oak-vlang/src/lexer/mod.rs: run", "examples/oak-kotlin/src/lexer/mod.rs: run", "examples/oak-zig/src/lexer/mod.rs: run", "examples/oak-wgsl/src/lexer/mod.rs: run", "examples/oak-swift/src/lexer/mod.rs: run", "examples/oak-pascal/src/lexer/mod.rs: run", "examples/oak-delphi/src/lexer/mod.rs: run", "examples/oak-ada/src/lexer/mod.rs: run", "examples/oak-vhdl/src/lexer/mod.rs: run", "examples/oak-fortran/src/lexer/mod.rs: run", "examples/oak-ocaml/src/lexer/mod.rs: run", "examples/oak-elm/src/lexer/mod.rs: run", "examples/oak-perl/src/lexer/mod.rs: run", "examples/oak-sql/src/lexer/mod.rs: run", "examples/oak-verilog/src/lexer/mod.rs: run", "examples/oak-wolfram/src/lexer/mod.rs: run", "examples/oak-nim/src/lexer/mod.rs: run", "examples/oak-lean/src/lexer/mod.rs: run", "examples/oak-haskell/src/lexer/mod.rs: run", "examples/oak-coq/src/lexer/mod.rs: run", "examples/oak-purescript/src/lexer/mod.rs: run", "examples/oak-crystal/src/lexer/mod.rs: run", "examples/oak-matlab/src/lexer/mod.rs: run", "examples/oak-lua/src/lexer/mod.rs: run", "examples/oak-prolog/src/lexer/mod.rs: run", "examples/oak-julia/src/lexer/mod.rs: run", "examples/oak-dhall/src/lexer/mod.rs: run", "examples/oak-nix/src/lexer/mod.rs: run", "examples/oak-smalltalk/src/lexer/mod.rs: run", "examples/oak-powershell/src/lexer/mod.rs: run", "examples/oak-graphql/src/lexer/mod.rs: run", "examples/oak-protobuf/src/lexer/mod.rs: run", "examples/oak-css/src/lexer/mod.rs: run", "examples/oak-wat/src/lexer/mod.rs: run", "examples/oak-idl/src/lexer/mod.rs: run", "examples/oak-nginx/src/lexer/mod.rs: run", "examples/oak-wit-component/src/lexer/mod.rs: run", "examples/oak-tex/src/lexer/mod.rs: run", "examples/oak-j/src/lexer/mod.rs: run"]}
{"id": "C94", "title": "Names, numbers, quotes and comments of any length are one token", "statement": "A name, a number, a quote or a comment of the language, however long and whatever its characters, is exactly one token of the lexer, among other words of the language with blanks between them; the operators, separators and blanks are the other tokens, and nothing is left over.", "quantifier": "53 example lexers with 545 forms of words; all words of the forms, all sequences of words, all sources", "why_tests_cant": "there are infinitely many names, numbers, quotes and comments; tests try short ones, and a lexer may stop at a certain length, character or first letter", "anchors": ["examples/oak-java/src/lexer/mod.rs: run", "examples/oak-csharp/src/lexer/mod.rs: run", "examples/oak-dart/src/lexer/mod.rs: run", "examples/oak-d/src/lexer/mod.rs: run", "examples/oak-solidity/src/lexer/mod.rs: run", "examples/oak-vala/src/lexer/mod.rs: run", "examples/oak-hlsl/src/lexer/mod.rs: run", "examples/oak-objective-c/src/lexer/mod.rs: run", "examples/oak-actionscript/src/lexer/mod.rs: run", "examples/oak-c/src/lexer/mod.rs: run", "examples/oak-cpp/src/lexer/mod.rs: run", "examples/oak-typescript/src/lexer/mod.rs: run", "examples/oak-php/src/lexer/mod.rs: run", "examples/oak-go/src/lexer/mod.rs: run", "examples/oak-vlang/src/lexer/mod.rs: run", "examples/oak-kotlin/src/lexer/mod.rs: run", "examples/oak-zig/src/lexer/mod.rs: run", "examples/oak-wgsl/src/lexer/mod.rs: run", "examples/oak-swift/src/lexer/mod.rs: run", "examples/oak-pascal/src/lexer/mod.rs: run", "examples/oak-delphi/src/lexer/mod.rs: run", "examples/oak-ada/src/lexer/mod.rs: run", "examples/oak-vhdl/src/lexer/mod.rs: run", "examples/oak-fortran/src/lexer/mod.rs: run", "examples/oak-ocaml/src/lexer/mod.rs: run", "examples/oak-elm/src/lexer/mod.rs: run", "examples/oak-perl/src/lexer/mod.rs: run", "examples/oak-sql/src/lexer/mod.rs: run", "examples/oak-verilog/src/lexer/mod.rs: run", "examples/oak-wolfram/src/lexer/mod.rs: run", "examples/oak-nim/src/lexer/mod.rs: run", "examples/oak-lean/src/lexer/mod.rs: run", "examples/oak-haskell/src/lexer/mod.rs: run", "examples/oak-coq/src/lexer/mod.rs: run", "examples/oak-purescript/src/lexer/mod.rs: run", "examples/oak-crystal/src/lexer/mod.rs: run", "examples/oak-matlab/src/lexer/mod.rs: run", "examples/oak-lua/src/lexer/mod.rs: run", "examples/oak-prolog/src/lexer/mod.rs: run", "examples/oak-julia/src/lexer/mod.rs: run", "examples/oak-dhall/src/lexer/mod.rs: run", "examples/oak-nix/src/lexer/mod.rs: run", "examples/oak-smalltalk/src/lexer/mod.rs: run", "examples/oak-powershell/src/lexer/mod.rs: run", "examples/oak-graphql/src/lexer/mod.rs: run", "examples/oak-protobuf/src/lexer/mod.rs: run", "examples/oak-css/src/lexer/mod.rs: run", "examples/oak-wat/src/lexer/mod.rs: run", "examples/oak-idl/src/lexer/mod.rs: run", "examples/oak-nginx/src/lexer/mod.rs: run", "examples/oak-wit-component/src/lexer/mod.rs: run", "examples/oak-tex/src/lexer/mod.rs: run", "examples/oak-j/src/lexer/mod.rs: run"]}
{"id": "C95", "title": "Words ended by the sign after them", "statement": "A name, a number or a quote of any length ends right where a bracket, separator or operator begins, and a sign or operator ends where the next name, number, quote or opening bracket begins: code without blanks has exactly its words as tokens.", "quantifier": "53 example lexers with 986 signs and 608 operators of more characters; all names, numbers and quotes of the forms, all sequences the rules allow, all sources", "why_tests_cant": "whether a word ends depends on the character after it; there are infinitely many words and orders, and tests mostly have blanks around the words", "anchors": ["examples/oak-java/src/lexer/mod.rs: run", "examples/oak-csharp/src/lexer/mod.rs: run", "examples/oak-dart/src/lexer/mod.rs: run", "examples/oak-d/src/lexer/mod.rs: run", "examples/oak-solidity/src/lexer/mod.rs: run", "examples/oak-vala/src/lexer/mod.rs: run", "examples/oak-hlsl/src/lexer/mod.rs: run", "examples/oak-objective-c/src/lexer/mod.rs: run", "examples/oak-actionscript/src/lexer/mod.rs: run", "examples/oak-c/src/lexer/mod.rs: run", "examples/oak-cpp/src/lexer/mod.rs: run", "examples/oak-typescript/src/lexer/mod.rs: run", "examples/oak-php/src/lexer/mod.rs: run", "examples/oak-go/src/lexer/mod.rs: run", "examples/oak-vlang/src/lexer/mod.rs: run", "examples/oak-kotlin/src/lexer/mod.rs: run", "examples/oak-zig/src/lexer/mod.rs: run", "examples/oak-wgsl/src/lexer/mod.rs: run", "examples/oak-swift/src/lexer/mod.rs: run", "examples/oak-pascal/src/lexer/mod.rs: run", "examples/oak-delphi/src/lexer/mod.rs: run", "examples/oak-ada/src/lexer/mod.rs: run", "examples/oak-vhdl/src/lexer/mod.rs: run", "examples/oak-fortran/src/lexer/mod.rs: run", "examples/oak-ocaml/src/lexer/mod.rs: run", "examples/oak-elm/src/lexer/mod.rs: run", "examples/oak-perl/src/lexer/mod.rs: run", "examples/oak-sql/src/lexer/mod.rs: run", "examples/oak-verilog/src/lexer/mod.rs: run", "examples/oak-wolfram/src/lexer/mod.rs: run", "examples/oak-nim/src/lexer/mod.rs: run", "examples/oak-lean/src/lexer/mod.rs: run", "examples/oak-haskell/src/lexer/mod.rs: run", "examples/oak-coq/src/lexer/mod.rs: run", "examples/oak-purescript/src/lexer/mod.rs: run", "examples/oak-crystal/src/lexer/mod.rs: run", "examples/oak-matlab/src/lexer/mod.rs: run", "examples/oak-lua/src/lexer/mod.rs: run", "examples/oak-prolog/src/lexer/mod.rs: run", "examples/oak-julia/src/lexer/mod.rs: run", "examples/oak-dhall/src/lexer/mod.rs: run", "examples/oak-nix/src/lexer/mod.rs: run", "examples/oak-smalltalk/src/lexer/mod.rs: run", "examples/oak-powershell/src/lexer/mod.rs: run", "examples/oak-graphql/src/lexer/mod.rs: run", "examples/oak-protobuf/src/lexer/mod.rs: run", "examples/oak-css/src/lexer/mod.rs: run", "examples/oak-wat/src/lexer/mod.rs: run", "examples/oak-idl/src/lexer/mod.rs: run", "examples/oak-nginx/src/lexer/mod.rs: run", "examples/oak-wit-component/src/lexer/mod.rs: run", "examples/oak-tex/src/lexer/mod.rs: run", "examples/oak-j/src/lexer/mod.rs: run"]}
