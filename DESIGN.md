# Formal model of oaks (ygg-lang/oaks) in Lean 4

## Trusted base

* Lean 4.33.0's kernel, and the axioms `propext`, `Classical.choice`, `Quot.sound`
  (nothing else; no `sorry`, no `native_decide`, no `bv_decide`, no added axiom).
* The reading of the Rust source: each definition of the model cites the file and lines it
  follows. The model is hand-written; no tool extracts it from the Rust code.
* The meaning of Rust's standard library as modelled in `Verif/Base`
  (`str` as a list of Unicode scalar values with UTF-8 byte offsets, `str::get`, `find`,
  `binary_search`, stable `sort_by_key`, `HashMap`/`DashMap` as finite maps) and, where the comment of a
  model definition says "standard library", in `Verif/Model`.

### Axioms per theorem

<!-- axioms -->
Generated with `#print axioms` for every theorem of MANIFEST.json.

* no axiom (2 theorems): C22_success, C46_total.
* `propext` (24 theorems): C14_determined, C21_reuse_kinds_differ, C22_reuse_lost, C25_leading_trivia, C26_leaves, C26_none_chains, C26_overflow, C27_owned_partial, C27_last_root_after_one_failure, C30_overflow_panics, C34_blank_indent, C36_trimmed, C39_routines_agree, C43_all_elements, C45_determined, C45_crash, C50_one_cut, C51_queries, C53_memory_finds_nothing, C58_questions_partial, C60_initialize, C80_source_partial, C80_source_last, C80_source_eof.
* `Quot.sound`, `propext` (60 theorems): C01_find_first_of_4_none, C01_skip_until, C04_text_from, C13_determined, C15_unchanged, C16_len, C16_constructible, C16_spans_tile, C16_child_at, C16_children, C18_offsets, C18_moves, C18_step_next, C19_true_spans, C19_visitor, C20_clone, C20_provenance_partial, C20_provenance_lost, C23_lookahead, C30_read_back, C33_last_content, C33_one_to_one, C33_stable, C33_never_reassigned, C33_removed, C33_wraps, C35_flat, C35_column, C35_true_width, C35_breaks, C37_refuses, C37_no_clash, C37_add_rules, C37_first_decides, C38_json_escape, C40_unique, C47_neighbors, C52_contains, C52_innermost_partial, C52_order_partial, C52_register, C56_builtin_rules, C59_broken_partial, C60_candidates, C60_first_partial, C69_typed, C69_integer_fields, C69_long_arrays, C70_questions, C78_place, C79_lexer_sees, C82_r_endless, C82_nix_endless, C82_tcl_endless, C83_kinds_lost, C84_c_overflow, C85_copies, C90_again_partial, C90_deleted, C94_wgsl_witness.
* `Classical.choice`, `Quot.sound`, `propext` (407 theorems): all theorems of the manifest not listed above.
<!-- /axioms -->

## Layout

* `lean/Verif/Base`  – Rust standard-library notions used by the code.
* `lean/Verif/Model` – the code, function by function, with citations.
* `lean/Verif/Spec`  – small independent specifications, not mentioning the model's helpers.
* `lean/Verif/Proofs`– lemmas.
* `lean/Verif/Props` – the property theorems, each followed by non-vacuity examples.

## Modelling conventions

* Rust `&str`/`String` = `List Char`; byte offsets are sums of `Char.utf8Size`. `str::get(a..b)`
  is a partial function, `None` off character boundaries; slicing that would panic is an
  explicit error value.
* `usize` is `Nat` (overflow of 64-bit offsets is out of scope); `u32` lengths in the green tree
  are modelled with explicit truncation where the code truncates.
* Loops are structural or well-founded recursion; loops that may not terminate take fuel and the
  theorem says how much fuel suffices.

## Plan per property

* **C01 Vectorised byte scanners agree with a plain scan.** Model each scanner as the two-phase loop (32-lane block, first set bit of the mask; scalar tail) over `List UInt8`. Prove equal to `List.takeWhile`/`List.findIdx?` by strong induction on the remaining length.
* **C02 Buffers hold exactly the text put into them.** `chunkify` modelled with the backward search for a character boundary on byte offsets; `RopeBuffer.new`, `ChunkedBuffer.push` with their `starts` tables. Invariant: chunks concatenate to the text, none empty, starts are the prefix sums.
* **C03 Rope editing refines string editing over any history.** `splitAt`, `boundaryIndex`, `replaceRange` on the chunk table; refinement to the plain-string splice, induction over the edit history.
* **C04 Text extraction is the same for every source kind.** `textInChunks` against the byte-range specification `IsSlice`; refutation witnesses for out-of-range and non-boundary ranges, where the kinds differ.
* **C05 chunk_at locates the text at an offset and chunk-wise iteration covers the text once.** `chunkAt` for every source kind satisfies one law (`Lawful`); chunk-following loop proved to enumerate the text.
* **C06 Character and substring search do not depend on chunking.** `findChar`, `getCharAt`, `findStr` over any lawful source. `findStr` misses matches over three or more chunks: refutation witness plus `_partial` theorem.
* **C07 A batch of edits equals the simultaneous splice, and the reported range covers every change.** `applyEditsRange` (stable sort, delta accumulation, reverse application) against a simultaneous splice specification. Same-position replacement+insertion is order dependent: witness.
* **C08 Rope and string sources stay equivalent under the same edits.** Corollary of C03 and C07 over histories of batches.
* **C09 Reading a source with a cursor does not depend on chunking.** Cursor model over any lawful source; each routine equals the corresponding function on the remaining text; fuel-free statement via termination measure.
* **C10 Prefix tests work across chunk boundaries.** Accumulation loop of `starts_with` over any lawful source = `List.isPrefixOf`.
* **C11 Code emission never merges adjacent words.** `SourceBuffer.push` folded over any list of pushes against an independent joining specification.
* **C12 Tokens lie inside the source and scanning always progresses.** LexerState operations as a transition system over a lawful source; invariant by induction over operation lists.
* **C13 Comment scanning consumes exactly the comment.** `CommentConfig::scan` loop on the remaining text; specification by first occurrence / first balanced prefix.
* **C14 String-literal scanning stops at the first unescaped closing quote.** `StringConfig::scan` loop on the remaining text; specification: the consumed part is open·body·close with body escape-closed.
* **C15 Re-lexing after an edit keeps only tokens that are still valid.** `new_with_cache` as a function of cached tokens; positive theorem when the relex offset is below the new length; witness for the stale-token case.
* **C16 A node's length is the sum of its leaves.** Rose-tree model of green nodes (u32 lengths) and red spans; mutual induction.
* **C17 Offset lookup in the tree finds the leaf containing the offset.** `leaf_at_offset` on the rose tree, specification by the tiling list of leaf spans.
* **C18 Tree cursor offsets are right and stepping enumerates the tree in preorder.** Zipper-free model of the cursor with its explicit stack as in the code; reachable-state invariant and preorder theorem.
* **C19 Preorder iteration and visitors see every element once with its true span.** Stack loop of PreOrder against a recursive preorder specification.
* **C20 Promoting a node to another arena copies it faithfully.** `deep_clone_node` structural copy; metadata indices read through the new arena: witness of loss.
* **C21 Parsing is lossless when tokens are consumed through the tree-building operations.** Parser state as transition system, invariant `leaves(sink) = consumed tokens`; `advance` excluded (it drops tokens) and shown to break it.
* **C22 Backtracking restores the parser exactly.** Programs over parser operations as an inductive type; restore after any program that respects the start checkpoint.
* **C23 Lookahead over trivia returns the n-th significant token.** Loop of `peek_non_trivia_at` = filtered list indexing.
* **C24 Position mapping between old and new text is exact.** `map_new_to_old` fold against text agreement of the spliced text.
* **C25 Node reuse never puts a node over text it was not built from.** `try_reuse` soundness from C24 and the cursor invariant; witness for trees that do not start at offset 0.
* **C26 Operator precedence and associativity are respected.** PrattParser modelled on an abstract token list; shape theorem (well-bracketed by precedence) and uniqueness; precedence overflow at 255: witness.
* **C27 Parse sessions never hand out a tree whose memory was released.** Session as a transition system with arenas as generation numbers; witness of the dangling root and positive theorem for success-only histories.
* **C28 Arena allocations are aligned, in bounds and disjoint.** Arena as a transition system over addresses chosen by an arbitrary system allocator; disjointness invariant.
* **C29 Memory chunks have a single owner and the pool is bounded.** Global state of many arenas and the pool; invariant over all interleavings; leak witness.
* **C30 Provenance metadata can always be read back.** Metadata vector; history theorem.
* **C31 The line map records exactly the line starts.** `LineMap::from_source` chunk loop over any lawful source against newline positions.
* **C32 Offset and line/column conversion are inverse.** Binary search plus UTF-16 counting against prefix counting specification; round trip; column-past-end witness.
* **C33 The in-memory file system behaves like a map with stable identities.** Three maps and a counter as transition system; invariant over histories; interleavings of atomic critical sections.
* **C34 Pretty printing never loses or reorders content.** Document rose tree and printer state; induction on documents.
* **C35 Groups stay flat exactly when they fit.** `check_width` against the flat width specification; group theorem.
* **C36 Printed lines carry the configured indentation and no trailing blanks, and the final newline rule holds.** Line-structured view of the output; induction on documents.
* **C37 Formatting rules apply in priority order and conflicts are refused.** `add_rule` with stable sort; history theorem.
* **C38 JSON string escaping is exact.** `json_escape` against a JSON string decoder written from the JSON grammar.
* **C39 HTML escaping is exact and injection-free.** `html_escape` (single pass and sequential replace) against an entity decoder; witness for the unescaped diagnostic code and style colour.
* **C40 Theme lookup returns the most specific matching scope.** `resolve_style(s)` loops against longest-prefix specification.
* **C41 Highlighting covers the source exactly.** Visitor walk on the red tree model.
* **C42 Reference search finds exactly the matching names.** Visitor walk on the red tree model.
* **C43 Document symbols list every definition with its container.** Recursive collector against an independent preorder specification.
* **C44 The workspace symbol index reflects the files currently indexed.** Two maps as a transition system; witness of lost symbol; positive theorem when files do not share names.
* **C45 Line editing in the REPL follows the keys typed.** LineBuffer on byte-indexed strings with explicit panics; ASCII theorem and multi-byte witness.
* **C46 Diagnostic locations are inside the source and point at the right line and column.** Clamping arithmetic and column counting on the Str model.
* **C47 Graph queries are correct.** Graph functions over an arbitrary node enumeration order.
* **C48 The JSON lexer accounts for every byte.** JSON lexer loop; witness for gaps; positive theorem on inputs without the two faulty cases.
* **C49 Building a JSON document returns the value written.** Lexer, parser, builder on the text model; witness for leading blanks and quotes; positive round trip for escape-free values.
* **C50 CSV lexing and parsing account for every byte and always finish.** CSV lexer and record loop; tiling, termination and field specification.
* **C51 Comment collection queries and ordering are exact.** Filters and stable sort on lists.
* **C52 The workspace root of a file is its innermost folder.** max-by-length over filtered folders, any order.
* **C53 Listing a workspace returns every file below the root once.** Stack DFS over a finite directory tree; MemoryVfs witness.
* **C54 The JSON parser is silent exactly on values.** Derivations of the JSON grammar over token kinds; the parser as a deterministic function of the tokens; both directions.
* **C55 Comments are inserted once, at their place.** The insertion loops against an independent filter relation; witnesses for repeated printing.
* **C56 Formatting keeps the program text.** Rules as functions of node, context and a continuation for the children; induction over the tree for any rules that keep content; exact document for the built-in rules.
* **C57 Formatting formatted text changes nothing.** Fixed point for trees on which no built-in rule acts; the comma rule grows the text for ever: theorem for every number of spaces.
* **C58 Rules are told the right context.** A rule that prints any function of its context, against a recursion over the tree that carries the path.
* **C59 Statements go on their own lines.** Count of line breaks in a container that does not fit; witness for statements outside a broken group.
* **C60 An import resolves to the first existing candidate.** File system and URL conversions as arbitrary functions; first existing candidate of the list; three witnesses.
* **C61 Go to definition resolves the reference under the cursor.** Through the offset lookup of C17 for direct children of the root; witnesses for nested references and files that were not indexed.
* **C62 The MCP server answers every request once, in order, with its id.** The line loop over the whole input with reader and writer as parameters; lines, trimming and request objects specified independently.
* **C63 The tools the MCP server announces can be called and answer what the service finds.** hover and semantic_search exactly; theorems that five tools always answer the empty list and two announced tools are unknown.
* **C64 Rectangles and transformations are exact.** Rectangles specified as sets of points (`Covers`, `Around`, `Smallest`); linear arithmetic over the rationals.
* **C65 Tree layouts.** Trees specified as the list of their items in preorder; ids distinct; invariant of the sweep per level (layered) and of the room a subtree takes (compact).
* **C66 Bounds.** Smallest rectangle specified as a set of points (C64); extremes unique, hence independent of the order.
* **C67 SVG.** A small XML reader is the specification (`picture`); the written text is read back to shapes.
* **C68 Hierarchical layout.** Forests by a rank; the multiset of ids in the built hierarchy is counted by induction on the rank; positions increase along the preorder.
* **C69 Values as JSON.** Types as shapes, typing of values as the specification; mutual induction on the shape; the text goes through C49.
* **C70 Files on disk.** A file system as a map from places to entries; what a URI names as a relation on its text; writing and removing as changes of that map; histories by induction.
* **C71 Chunks for the search.** The visitor of C19 with the collector's state; the elements of a tree that stands on its source stand on pieces of it.
* **C72 The tokens of XML.** The first piece of a text as a function of the text alone (`xmlPiece`), the cut into pieces by induction on what is left; each scanner is shown to take that piece or to leave the state alone.
* **C73 The elements of XML.** Documents as lists of items (elements and tokens outside of tags); the parser accepts exactly the token lists of items and the items are determined by their tokens (mutual induction on items); what is built is a function of the items and of the text, and is compared with the value of the document.
* **C74 Rust values as XML.** Types and values of C69; three kinds of places (whole, in a field, in an element of its own) with the types that are read there, mutual induction on types; the children of an element are grouped by name, which is undone for groups of distinct names.
* **C75 drawings of graphs.** Each loop adds a list of nodes with rectangles; what the drawing shows follows from that list alone. Grid: positions by quotient and remainder. Layers: the layers of C47, taken back from names to nodes. Forces: the maps of positions, velocities and forces have entries for exactly the nodes, so that no `unwrap` fails; a node moves once a round; for two nodes the difference of the positions stays a multiple of the first one. Cosine, sine and square root are parameters.
* **C76 TOML.** The lexer is written in the language of scanner programs (Model/Scan.lean), whose meaning on texts (`Scn.eval`) is proved once to agree with `LexerState` on every source (`Scn.lex_at`). Each kind of piece is then one symbolic evaluation of a turn of `run` (`Toml.token_turn`); every ASCII text begins with a piece, so by induction it is cut.
* **C77 parsers with one node.** The state between two groups (a token and the ignored tokens after it) is described by `PAt`; each turn of the loop consumes one group, with `bump` it pushes the token and its trivia, with `advance` the trivia only.
* **C78 regular expressions.** The lexer is a scanner program; a class or a repetition is one turn that adds many tokens, so the text is described by rows of pieces (`Rows RegexRow`). For the parser, `alternatives_at` says by mutual induction what `prefix` and the operator loop add to the sink; `expr_fine` is an invariant of every state (one node more at the end of the sink, the index moves, never out of fuel), from which the builder theorem follows: all it can accept is what `prefix` makes of one character. The lengths of nested repetitions satisfy `blow (n+1) = 2 * blow n + 5`, so thirty of them overflow.
* **C79 tests against files.** The files are a list in the order they are found, so the theorems hold for every order. Each test only touches the expected file of its own path and one with the old name (`Kept`), names of results are never tested, and different paths have different expected files (`expected_inj`); induction over the tested files gives `C79_settles` and `C79_check`. That `to_ast` determines exactly the outline of a tree is a parsing argument: the outline with its arities can be read back (`ast_outline`). `serde_json` is assumed to read what it wrote.
* **C80 errors.** The keys of the kinds are a prefix-free code, so the text tells the kind; behind the message the place is read from the right: the last colon, the last space. Errors of the file system are compared by their text, and `{:?}` of a path is taken to be injective.
* **C81 INI.** The parser is written in a small language of parser programs (`Model/Prs.lean`: the methods of `ParserState` one after another), for which `Proofs/Prs.lean` has a rule per method: from any tokens ahead the program ends, and what it went over, pushed and reported. Two passes over the grammar: what is gone over without an error is a document, and every document is gone over. The specification is a context-free grammar over the kinds of the tokens that are not blank.
* **C82, C83 hand-written parsers.** The functions of 38 example parsers are written as programs of a small language (`Model/Prog.lean`: the methods of `ParserState`, `if`, `while`, `break`, `continue`, `return`, `?`, calls; `Model/Hand/*.lean`: one definition per function). `Proofs/ProgCheck.lean` is a static analysis of programs (which kinds can be next, has a token been taken), proved sound against the meaning; `Proofs/ProgRun.lean`: a parser the analysis accepts ends on all token streams, by a measure of tokens left and a ranking of the functions. `Proofs/HandJudge.lean`: the kernel computes the analysis for 35 parsers. For the other three `Proofs/HandSpin.lean` shows token streams, with any tokens behind them, on which the loop turns for ever. The kinds in trees of parsers without `bump`: `Proofs/ProgKinds.lean`.
* **C84, C85 parsers with operator precedence.** 18 further example parsers are programs of the same language (`Model/HandPratt/*.lean`), with `PrattParser::parse` as a function of the least precedence. `Proofs/PrattJudge.lean`, `PrattJudge2.lean`: the kernel computes the analysis of `Proofs/ProgCheck.lean` for 15 of them with literal claims about each function. Parsers that push a node a second time (`push_child` of a node that already is in the tree) are analysed without the second push (`Proofs/ProgBare.lean`): the state apart from the tree is the same, so they end or fail on a length. `Proofs/ProgStill.lean`: a result does not change with more fuel. `Proofs/ProgCover.lean`: the tree with second pushes holds all leaves of the tree without them. `Proofs/ProgSim.lean`: symbolic execution of a program on token streams of which only the first kinds are known, proved sound; it shows the endless loops of Swift, Kotlin and Lua and the refusals of Mojo for all continuations.
* **C86 grouping of operators.** `Spec/OpTables.lean` has the levels of the binary operators of 16 languages as their references give them, by kinds of tokens, with the operators the parser does not know and the pairs it groups otherwise. `Spec/OpDraw.lean` draws a grouping as a tree. `Proofs/ProgTrace.lean` runs a program on the first kinds of the tokens and tells which tokens it takes, which functions it calls and which nodes it closes, proved sound for every state that fits. `Proofs/ProgClimb.lean`: a parser whose functions do, kind by kind, what a table of precedences says (`OpParser.check`, computed) makes of every row the node of the tree that respects the table; by induction on the row, with the loop of `PrattParser::parse`. `Proofs/OpParsers.lean`: the kernel computes the check for each language and compares its table with the reference pair by pair. `C86_one_grouping` (by `C26_unique`): the reference allows one grouping only.
* **C87, C88, C89 hand-written lexers.** `Model/LexCode.lean` is a small language of lexer programs: the calls of `LexerState` (`peek`, `current`, `advance`, `take_while`, `starts_with`, `add_token`), tests, blocks with early return, `while` and `loop`. `Model/HandLex` has 71 lexers of the examples in it. `Proofs/LexCodeCheck.lean` is an analysis of such programs: it keeps what is known of the next bytes, whether a token is open, whether the last turn moved, and tells if a loop moves on in each turn, if each advance stays between characters, if each token begins where the last ended. `Proofs/LexCode*.lean` prove it sound for every text by induction on the program, and `Proofs/LexPass*.lean` have the kernel compute it for 44 lexers. Theorems: `C87_ends_partial` (44 lexers), `C88_pieces_partial` (44), `C88_nonempty_partial` (40), `C89_lossless_partial` (30). Against them: `C87_msil_endless`, `C87_nix_endless`, `C88_cuts`, `C88_empty`, `C89_gaps`. Specification: `Spec/HandLex.lean` (`Piece`, `InOrder`, `Lossless`).
* **C90 lexing anew.** `Model/LexAgain.lean` has the function `lex` around the programs of `Model/HandLex`: how the state is made from the cache and the edits, `run`, `add_eof`. `C90_again_partial`: the 17 lexers that pass 0 as the place to resume at answer for every text that is not empty what they answer without a cache. `C90_deleted`: for the empty text they answer the tokens in the cache, whatever these are. `C90_typescript`, `C90_smalltalk`: the two that resume at the first edit.
* **C91 from the text to the tree.** `Model/ReadText.lean` puts `lex` (Model/LexAgain.lean) and a parser program together as `parse_with_lexer` does; kinds of tokens are not in the lexer programs, so the statements are for every choice of kinds. `C91_whole_partial` (Matlab, Protobuf, WebAssembly, Wolfram): the whole text. `C91_after_partial`, `C91_after_all_partial` (Objective-C, Org mode, Perl, PowerShell), `C91_eof_partial` (Bat, Cmd), `C91_flat_partial` (Mermaid, Pascal, Smalltalk): the text after the ignored tokens at its front. Specification: `Spec/ReadText.lean` (`Tiles`).
* **C92 words.** `Spec/LexWords.lean` lists, for each of 53 languages, operators and separators of its reference, two names and numbers in the notations it has, and says where the words of a line begin and end. `Proofs/LexTrace.lean` follows a lexer program over a known piece of text and gives up where what comes after it matters; `Proofs/LexWords.lean` proves that what it finds holds in every text, and puts words together to lines by induction. `Props/LexWordsTable.lean` has a row for each language with the words that its lexer does not make one token of; `Proofs/LexWordsRightA` to `D` check the rows. `C92_cut`: the tokens of every line are those of the table. `C92_words_partial`: lines without the listed words have the words and blanks as tokens. `C92_split`: no token is a listed word, wherever it stands.
* **C93 phrases.** `Spec/LexPhrases.lean` lists, for each of 53 languages, phrases as lists of their elements (1394 in all), and says where the elements of phrases on lines of their own begin and end. `Props/LexPhrasesTable.lean` has a row for each language with the phrases its lexer cuts otherwise and the tokens it makes of them; `Proofs/LexPhrasesRightA` to `D` check the rows with the tracer of C92. `C93_cut`: the tokens of every text of phrases are those of the table. `C93_phrases_partial`: texts without the listed phrases have the elements as tokens. `C93_odd`: of a listed phrase some element is no token, wherever it stands.
* **C94 forms.** `Spec/LexForms.lean` says what a form is: sets of characters for the beginning, one set for a middle part of any length, sets for the end. `Proofs/LexSweep.lean` follows a lexer program over all words of a form at once (`sweep`): a place in the word is so many characters after its beginning or after its middle part, a register holds a set of characters, and a loop over the middle part is checked by one turn on each range of its characters (`star`); `sweep_right` shows that the tracer of C92 does the same on every word. `Proofs/LexForms.lean` draws from it that a turn of the lexer makes one token of the word. `Props/LexFormsTable.lean` lists the forms of each language and the blanks that may follow, `Proofs/LexFormsRightA` and `B` check the rows. `C94_forms_partial`: texts of words of the forms and of the operators of C92 in any order, with blanks between them, have the words and the blanks as tokens.
* **C95 words without blanks.** `Spec/LexChain.lean` gives the rules, the same for all languages: which brackets, separators and operators of one character may come right after a name, a number, a quote or a sign, and what may come right after an operator. `Props/LexChainTable.lean` restricts them to the signs each language has (those of C92) and lists the exceptions, such as the point after the digits of a number. The check uses `sweep` with the set of the characters that may follow, `Proofs/LexChainRightA` and `B` do it for the languages. `Proofs/LexChain.lean` goes through the text word by word (`chain_sound`). `C95_chains_partial`: the words are the tokens; `C95_c_witness`: C makes one token of `1+2`.

## What is modelled

`MODEL.md` lists every model definition with the file and lines it follows; it is generated from the comments in `lean/Verif/Model`.
In short:

| Crate | Modelled | Left out |
|---|---|---|
| oak-core `source` | `simd.rs`, `text.rs`, `rope.rs`, `streaming.rs`, `cursor.rs`, `buffer.rs`, the provided methods of `Source` | `source_id` plumbing, async traits |
| oak-core `lexer` | `LexerState`, `scan_comment.rs`, `scan_string.rs`, `scan_white_space.rs`, `scan_number`-like client loops as decision trees, the token cache | serde derives |
| oak-core `tree`, `visitor` | green tree, red tree, cursor, preorder iterator, visitor walk | typed-tree helpers without logic |
| oak-core `parser` | `state.rs` in full, `pratt.rs`, `session.rs` | `helpers`, builder cache |
| oak-core `errors` | all kinds of `OakErrorKind`, their keys and texts, `with_source_id`, `clone`, `has_errors` of `OakDiagnostics` | `std::io` and `serde_json` errors (a kind and a message) |
| oak-core `memory` | `arena.rs`: allocation, chunk pool, metadata | the contents of the memory (addresses only) |
| oak-vfs | `MemoryVfs` (also with threads at the granularity of single lock operations and map accesses), `line_map.rs`, `DiskVfs` over an abstract file system | watchers |
| oak-lsp | `workspace.rs`; `list_all_files`, `definition`, `document_symbols`, `workspace_symbols` of `service.rs` | the other request handlers, transport |
| oak-pretty-print | `printer.rs`, `document`, `config`, `rules`, `comment`, `formatter`, `builtin_rules` | macros |
| oak-highlight | themes, highlighter, exporters | bundled theme data |
| oak-symbols, oak-resolver, oak-navigation | symbol collector, symbol table, reference search, module resolution over an abstract file system | the file system itself |
| oak-semantic-search | all of it | |
| oak-mcp | the server loop, request reading, tool dispatch, tool list | the JSON text format (serde_json) |
| oak-repl | line buffer, key loop | terminal drawing |
| oak-diagnostic | labels, the text, console, HTML and LSP emitters | translation of messages |
| oak-visualize | `graph` queries and layers, `geometry` (exact numbers), layered and compact tree layouts, `Layout` and its bounds, hierarchical layout, the five graph layouts (cosine, sine and square root as parameters), SVG rendering of layouts | rounding of floating point, radial and balloon tree layouts, themes, JSON and HTML export |
| oak-testing | the three testers over an abstract list of files, what they compare | JSON (assumed to read what it wrote), directories, the printing |
| examples | `oak-csv` lexer and parser; `oak-json` lexer, parser, builder, writers, `serde.rs`; `oak-xml` lexer, parser, builder, writer, `serde.rs`; `oak-toml` lexer and parser; `oak-regex` lexer, parser, builder; `oak-ini` lexer and parser; the one-node parsers of 42 languages (listed in Model/Flat.lean), given the tokens; 38 hand-written parsers by recursive descent (`Model/Hand`) and 18 with operator precedence (`Model/HandPratt`) as programs; 61 hand-written lexers (`Model/HandLex`) as programs, without the kinds of tokens and the messages of errors | the other lexers and parsers of the example languages |

## Where the code does not do what the property says

Each is proved as a theorem about the model (names in MANIFEST.json); the positive theorem then excludes the case.

* C04: text past the end is the empty string for one source kind and the clipped text for another.
* C06: substring search over chunks misses a match that spans three chunks, or whose overlap would cut a character.
* C07: a replacement listed before an insertion at the same start loses the insertion's text.
* C09: a cursor placed inside a character of a `SourceText` spins in `take_while`.
* C13: a block comment scan with an empty closer panics (`scan_block_comment`).
* C14: with the quote as its own escape the fast and general paths disagree; an unterminated literal is not reported.
* C15: tokens past the end of a shortened text are kept; kept tokens need not be those of a fresh run.
  `parse_with_lexer` never has tokens to reuse, since `prepare_generation` clears them.
* C20: metadata indices of a promoted node are read in the wrong arena.
* C21: a reused node may carry leaf kinds that differ from the current tokens; `advance` and `advance_until` drop tokens from the tree.
* C22: the incremental cursor is not restored by `restore`.
* C25: node reuse is wrong when the old root does not start at byte 0.
* C26: non-associative operators chain; precedence 255 overflows.
* C27: a failed parse after a successful one leaves `last_root` pointing into a dropped arena.
* C29: with a full pool a standard chunk leaks.
* C32: a column past the end of a line lands on the next line.
* C33: after 2^32 files an id is used twice.
* C35: the documentation example of `Document::render` is wrong: a line outside a group is printed as a space.
* C36: under CRLF a text that itself ends in a newline keeps it as the final newline.
* C39: colours in inline styles and diagnostic codes are not escaped.
* C41: text with an escape character breaks the stripped terminal export.
* C44: two files defining the same qualified name: re-indexing one loses the other's.
* C45: the line buffer counts characters but indexes bytes.
* C46: `UnexpectedEof` has no place; a label behind the last line break shows nothing; carets of multi-line labels are too far right;
  the LSP range of an error on a multi-byte character is inverted.
* C47: `is_connected` of a directed graph depends on iteration order; dangling edges panic or count as nodes; undirected edges are cycles.
* C48: JSON text without a token: a sign or hex prefix without digits, a lone slash, letters that begin no keyword.
  `infinity_and_nan` is never read.
* C49: blanks before a document or after a scalar end up in the value's text; escapes are kept; `to_string` does not escape.
* C50: text after a closing quote starts a new record; leading blanks are dropped; a blank separator is never seen.
* C51: a doc comment of several lines leaks out of the comment.
* C52: the longest folder path need not be the innermost folder; two URIs of one folder make the answer order dependent.
* C53: `MemoryVfs` shows no directories, so a workspace in memory lists nothing.
* C54: what follows the first JSON value is dropped silently.
* C55: leading comments are printed again at each later position; a trailing comment at each earlier one.
* C57: the comma rule adds a space behind a comma that already has one, at each run.
* C58: asked at a token, `parent_kind` gives the grandparent.
* C59: outside a group that breaks, the line break behind a statement is printed as a space.
* C60: a base path without a parent ends the search before the roots; an existing file below a relative root ends it without a result;
  folders added or removed after `initialize` do not change the roots.
* C61: only direct children of the root are resolved; a token directly below the root is its own definition;
  `document_symbols` does not fall back to parsing, as its documentation says.
* C62 (noted in the theorem): the `jsonrpc` version is not looked at, and malformed JSON is not answered by a parse error.
* C63: `symbols`, `definition`, `references`, `diagnostics` and `completion` always answer the empty list; `set_file_content` and `search` are announced but unknown.
* C64 (noted in the theorem): a rectangle shrunk below zero size has no points, yet `intersects` says yes.
* C65: siblings whose widths differ by more than twice the gap overlap in the layered layout (`C65_layered_witness`); wide nodes over narrow children overlap in the compact layout (`C65_compact_witness`).
* C67: edges of tree layouts have no route and are never drawn (`C67_edges_witness`); labels, colours and attributes are not escaped (`C67_label_witness`); a class name gives a second `class` attribute (`C67_class_witness`).
* C68: from the bottom up is drawn as from the top down, from right to left as from left to right (`C68_direction_witness`, `C68_bottom_up_witness`); labels and types are dropped (`C68_label_witness`); when every node has a predecessor all nodes are left out (`C68_cycle_witness`); a cycle below a root never ends (`C68_spin_witness`); an edge to an unknown node panics (`C68_unknown_witness`).
* C69: no JSON value is read as an integer, so that no type with a required integer is ever read (`C69_integers`, `C69_integer_fields`); variants with named fields are written as an array that is not read (`C69_struct_variants`); `Some(None)` comes back as `None` (`C69_nested_option`); boolean and integer keys are written but not read (`C69_keys`); a tuple is read from a longer array (`C69_long_arrays`).
* C70: a write that cannot be done (a directory at the place, a file on the way) is lost without notice (`C70_refused`); `get_id` and `get_uri` never answer for files on disk (`C70_no_ids`).
* C71: what was indexed is dropped and `search` finds nothing (`C71_never_found`); a tree that does not fit the source makes `index_code` panic (`C71_crash`).
* **C73**: no token is ignored by the XML parser, and after the name of a tag it expects a name, `>` or `/>`: a blank there is an error, so every document with an attribute is refused (`C73_attribute`). What stands between tags is skipped with `advance`, which leaves it out of the tree: no text, comment or section is ever in a value (`C73_bare`), and since offsets in the tree are sums of the lengths of its nodes, everything behind it is read at the wrong place: the `b` of `<a>xx<b></b></a>` is called `x` (`C73_shift_witness`), the element behind an XML declaration is called `?` (`C73_declaration`, `C73_declaration_witness`). `<name/>` loses its name (`C73_empty_witness`), closing names are not compared (`C73_elements_partial` holds for any closing names), an apostrophe in text begins a string that hides the rest of the document (`C73_apostrophe`), and no value but the empty text survives `to_string` and `parse` (`C73_roundtrip`).
* **C74**: booleans, numbers and `()` are written as text, and nothing is read as one of them (`C74_scalars`), so structs with such fields are never read (`C74_scalar_fields`). A field named `↯…`, the notation for attributes, panics: `key[1..]` is inside of that character (`C74_attributes`). In a field: `None` is read as `Some("")` (`C74_none_fields`), a unit variant as the variant that is called as the field, or not at all (`C74_enum_fields`), an empty sequence and a sequence of one struct are not read (`C74_empty_sequences`, `C74_single_structs`), sequences in a sequence have their strings run together (`C74_nested_sequences`). `Some("")` alone is read as `None` (`C74_some_empty`). Through text nothing but the empty string is read as a string (`C74_strings`).
* **C75**: the drawing depends on the order in which a `HashMap` is iterated, which differs from run to run (`C75_order`); labels of edges are never drawn (`C75_labels`); with layers an edge to a node that does not exist panics, the other algorithms leave it out (`C75_dangling`); a node larger than its cell covers the next one (`C75_overlap`).
* **C76**: strings advance by one byte, so a string with an accented letter loses its closing quote, which then begins another string (`C76_accent`); after a key that begins with an accented letter a token begins inside the letter (`C76_accented_key`); characters such as `:` have no token (`C76_gap`); nested arrays are read as headers of tables (`C76_nested`); `TomlBuilder::build` is `todo!`.
* **C77**: 28 of the 42 parsers call `advance`, which drops the token: no name, number, string or mark of any text is in the tree (`C77_advance`, `C77_lost`), and where nothing is ignored every text has the same empty tree (`C77_empty`). With all 42 the ignored tokens a text begins with are missing (`C77_leading`).
* **C78**: a class or repetition that is not closed gets, besides its tokens, an error token over all of them (`C78_overlap`); commas and closing braces outside of repetitions have no token (`C78_lost`); the parser reads one item with its alternatives and drops the rest without an error (`C78_alternatives_partial`); an item with `?`, `*` or `+` is in the tree twice, which makes the tree longer than the text (`C78_repeat`), and with thirty nested ones the length overflows and the parser panics (`C78_panic`, 92 characters); characters of classes and escapes are not in the tree (`C78_class`); the builder accepts only texts that begin with one character, and answers that character alone: `abc` is built as `a` (`C78_build`, `C78_first`), `,abc` as `,` (`C78_comma`).
* **C79**: lexer and builder tests without an expected file pass, whatever the result (`C79_unchecked`); the parser tester compares neither the kinds of leaves nor their order and place (`C79_parser_blind`), the lexer tester no ignored tokens, and not whether the lexer failed or reported (`C79_lexer_sees`); `thread::scope` waits for the thread, so the timeout never ends a test (`C79_hang`); a file with the old name is taken by the first of the files with that stem (`C79_legacy`).
* **C80**: `with_source_id` does nothing for `UnexpectedEof`, which has a `source_id` (`C80_source_eof`); `TestFailure` errors with different texts can print the same (`C80_text_test_failure`); a clone of an I/O error has no code of the operating system (`C80_copy_code`).
* **C81**: the lexer puts a token for the end of the file behind every text and no rule of the grammar takes it, so `IniParser::parse` returns an error for every text, the empty one too (`C81_refused`); for a document that error says that a key is expected, at an offset that is a number of tokens (`C81_where`). A value without quotes that is not a number or a boolean is no value (`C81_bare`), nested arrays are read as headers of tables (`C81_nested`), the colon has no token (`C81_colon`), a string ends too early if it has an escaped character of several bytes (`C81_escape`).
* **C82**: `RParser` never ends on `function(` with anything but names and commas up to `)`, e.g. `function(a = 1)` (`C82_r_endless`); `NixParser` never ends on `{` with something that begins no binding, e.g. `{ "a" = 1; }` (`C82_nix_endless`); `TclParser` never ends on `[` with a comment (`C82_tcl_endless`). Seven parsers give no tree at all when a token is missing (`C82_refusals`).
* **C83**: blanks and comments before the first other token are not below the root (`C83_blanks_lost`). Eight parsers use `advance` where `bump` is meant and lose tokens: all text of a Handlebars or Tailwind template, everything but brackets in APL, operators in J (`C83_kinds_lost`), text between tags in HTML, `procedure` in Ada, names at the top of LLVM IR (`C83_dropped`).
* **C84**: `SwiftParser` never ends on a block that is not closed, e.g. `{` (`C84_swift_endless`); `KotlinParser` never ends on a parameter with a default value or anything but names (`C84_kotlin_endless`, `C84_kotlin_default_endless`); `LuaParser` never ends on a stray `end`, `)`, `else`, … at the beginning of a statement (`C84_lua_endless`). `MojoParser` gives no tree for any function, `if` or `while`: it expects a newline that the state has skipped (`C84_mojo_refuses`). `CParser` pushes expressions twice, so lengths double with every pair of parentheses, and 61 bytes overflow the length of a node (`C84_c_overflow`).
* **C85**: ten parsers push a node twice: Actionscript, C, C++, C#, Elixir, JavaScript, Kotlin, PHP, Rust, Zig (`C85_copies`); nine lose tokens: parameters and arguments of functions, everything after a keyword in C++, import paths in Go, unknown statements in SQL (`C85_dropped`); the tree of `ScalaParser` holds no token but ignored ones (`C85_scala_nothing`).
* **C86**: pairs of operators not grouped by the reference (`C86_otherwise`, for each pair in `disputed` of `Spec/OpTables.lean`): C, C#, PHP, Ruby put `==` and `<` on one level, so `a == b < c` is `(a == b) < c`; ActionScript binds `| ^ &` tighter than comparisons; Elixir groups `<> ++ --` to the left; Kotlin gives `<` and `>` no level, so `x && a < b` is `(x && a) < b`, and binds `..` tighter than `*`; Swift groups `??` to the left and tighter than `*`, and `a * b << c` to the left; Wolfram reverses `@`, `/@`, `^` and has `*` and `/` on one level; Zig binds `orelse` and `catch` to the right and tighter than `*`, and `||` as loosely as `or`. Operators the parser does not know end the expression without an error (`C86_unknown`): C and C# `| ^ & << >>` and in C# `is`, `as`; JavaScript `< > <= >= instanceof in | ^ & << >> >>> ?? **`; PHP `.` `** ??`, the bit operators, `and or xor instanceof`; Ruby the bit operators, `<=> === =~ !~ .. ... and or`; Rust `< > <= >= << >>` (the lexer has other kinds than the parser looks for); Elixir `and or in`; Mojo `in`; Wolfram `:>` `<>`; Zig the bit operators. In C#, JavaScript, PHP and Wolfram a blank ends an expression (`C86_blank`): `a + b` is the expression `a`.
* **C87**: the lexers of MSIL and Nix do not end on `"\é` (`C87_msil_endless`, `C87_nix_endless`): after the backslash of a string they advance by one byte, into the `é`; from there no character can be read, no rule applies, and the loop of `run` turns forever.
* **C88**: 20 lexers record a token that begins or ends inside a character (`C88_cuts`): Crystal, C#, CSS, D, Dockerfile, Jasmin, PureScript, Solidity, Swift, Tailwind, Twig, TypeScript (one byte after a backslash), Coq, Dhall, Haskell, TOML, RBQ (one byte for an unknown character), Lua (two bytes for a `-` or `[`, which it takes for the comment mark as it looks at the same character twice), Django (two bytes for a `{`), Zig (one byte for `↯`, which stands in its code where the language has `@`). Powershell, Protobuf, Verilog and WIT record an empty token of their own at the end of the text (`C88_empty`).
* **C89**: 20 lexers skip a character they do not know, or half of one, without a token (`C89_gaps`): ActionScript, AsciiDoc, Clojure, Dhall, Elm, Fortran, GraphQL, IDL, JASM, OCaml, SQL, Tailwind, TeX, TOML, Twig, Vala, Verilog, Lua, Django, Zig.
* **C90**: with `new_with_cache(source, 0, cache)` the test `relex_from >= len` comes before the test `relex_from == 0`, so on the empty text all cached tokens count as reused: after everything was deleted the lexers still answer the tokens of the old text (`C90_deleted`; 17 modelled lexers, 33 lexers of the examples make this call). TypeScript takes back one token only, the end token, so a letter typed at the end of a word becomes a token of its own (`C90_typescript`). Smalltalk answers the old tokens when the end of the text is deleted (`C90_smalltalk`). This is so for calls of `lex`; `parse_with_lexer` takes the tokens out of the session first (session.rs:91), so parsing never resumes.
* **C91**: parsers that start with `ParserState::new` and no look at the first tokens lose ignored tokens at the front of the text, so the root is shorter than the text (`C91_blanks_lost`: Objective-C, Org mode, Perl).
* **C92**: 44 of the 53 lexers cut words of their language, in every line they stand in (`C92_split`; the words are the `split` fields in `Props/LexWordsTable.lean`). Java: `->`, `::`, `0xFF`, `0b101`, `1_000`. Go: `1e10`, `2.5e-3`, `0xFF`, `0b101`, `1_000`. Kotlin: `++`, `--`, `===`, `!==`, `?.`, `?:`, `..<`. C#: `=>`, `??`, `?.`, `::`, `->`, `&=`, `|=`, `^=`, `<<=`, `1e10`, `0xFF`. PHP: `...`, `<=>`, `??=`, `**=`, `?->`. Objective-C: `+=`, `++`, `->`, `<<` and the other operators of two characters but comparisons. Smalltalk: `:=`. C and C++: `...`; C++: `<=>`, `->*`. Zig: `3.14`, `+%`, `..`. Julia: `===`, `//`, `::`, `|>`. Prolog: `-->`, `->`, `=..`, `\+`. Fortran: `[` and `]` become no token at all, and neither do blanks.
* **C93**: 28 of the 53 lexers cut phrases of their language otherwise (63 phrases; the `odd` fields in `Props/LexPhrasesTable.lean`, `C93_odd`). C: in `1+2`, `1-a`, `1.5+2` and `1e3-2` the sign becomes part of the number. Actionscript, Zig: `1.5` falls into three tokens. Lua: in `a-1`, `a - b`, `a=-1` the `-` begins a comment up to the end of the line. D, Pascal, Ada, Nim, Perl, Powershell: the first point of `1..2` becomes part of the number; C#, Crystal: `1..2` is one token; Zig: `..` is cut. Crystal, Julia: `a!=b` is `a!`, `=`, `b`. Go, Dart, Typescript, Actionscript, C#, Perl, Pascal, Haskell, Crystal: the number of `1e3-2` is cut. Ocaml, V, Lean, Smalltalk: `a:=b` has `:` and `=`. Perl, Haskell: `a&&b`, `a||b`. Nix: block comments fall into single characters. Fortran: `'a b'` is cut at the space, `! a b` becomes no token. Smalltalk: `'a b'` falls into single characters. IDL: of `'a'` only the letter is a token.
* **C94**: Wgsl does not end a block comment at `*/`: after the `*` it looks one character too far, so `/* a */ x` is one token to the end of the text (`C94_wgsl_witness`). `1.5` is cut by Actionscript, Zig, Verilog, Coq, Dhall and Smalltalk (C92). Quotes of Smalltalk in apostrophes and block comments of Nix fall into single characters (C93). Names of Css that begin with `u`, words of Nginx that begin with `h` and names of J that begin with `N` are left out: there these lexers look for `url(`, `http://` and `NB.`, further than the form says.
* **C95**: the number of C goes on over `+` and `-`, so `1+2` and `1-x` are one token each (`C95_c_witness`; examples/oak-c/src/lexer/mod.rs:216). A name of Julia goes on over `?`. The other exceptions of the table belong to the languages: the point after digits, `-` in names of Nix and Powershell, `!` and `?` in names of Crystal, `!` in names of Julia, `%name` of Perl, signed numbers of Css and Protobuf.

## Not modelled

Threads and atomics below the level of single lock operations; the operating system's side of file access; hashing;
rounding of floating-point numbers; the serde integration outside of `oak-json` and `oak-xml`; the language crates other than the examples named
above; `oak-macros`, `oak-dap`.
