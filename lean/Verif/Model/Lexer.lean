import Verif.Model.Cursor
import Verif.Model.Parser

/-
Model of `projects/oak-core/src/lexer/mod.rs` (`LexerState`) and of the scanners in
`lexer/scan_comment.rs`, `lexer/scan_string.rs`, `lexer/scan_white_space.rs`.

Simplifications: token kinds are numbers; diagnostics (`errors`) are left out, no function here adds any;
predicates are pure; loops get one turn per byte of the source plus one.
-/
namespace Oaks

/-- `LexerState { cursor, tokens }` (lexer/mod.rs:252-256). -/
structure Lex where
  cur : Cur
  toks : List Tok

namespace Lex

/-- `new` (lexer/mod.rs:268-270). -/
def new (src : Source) : Run Lex := do
  let cur ← Cur.newAt src 0
  pure ⟨cur, []⟩

/-- `get_position` (lexer/mod.rs:379-381). -/
def pos (st : Lex) : Nat := st.cur.offset

/-- `not_at_end` (lexer/mod.rs:387-389). -/
def notAtEnd (src : Source) (st : Lex) : Bool := decide (st.cur.offset < src.length)

/-- `rest` (lexer/mod.rs:354-356). -/
def rest (src : Source) (st : Lex) : Run (Lex × Str) := do
  let (cur, r) ← st.cur.rest src
  pure ({ st with cur := cur }, r)

/-- `peek` and `current` (lexer/mod.rs:395-397, 704-706). -/
def peek (src : Source) (st : Lex) : Run (Lex × Option Char) := do
  let (cur, c) ← st.cur.peekChar src
  pure ({ st with cur := cur }, c)

/-- `peek_next_n` (lexer/mod.rs:407-409). -/
def peekNextN (src : Source) (st : Lex) (n : Nat) : Run (Option Char) := st.cur.peekNextN src n

/-- `advance` (lexer/mod.rs:413-415). -/
def advance (src : Source) (st : Lex) (n : Nat) : Lex := { st with cur := st.cur.advanceBytes src n }

/-- `bump` (lexer/mod.rs:714-718). -/
def bump (src : Source) (st : Lex) : Run (Lex × Option Char) := do
  let (st, c) ← st.peek src
  match c with
  | none => pure (st, none)
  | some c => pure (st.advance src c.utf8Size, some c)

/-- `peek_byte` (lexer/mod.rs:431-433). -/
def peekByte (src : Source) (st : Lex) : Run (Lex × Option UInt8) := do
  let (cur, b) ← st.cur.peekByte src
  pure ({ st with cur := cur }, b)

/-- `advance_byte` (lexer/mod.rs:437-439). -/
def advanceByte (src : Source) (st : Lex) : Run (Lex × Option UInt8) := do
  let (cur, b) ← st.cur.advanceByte src
  pure ({ st with cur := cur }, b)

/-- `take_while_byte` (lexer/mod.rs:445-447). -/
def takeWhileByte (src : Source) (st : Lex) (p : UInt8 → Bool) : Run Lex := do
  let cur ← Cur.takeWhileByte src p (src.length + 1) st.cur
  pure { st with cur := cur }

/-- `skip_ascii_whitespace` (lexer/mod.rs:454-456). -/
def skipAsciiWhitespace (src : Source) (st : Lex) : Run Lex := do
  let cur ← st.cur.skipAsciiWhitespace src (src.length + 1)
  pure { st with cur := cur }

/-- `skip_ascii_ident_continue` (lexer/mod.rs:471-473). -/
def skipAsciiIdentContinue (src : Source) (st : Lex) : Run Lex := do
  let cur ← st.cur.skipAsciiIdentContinue src (src.length + 1)
  pure { st with cur := cur }

/-- `skip_until` (lexer/mod.rs:480-482). -/
def skipUntil (src : Source) (st : Lex) (b : UInt8) : Run Lex := do
  let cur ← st.cur.skipUntil src b (src.length + 1)
  pure { st with cur := cur }

/-- `starts_with` (lexer/mod.rs:599-601). -/
def startsWith (src : Source) (st : Lex) (p : Str) : Run (Lex × Bool) := do
  let (cur, b) ← st.cur.startsWith src (src.length + 1) p
  pure ({ st with cur := cur }, b)

/-- `consume_if_starts_with` (lexer/mod.rs:606-608). -/
def consumeIf (src : Source) (st : Lex) (p : Str) : Run (Lex × Bool) := do
  let (cur, b) ← st.cur.consumeIfStartsWith src (src.length + 1) p
  pure ({ st with cur := cur }, b)

/-- `add_token` (lexer/mod.rs:638-640). -/
def addToken (st : Lex) (kind start stop : Nat) : Lex := { st with toks := st.toks ++ [⟨kind, start, stop⟩] }

/-- `add_eof` (lexer/mod.rs:693-696); `eof` is `END_OF_STREAM`. -/
def addEof (st : Lex) (eof : Nat) : Lex := st.addToken eof st.pos st.pos

/-- The loop of `take_while` (lexer/mod.rs:876-878). -/
def takeWhileLoop (src : Source) (p : Char → Bool) : Nat → Lex → Run Lex
  | 0, _ => .error .spin
  | fuel + 1, st => do
    let (st, c) ← st.peek src
    match c with
    | none => pure st
    | some c => if p c then takeWhileLoop src p fuel (st.advance src c.utf8Size) else pure st

/-- `take_while` (lexer/mod.rs:874-880); the range it returns is `st.pos .. result.pos`. -/
def takeWhile (src : Source) (st : Lex) (p : Char → Bool) : Run Lex := takeWhileLoop src p (src.length + 1) st

/-- `advance_if_dead_lock` (lexer/mod.rs:971-984). -/
def advanceIfDeadLock (src : Source) (st : Lex) (safe : Nat) : Run Lex :=
  if st.pos = safe then do
    let (st, c) ← st.peek src
    match c with
    | some c => pure (st.advance src c.utf8Size)
    | none => pure (st.advance src 1)
  else pure st

/-- The scanning loop every lexer of the project uses: `while state.not_at_end() { let safe_point =
state.get_position(); <step>; state.advance_if_dead_lock(safe_point) }` (e.g. examples/oak-json/src/lexer/mod.rs:40-88). -/
def guarded (src : Source) (step : Lex → Run Lex) : Nat → Lex → Run Lex
  | fuel, st =>
    if st.notAtEnd src then
      match fuel with
      | 0 => .error .spin
      | fuel + 1 => do
        let st' ← step st
        let st'' ← st'.advanceIfDeadLock src st.pos
        guarded src step fuel st''
    else pure st

/-- `b == b'_' || b.is_ascii_alphabetic()` (lexer/mod.rs:500). -/
def isIdentStart (b : UInt8) : Bool := b == 0x5f || (0x41 ≤ b && b ≤ 0x5a) || (0x61 ≤ b && b ≤ 0x7a)

/-- `scan_ascii_identifier` (lexer/mod.rs:497-508). -/
def scanAsciiIdentifier (src : Source) (st : Lex) (kind : Nat) : Run (Lex × Bool) := do
  let start := st.pos
  let (st, b) ← st.peekByte src
  match b with
  | none => pure (st, false)
  | some b =>
    if isIdentStart b then do
      let (st, _) ← st.advanceByte src
      let st ← st.skipAsciiIdentContinue src
      pure (st.addToken kind start st.pos, true)
    else pure (st, false)

/-- `scan_line_comment` (lexer/mod.rs:519-527). -/
def scanLineComment (src : Source) (st : Lex) (kind : Nat) (pre : Str) : Run (Lex × Bool) := do
  let start := st.pos
  let (st, b) ← st.consumeIf src pre
  if b then do
    let st ← st.skipUntil src 0x0a
    pure (st.addToken kind start st.pos, true)
  else pure (st, false)

/-- The `while` loop of `scan_block_comment` (lexer/mod.rs:543-550): answers whether the end was found.
`end_seq.as_bytes()[0]` panics for an empty `end_seq`. -/
def blockCommentLoop (src : Source) (close : Str) : Nat → Lex → Run (Lex × Bool)
  | 0, _ => .error .spin
  | fuel + 1, st => do
    let (st, b) ← st.peekByte src
    match b with
    | none => pure (st, false)
    | some _ =>
      match (bytes close)[0]? with
      | none => .error .panic
      | some b0 => do
        let st ← st.skipUntil src b0
        let (st, found) ← st.consumeIf src close
        if found then pure (st, true)
        else do
          let (st, _) ← st.advanceByte src
          blockCommentLoop src close fuel st

/-- `scan_block_comment` (lexer/mod.rs:540-557). -/
def scanBlockComment (src : Source) (st : Lex) (kind : Nat) (opener close : Str) : Run (Lex × Bool) := do
  let start := st.pos
  let (st, b) ← st.consumeIf src opener
  if b then do
    let (st, _) ← blockCommentLoop src close (src.length + 1) st
    pure (st.addToken kind start st.pos, true)
  else pure (st, false)

/-- `advance_with` (lexer/mod.rs:794-798). -/
def advanceWith (src : Source) (st : Lex) (t : Tok) : Lex :=
  { st.advance src t.length with toks := st.toks ++ [t] }

end Lex

/-! ### `CommentConfig` -/

/-- `CommentConfig` (scan_comment.rs:5-14). -/
structure CommentCfg where
  line : Str
  opener : Str
  close : Str
  nested : Bool

/-- The `while depth > 0 && state.not_at_end()` loop (scan_comment.rs:33-45). -/
def CommentCfg.loop (cfg : CommentCfg) (src : Source) : Nat → Nat → Lex → Run Lex
  | 0, _, _ => .error .spin
  | fuel + 1, depth, st =>
    if depth > 0 && st.notAtEnd src then do
      let tryOpen := cfg.nested && cfg.opener ≠ []
      let (st, o) ← if tryOpen then st.startsWith src cfg.opener else pure (st, false)
      if o then loop cfg src fuel (depth + 1) (st.advance src (blen cfg.opener))
      else do
        let (st, c) ← if cfg.close ≠ [] then st.startsWith src cfg.close else pure (st, false)
        if c then loop cfg src fuel (depth - 1) (st.advance src (blen cfg.close))
        else do
          let (st, ch) ← st.peek src
          match ch with
          | some ch => loop cfg src fuel depth (st.advance src ch.utf8Size)
          | none => loop cfg src fuel depth st
    else pure st

/-- `!marker.is_empty() && state.starts_with(marker)` (scan_comment.rs:22, 30). -/
def Lex.tryMarker (src : Source) (st : Lex) (p : Str) : Run (Lex × Bool) :=
  if p ≠ [] then st.startsWith src p else pure (st, false)

/-- `CommentConfig::scan` (scan_comment.rs:18-51). -/
def CommentCfg.scan (cfg : CommentCfg) (src : Source) (st : Lex) (lineKind blockKind : Nat) : Run (Lex × Bool) := do
  let start := st.pos
  let (st, isLine) ← st.tryMarker src cfg.line
  if isLine then do
    let st ← (st.advance src (blen cfg.line)).takeWhileByte src (· ≠ 0x0a)
    pure (st.addToken lineKind start st.pos, true)
  else do
    let (st, isBlock) ← st.tryMarker src cfg.opener
    if isBlock then do
      let st ← cfg.loop src (src.length + 1) 1 (st.advance src (blen cfg.opener))
      pure (st.addToken blockKind start st.pos, true)
    else pure (st, false)

/-! ### `StringConfig` -/

/-- `StringConfig` (scan_string.rs:8-13). -/
structure StringCfg where
  quotes : List Char
  escape : Option Char

/-- `as u8` of an ASCII character (scan_string.rs:25-30). -/
def asByte (c : Char) : UInt8 := UInt8.ofNat c.toNat

/-- The loop of the fast path (scan_string.rs:31-64); answers whether the closing quote was found. -/
def StringCfg.fastLoop (src : Source) (q e : UInt8) : Nat → Lex → Run (Lex × Bool)
  | 0, _ => .error .spin
  | fuel + 1, st => do
    let (st, r) ← st.rest src
    if r = [] then pure (st, false)
    else
      match Simd.findFirstOf4 (bytes r) q e q e with
      | none => fastLoop src q e fuel (st.advance src (blen r))
      | some pos => do
        let found ← index (bytes r) pos
        let st := st.advance src pos
        if found = q then pure (st.advance src 1, true)
        else do
          let (st, next) ← (st.advance src 1).peek src
          match next with
          | some c => fastLoop src q e fuel (st.advance src c.utf8Size)
          | none => fastLoop src q e fuel st

/-- The loop of the general path (scan_string.rs:71-86). -/
def StringCfg.slowLoop (src : Source) (quote : Char) (escape : Option Char) : Nat → Lex → Run (Lex × Bool)
  | 0, _ => .error .spin
  | fuel + 1, st => do
    let (st, ch) ← st.peek src
    match ch with
    | none => pure (st, false)
    | some ch =>
      if some ch = escape then do
        let (st, next) ← (st.advance src ch.utf8Size).peek src
        match next with
        | some c => slowLoop src quote escape fuel (st.advance src c.utf8Size)
        | none => slowLoop src quote escape fuel st
      else if ch = quote then pure (st.advance src ch.utf8Size, true)
      else slowLoop src quote escape fuel (st.advance src ch.utf8Size)

/-- `char::is_ascii` (standard library; scan_string.rs:24). -/
def charAscii (c : Char) : Bool := decide (c.toNat < 128)

/-- `StringConfig::scan` (scan_string.rs:17-91). An unterminated literal gets the same token. -/
def StringCfg.scan (cfg : StringCfg) (src : Source) (st : Lex) (kind : Nat) : Run (Lex × Bool) := do
  let start := st.pos
  let (st, c) ← st.peek src
  match c with
  | none => pure (st, false)
  | some quote =>
    if quote ∈ cfg.quotes then do
      let st := st.advance src quote.utf8Size
      let (st, _) ←
        if charAscii quote && (cfg.escape.map charAscii).getD true then
          StringCfg.fastLoop src (asByte quote) ((cfg.escape.map asByte).getD (asByte quote)) (src.length + 1) st
        else StringCfg.slowLoop src quote cfg.escape (src.length + 1) st
      pure (st.addToken kind start st.pos, true)
    else pure (st, false)

/-! ### `WhitespaceConfig` -/

/-- The `if self.unicode_whitespace` of `scan` (scan_white_space.rs:17). -/
def skipSpace (ws : Char → Bool) (unicode : Bool) (src : Source) (st : Lex) : Run Lex :=
  if unicode then st.takeWhile src ws else st.skipAsciiWhitespace src

/-- `WhitespaceConfig::scan` (scan_white_space.rs:15-26); `ws` is `char::is_whitespace`. -/
def scanWhitespace (ws : Char → Bool) (unicode : Bool) (src : Source) (st : Lex) (kind : Nat) : Run (Lex × Bool) := do
  let start := st.pos
  let st ← skipSpace ws unicode src st
  if st.pos > start then pure (st.addToken kind start st.pos, true) else pure (st, false)

/-! ### Resuming from cached tokens -/

/-- `LexerState::new_with_cache` (lexer/mod.rs:284-347). `cache` are the tokens held by the cache
(session.rs:105-119). `partition_point` of tokens sorted by end is the length of the longest prefix
satisfying the predicate, which is what the fallback for caches without slice access computes too. -/
def Lex.newWithCache (src : Source) (relexFrom : Nat) (cache : List Tok) : Run Lex :=
  if cache = [] then Lex.new src
  else
    let len := src.length
    let relexFrom := min relexFrom len
    if relexFrom ≥ len then do
      let offset := min ((cache.getLast?.map (·.stop)).getD 0) len
      let cur ← Cur.newAt src offset
      pure ⟨cur, cache⟩
    else if relexFrom = 0 then Lex.new src
    else do
      let fit := cache.takeWhile (fun t => t.stop ≤ relexFrom)
      let reused := fit.take (fit.length - 1)
      let cur ← Cur.newAt src ((reused.getLast?.map (·.stop)).getD 0)
      pure ⟨cur, reused⟩

end Oaks
