import Verif.Model.Lexer

/-
Model of `examples/oak-csv/src/lexer/mod.rs` (`CsvLexer`) and `examples/oak-csv/src/parser/parse_top_level.rs`
(`CsvParser`).

Simplifications: `CsvTokenType` and `CsvElementType` are the numbers of their variants, in order; a flag set
when a loop advanced at least once is read off the position.
-/
namespace Oaks

/-- `CsvLexer { field_separator, quote_char }` (lexer/mod.rs:10-14). -/
structure CsvLexer where
  sep : Char
  quote : Char

/-- `CsvLexer::new` (lexer/mod.rs:28-30). -/
def CsvLexer.default : CsvLexer := ⟨',', '"'⟩

namespace CsvLexer

/-! Token kinds (lexer/token_type.rs:8-31). -/
def whitespace : Nat := 0
/-- `CsvTokenType::Newline` (lexer/token_type.rs:12). -/
def newline : Nat := 1
/-- `CsvTokenType::Field` (lexer/token_type.rs:15). -/
def field : Nat := 2
/-- `CsvTokenType::Comma` (lexer/token_type.rs:21). -/
def comma : Nat := 5
/-- `CsvTokenType::Eof` (lexer/token_type.rs:28). -/
def eof : Nat := 8
/-- `CsvTokenType::Error` (lexer/token_type.rs:30). -/
def error : Nat := 9

/-- `skip_whitespace` (lexer/mod.rs:43-64). -/
def skipWhitespace (src : Source) (st : Lex) : Run (Lex × Bool) := do
  let start := st.pos
  let st ← st.takeWhile src (fun c => c == ' ' || c == '\t')
  if st.pos > start then pure (st.addToken whitespace start st.pos, true) else pure (st, false)

/-- `lex_newline` (lexer/mod.rs:67-92). -/
def lexNewline (src : Source) (st : Lex) : Run (Lex × Bool) := do
  let start := st.pos
  let (st, c) ← st.peek src
  match c with
  | none => pure (st, false)
  | some c =>
    if c = '\r' then do
      let (st, d) ← (st.advance src 1).peek src
      let st := if d = some '\n' then st.advance src 1 else st
      pure (st.addToken newline start st.pos, true)
    else if c = '\n' then
      let st := st.advance src 1
      pure (st.addToken newline start st.pos, true)
    else pure (st, false)

/-- The loop of `lex_quoted_field` (lexer/mod.rs:101-116). -/
def quotedLoop (src : Source) (q : Char) : Nat → Lex → Run Lex
  | 0, _ => .error .spin
  | fuel + 1, st => do
    let (st, c) ← st.peek src
    match c with
    | none => pure st
    | some c =>
      if c = q then do
        let (st, d) ← (st.advance src c.utf8Size).peek src
        if d = some q then quotedLoop src q fuel (st.advance src q.utf8Size) else pure st
      else quotedLoop src q fuel (st.advance src c.utf8Size)

/-- `lex_quoted_field` (lexer/mod.rs:95-127). -/
def lexQuoted (lx : CsvLexer) (src : Source) (st : Lex) : Run (Lex × Bool) := do
  let start := st.pos
  let (st, c) ← st.peek src
  match c with
  | none => pure (st, false)
  | some c =>
    if c = lx.quote then do
      let st ← quotedLoop src lx.quote (src.length + 1) (st.advance src c.utf8Size)
      pure (st.addToken field start st.pos, true)
    else pure (st, false)

/-- `lex_unquoted_field` (lexer/mod.rs:130-151). -/
def lexUnquoted (lx : CsvLexer) (src : Source) (st : Lex) : Run (Lex × Bool) := do
  let start := st.pos
  let st ← st.takeWhile src (fun c => !(c == lx.sep || c == '\n' || c == '\r'))
  if st.pos > start then pure (st.addToken field start st.pos, true) else pure (st, false)

/-- `lex_comma` (lexer/mod.rs:154-170). -/
def lexComma (lx : CsvLexer) (src : Source) (st : Lex) : Run (Lex × Bool) := do
  let start := st.pos
  let (st, c) ← st.peek src
  match c with
  | none => pure (st, false)
  | some c =>
    if c = lx.sep then
      let st := st.advance src c.utf8Size
      pure (st.addToken comma start st.pos, true)
    else pure (st, false)

/-- The body of the loop of `run` (lexer/mod.rs:174-200). -/
def step (lx : CsvLexer) (src : Source) (st : Lex) : Run Lex := do
  let (st, b) ← skipWhitespace src st
  if b then pure st else do
  let (st, b) ← lexNewline src st
  if b then pure st else do
  let (st, b) ← lx.lexComma src st
  if b then pure st else do
  let (st, b) ← lx.lexQuoted src st
  if b then pure st else do
  let (st, b) ← lx.lexUnquoted src st
  if b then pure st else do
  let start := st.pos
  let (st, c) ← st.peek src
  match c with
  | none => pure st
  | some c =>
    let st := st.advance src c.utf8Size
    pure (st.addToken error start st.pos)

/-- The loop of `run` (lexer/mod.rs:173-201). -/
def run (lx : CsvLexer) (src : Source) : Nat → Lex → Run Lex
  | fuel, st =>
    if st.notAtEnd src then
      match fuel with
      | 0 => .error .spin
      | fuel + 1 => do
        let st' ← lx.step src st
        run lx src fuel st'
    else pure st

/-- `lex` (lexer/mod.rs:17-24): the tokens. -/
def lex (lx : CsvLexer) (src : Source) : Run (List Tok) := do
  let st ← Lex.new src
  let st ← lx.run src src.length st
  pure (st.addEof eof).toks

end CsvLexer

namespace CsvParser

/-- `is_ignored` (lexer/token_type.rs:37-39). -/
def ign (k : Nat) : Bool := k == CsvLexer.whitespace

/-! Element kinds (parser/element_type.rs:9-16). -/
def sourceFile : Nat := 0
/-- `CsvElementType::Record` (parser/element_type.rs:13). -/
def record : Nat := 1
/-- `CsvElementType::Field` (parser/element_type.rs:15). -/
def fieldNode : Nat := 2

/-- `not_at_end` (state.rs:374-376). -/
def notAtEnd (s : PState) : Bool := decide (s.index < s.tokens.length)

/-- `if state.at(kind) { state.bump() }` (parse_top_level.rs:15-17, 39-44). -/
def bumpIf (s : PState) (kind : Nat) : Run PState := if s.atKind kind then s.bump ign else pure s

/-- `parse_field` (parse_top_level.rs:37-47). -/
def parseField (s : PState) : Run PState := do
  let cp := s.checkpoint
  let s ← bumpIf s CsvLexer.field
  let (_, s) ← s.finishAt cp fieldNode
  pure s

/-- The loop of `parse_record` (parse_top_level.rs:28-31). -/
def recordLoop : Nat → PState → Run PState
  | fuel, s =>
    if s.atKind CsvLexer.comma then
      match fuel with
      | 0 => .error .spin
      | fuel + 1 => do
        let s ← s.bump ign
        let s ← parseField s
        recordLoop fuel s
    else pure s

/-- `parse_record` (parse_top_level.rs:23-35); one turn for every token left. -/
def parseRecord (s : PState) : Run PState := do
  let cp := s.checkpoint
  let s ← parseField s
  let s ← recordLoop (s.tokens.length - s.index) s
  let (_, s) ← s.finishAt cp record
  pure s

/-- The loop of `parse_root_internal` (parse_top_level.rs:13-18). -/
def rootLoop : Nat → PState → Run PState
  | fuel, s =>
    if notAtEnd s && !s.atKind CsvLexer.eof then
      match fuel with
      | 0 => .error .spin
      | fuel + 1 => do
        let s ← parseRecord s
        let s ← bumpIf s CsvLexer.newline
        rootLoop fuel s
    else pure s

/-- `parse_root_internal` (parse_top_level.rs:9-21). -/
def parseRoot (s : PState) : Run (Green × PState) := do
  let cp := s.checkpoint
  let s ← rootLoop (s.tokens.length - s.index) s
  let (e, s) ← s.finishAt cp sourceFile
  pure (e.tree, s)

/-- `CsvParser::parse` (parser/mod.rs:25-28) with `parse_with_lexer` (oak-core parser/mod.rs:77-120), on a session
without an old tree: the tree. -/
def parse (src : Source) : Run (Green × List PErr) := do
  let toks ← CsvLexer.default.lex src
  let s ← PState.new ign toks src.length
  let (g, s) ← parseRoot s
  pure (g, s.errors)

end CsvParser

end Oaks
