import Verif.Model.Pratt
import Verif.Model.Scan

/-
Model of `examples/oak-regex/src`: `lexer/lex.rs`, `parser/mod.rs`, `builder/mod.rs`.

Simplifications: kinds of tokens and nodes are their index in `RegexTokenType` (lexer/token_type.rs:8-60) and `RegexElementType`
(parser/element_type.rs:9-61), which agree; `state.rest().starts_with("#")` is `starts_with("#")`, which looks at the same byte; `lex`
and `parse` start from an empty session without edits; of the AST only what the builder can return is kept (`Literal`, the others of
`PatternElement` come from kinds of nodes the parser never makes: builder/mod.rs:122-131; these branches are `.other`); errors of the
builder are its messages' numbers.
-/
namespace Oaks.Regex
open Oaks Scn

/-- `RegexTokenType::Eof` (lexer/token_type.rs:8-60). -/
def eof : Nat := 1
/-- `RegexElementType::RegexPattern` (parser/element_type.rs:9-61). -/
def pattern : Nat := 2
/-- `RegexTokenType::Pipe` (lexer/token_type.rs:8-60). -/
def pipe : Nat := 3
/-- `RegexTokenType::Question` (lexer/token_type.rs:8-60). -/
def question : Nat := 4
/-- `RegexTokenType::Star` (lexer/token_type.rs:8-60). -/
def star : Nat := 5
/-- `RegexTokenType::Plus` (lexer/token_type.rs:8-60). -/
def plus : Nat := 6
/-- `RegexTokenType::LBrace` (lexer/token_type.rs:8-60). -/
def lbrace : Nat := 7
/-- `RegexTokenType::RBrace` (lexer/token_type.rs:8-60). -/
def rbrace : Nat := 8
/-- `RegexTokenType::Comma` (lexer/token_type.rs:8-60). -/
def comma : Nat := 9
/-- `RegexTokenType::LParen` (lexer/token_type.rs:8-60). -/
def lparen : Nat := 10
/-- `RegexTokenType::RParen` (lexer/token_type.rs:8-60). -/
def rparen : Nat := 11
/-- `RegexTokenType::LBrack` (lexer/token_type.rs:8-60). -/
def lbrack : Nat := 12
/-- `RegexTokenType::RBrack` (lexer/token_type.rs:8-60). -/
def rbrack : Nat := 13
/-- `RegexTokenType::Hat` (lexer/token_type.rs:8-60). -/
def hat : Nat := 14
/-- `RegexTokenType::Dollar` (lexer/token_type.rs:8-60). -/
def dollar : Nat := 16
/-- `RegexTokenType::Dot` (lexer/token_type.rs:8-60). -/
def dot : Nat := 17
/-- `RegexTokenType::Backslash` (lexer/token_type.rs:8-60). -/
def backslash : Nat := 18
/-- `RegexTokenType::Character` (lexer/token_type.rs:8-60). -/
def character : Nat := 20
/-- `RegexTokenType::Digit` (lexer/token_type.rs:8-60). -/
def digit : Nat := 21
/-- `RegexTokenType::Whitespace` (lexer/token_type.rs:8-60). -/
def whitespace : Nat := 22
/-- `RegexTokenType::Comment` (lexer/token_type.rs:8-60). -/
def comment : Nat := 23
/-- `RegexTokenType::Error` (lexer/token_type.rs:8-60). -/
def error : Nat := 24

/-! ### The lexer -/

/-- `skip_whitespace` (lexer/lex.rs:61-66); `ws` is `char::is_whitespace`. -/
def skipWhitespace (ws : Char → Bool) : Scn Bool := space ws true whitespace ret

/-- `skip_comment` (lexer/lex.rs:69-85). -/
def skipComment : Scn Bool := do
  if ← sees ['#'] then do
    skip 1
    whilePeek (fun c => !(c == '\n')) Char.utf8Size
    tok comment
    return true
  else return false

/-- A character as a token, if there is one (lexer/lex.rs:117-121, 225-229). -/
def oneMore : Scn Unit := do
  here
  match ← look with
  | some c => do skip c.utf8Size; tok character
  | none => return ()

/-- A turn of the loop over a class (lexer/lex.rs:105-129); it answers 1 at the bracket. -/
def classTurn (_ : Nat) : Scn (Bool × Nat) := do
  here
  match ← look with
  | none => return (false, 0)
  | some c =>
    if c = ']' then do skip 1; tok rbrack; return (false, 1)
    else if c = '\\' then do skip 1; tok backslash; oneMore; return (true, 0)
    else do skip c.utf8Size; tok character; return (true, 0)

/-- The sign of a negated class, if there is one (lexer/lex.rs:99-103). -/
def negation : Scn Unit := do
  if (← look) = some '^' then do skip 1; tok hat else pure ()

/-- What comes from `[` on in `lex_character_class` (lexer/lex.rs:97-129): was it closed? -/
def classRest : Scn Bool := do
  skip 1
  tok lbrack
  negation
  let n ← while_ 0 classTurn
  return n == 1

/-- `lex_character_class` (lexer/lex.rs:88-133). -/
def lexClass : Scn Bool := do
  if (← look) = some '[' then do covered error classRest; return true else return false

/-- A turn of the loop over a repetition (lexer/lex.rs:157-177); it answers 1 at the brace. -/
def braceTurn (_ : Nat) : Scn (Bool × Nat) := do
  here
  match ← look with
  | none => return (false, 0)
  | some c =>
    if c = '}' then do skip 1; tok rbrace; return (false, 1)
    else if '0' ≤ c ∧ c ≤ '9' then do skip 1; tok digit; return (true, 0)
    else if c = ',' then do skip 1; tok comma; return (true, 0)
    else return (false, 0)

/-- What comes from `{` on in `lex_quantifier` (lexer/lex.rs:154-177): was it closed? -/
def braceRest : Scn Bool := do
  skip 1
  tok lbrace
  let n ← while_ 0 braceTurn
  return n == 1

/-- `lex_quantifier` (lexer/lex.rs:136-183). -/
def lexQuantifier : Scn Bool := do
  match ← look with
  | some c =>
    if c = '*' then do skip 1; tok star; return true
    else if c = '+' then do skip 1; tok plus; return true
    else if c = '?' then do skip 1; tok question; return true
    else if c = '{' then do covered error braceRest; return true
    else return false
  | none => return false

/-- One character as a token, otherwise nothing (lexer/lex.rs:186-200, 202-217, 236-244, 260-268). -/
def single (ch : Char) (kind : Nat) : Scn Bool := do
  if (← look) = some ch then do skip 1; tok kind; return true else return false

/-- `lex_escape` (lexer/lex.rs:220-233). -/
def lexEscape : Scn Bool := do
  if (← look) = some '\\' then do skip 1; tok backslash; oneMore; return true else return false

/-- `is_operator`, `is_special` and the five comparisons of `lex_character` (lexer/lex.rs:250, 270-276). -/
def notPlain (c : Char) : Bool :=
  c == '|' || c == '*' || c == '+' || c == '?' || c == '{' || c == '}' || c == ',' || c == '.' || c == '^' || c == '$' ||
  c == '[' || c == '(' || c == ')' || c == '\\'

/-- `lex_character` (lexer/lex.rs:247-257). -/
def lexCharacter : Scn Bool := do
  match ← look with
  | some c => if notPlain c then return false else do skip c.utf8Size; tok character; return true
  | none => return false

/-- A turn of `run` (lexer/lex.rs:11-58); `lex_group` and `lex_assertion` (186-217) are two scanners each. -/
def step (ws : Char → Bool) : Scn Next :=
  firstOf [skipWhitespace ws, skipComment, lexClass, lexQuantifier, single '(' lparen, single ')' rparen, single '^' hat, single '$' dollar,
    lexEscape, single '.' dot, lexCharacter, single '|' pipe]

/-- `RegexLexer::lex` (lexer/mod.rs:61-70). -/
def lex (ws : Char → Bool) (src : Source) : Run (List Tok) := Scn.lex src (step ws) eof

/-! ### The parser -/

/-- `is_ignored` is false (lexer/token_type.rs:68-70). -/
def ign : Nat → Bool := fun _ => false

/-- `while state.not_at_end() && !state.at(RBrack) { state.advance() }` (parser/mod.rs:49-51), one turn for every token left. -/
def classLoop : Nat → PState → Run PState
  | fuel, s =>
    if s.index < s.tokens.length && !s.atKind rbrack then
      match fuel with
      | 0 => .error .spin
      | fuel + 1 => do classLoop fuel (← s.advance ign)
    else pure s

/-- `primary` (parser/mod.rs:29-60). -/
def primary (parseExpr : PState → Nat → Run (Entry × PState)) (s : PState) : Run (Entry × PState) :=
  let cp := s.checkpoint
  let k := s.peekKind
  if k = some character ∨ k = some dot then do
    let s ← s.bump ign
    s.finishAt cp pattern
  else if k = some lparen then do
    let s ← s.bump ign
    let (_, s) ← parseExpr s 0
    let (_, s) ← s.expect ign rparen
    s.finishAt cp pattern
  else if k = some lbrack then do
    let s ← s.bump ign
    let s ← classLoop (s.tokens.length - s.index) s
    let (_, s) ← s.expect ign rbrack
    s.finishAt cp pattern
  else do
    let s ← s.bump ign
    s.finishAt cp error

/-- `prefix` (parser/mod.rs:62-78). -/
def prefix_ (parseExpr : PState → Nat → Run (Entry × PState)) (s : PState) : Run (Entry × PState) :=
  let k := s.peekKind
  if k = some hat ∨ k = some dollar then do
    let cp := s.checkpoint
    let s ← s.bump ign
    s.finishAt cp pattern
  else if k = some backslash then do
    let cp := s.checkpoint
    let s ← s.bump ign
    let s ← s.advance ign
    s.finishAt cp pattern
  else primary parseExpr s

/-- The branch of the quantifiers in `infix` (parser/mod.rs:96-101). -/
def quantify (s : PState) (left : Entry) : Run (Entry × PState) := do
  let cp := s.checkpoint
  let s := s.pushChild left
  let s ← s.bump ign
  s.finishAt cp pattern

/-- `infix` (parser/mod.rs:80-104). -/
def infix_ (parseExpr : PState → Nat → Run (Entry × PState)) (s : PState) (left : Entry) (min : Nat) : Run (Option (Entry × PState)) :=
  match s.peekKind with
  | none => pure none
  | some k =>
    if k = pipe then
      if 1 < min then pure none else do return some (← prattBinary ign parseExpr s left pipe 1 .left pattern)
    else if k = question ∨ k = star ∨ k = plus then
      if 10 < min then pure none else do return some (← quantify s left)
    else pure none

/-- The `while` loop of `PrattParser::parse` (oak-core parser/pratt.rs:239-242), one turn for every token and one more. -/
def whileInfix (parseExpr : PState → Nat → Run (Entry × PState)) : Nat → PState → Entry → Nat → Run (Entry × PState)
  | 0, _, _, _ => .error .spin
  | fuel + 1, s, left, min => do
    match ← infix_ parseExpr s left min with
    | none => return (left, s)
    | some (node, s) => whileInfix parseExpr fuel s node min

/-- `PrattParser::parse` (oak-core parser/pratt.rs:237-243) with this parser; the fuel bounds the nesting. -/
def expr : Nat → PState → Nat → Run (Entry × PState)
  | 0, _, _ => .error .spin
  | fuel + 1, s, min => do
    let (left, s) ← prefix_ (expr fuel) s
    whileInfix (expr fuel) (s.tokens.length + 1) s left min

/-- `parse_root_internal` (parser/mod.rs:115-119) in `parse_with_lexer` (oak-core parser/mod.rs:77-120), on the tokens: the root and the
errors. -/
def parseTokens (toks : List Tok) (srcLen : Nat) : Run (Green × List PErr) := do
  let s ← PState.new ign toks srcLen
  let cp := s.checkpoint
  let (_, s) ← expr (toks.length + 2) s 0
  let (e, s) ← s.finishAt cp pattern
  return (e.tree, s.errors)

/-- `RegexParser::parse` (parser/mod.rs:107-112). -/
def parse (ws : Char → Bool) (src : Source) : Run (Green × List PErr) := do
  parseTokens (← lex ws src) src.length

/-! ### The builder -/

/-- `PatternElement` (ast/mod.rs:42-58): a literal with its value and span, or what the builder makes of other nodes. -/
inductive Element where
  | literal (value : Str) (start stop : Nat)
  | other (start stop : Nat)
deriving DecidableEq, Repr

/-- `Pattern` (ast/mod.rs:21-28) with its one `Alternative`: the elements and the span. -/
structure Pat where
  elements : List Element
  start : Nat
  stop : Nat
deriving DecidableEq, Repr

/-- `build_pattern_element` (builder/mod.rs:118-134): `error` for the nodes of the kinds `RegexPattern` and `Error`, which are those
the parser makes; what becomes of other kinds is not modelled. -/
def buildElement (kind start stop : Nat) : Option Element :=
  if kind = pattern ∨ kind = error then none else some (.other start stop)

/-- The loop of `build_pattern` (builder/mod.rs:88-112) over the children from an offset; `none` is a syntax error. -/
def buildElements (text : Source) : List Green → Nat → Run (Option (List Element))
  | [], _ => pure (some [])
  | .node k n _ :: gs, o =>
    match buildElement k o (o + n) with
    | none => pure none
    | some e => do return (← buildElements text gs (o + n)).map (e :: ·)
  | .leaf k n _ :: gs, o =>
    if k = pipe ∨ k = whitespace ∨ k = comment then buildElements text gs (o + n)
    else if k = character then do
      let v ← text.textIn o (o + n)
      return (← buildElements text gs (o + n)).map (Element.literal v o (o + n) :: ·)
    else pure none

/-- `build_pattern` (builder/mod.rs:84-115). -/
def buildPattern (text : Source) (n : Nat) (cs : List Green) (o : Nat) : Run (Option Pat) := do
  return (← buildElements text cs o).map fun es => ⟨es, o, o + n⟩

/-- The loop of `build_root` (builder/mod.rs:60-78). -/
def buildRoot (text : Source) : List Green → Nat → Run (Option (List Pat))
  | [], _ => pure (some [])
  | .node k n cs :: gs, o =>
    if k = pattern then do
      match ← buildPattern text n cs o with
      | none => return none
      | some p => return (← buildRoot text gs (o + n)).map (p :: ·)
    else pure none
  | .leaf k n _ :: gs, o => if k = whitespace ∨ k = comment then buildRoot text gs (o + n) else pure none

/-- `build` (builder/mod.rs:30-52) from the tokens: the patterns, or nothing if it answers an error. -/
def buildTokens (src : Source) (toks : List Tok) : Run (Option (List Pat)) := do
  let (g, _) ← parseTokens toks src.length
  let text ← src.textIn 0 src.length
  match g with
  | .node _ _ cs => buildRoot (textSource text) cs 0
  | .leaf _ _ _ => .error .panic

/-- `RegexBuilder::build` (builder/mod.rs:30-52). -/
def build (ws : Char → Bool) (src : Source) : Run (Option (List Pat)) := do
  buildTokens src (← lex ws src)

end Oaks.Regex
