import Verif.Model.Lexer
import Verif.Model.SourceBuffer

/-
Model of `examples/oak-json/src`: the lexer, the parser, the builder and the writers.

Simplifications: `JsonTokenType` and `JsonElementType` are the numbers of their variants, in order (the code
transmutes one into the other); `char::is_whitespace`, `is_alphabetic` and `is_alphanumeric` are parameters, as
are parsing and printing of `f64`; syntax tree positions (`span`) are left out of the values that are built;
an error that is returned is always also recorded, so a `Result<(), OakError>` is a `Bool`; the depth of the call stack is not limited.
-/
namespace Oaks

/-- `JsonLanguage` (language/mod.rs:9-22). -/
structure JsonCfg where
  trailingComma : Bool
  bareKeys : Bool
  singleQuotes : Bool
  comments : Bool
  hexNumbers : Bool
  infinityAndNan : Bool

/-- `JsonLanguage::standard` (language/mod.rs:31-33, 46-50). -/
def JsonCfg.standard : JsonCfg := ⟨false, false, false, false, false, false⟩
/-- `JsonLanguage::json5`, `relaxed` (language/mod.rs:36-43). -/
def JsonCfg.json5 : JsonCfg := ⟨true, true, true, true, true, true⟩

/-- The character classes of the standard library the lexer uses (lexer/mod.rs:75, 170, 172, 207). -/
structure CharClass where
  ws : Char → Bool
  alpha : Char → Bool
  alnum : Char → Bool

namespace Json

/-! Kinds (lexer/token_type.rs:9-36, parser/element_type.rs). -/
/-- `JsonTokenType::Root`, `JsonElementType::Root` (lexer/token_type.rs:10, parser/element_type.rs:8). -/
def root : Nat := 0
/-- `JsonTokenType::Value`, `JsonElementType::Value` (lexer/token_type.rs:11, parser/element_type.rs:9). -/
def value : Nat := 1
/-- `JsonTokenType::Object`, `JsonElementType::Object` (lexer/token_type.rs:12, parser/element_type.rs:10). -/
def object : Nat := 2
/-- `JsonTokenType::Array`, `JsonElementType::Array` (lexer/token_type.rs:13, parser/element_type.rs:11). -/
def array : Nat := 3
/-- `JsonTokenType::String`, `JsonElementType::String` (lexer/token_type.rs:14, parser/element_type.rs:12). -/
def string : Nat := 4
/-- `JsonTokenType::Number`, `JsonElementType::Number` (lexer/token_type.rs:15, parser/element_type.rs:13). -/
def number : Nat := 5
/-- `JsonTokenType::Boolean`, `JsonElementType::Boolean` (lexer/token_type.rs:16, parser/element_type.rs:14). -/
def boolean : Nat := 6
/-- `JsonTokenType::Null`, `JsonElementType::Null` (lexer/token_type.rs:17, parser/element_type.rs:15). -/
def null : Nat := 7
/-- `JsonTokenType::ObjectEntry`, `JsonElementType::ObjectEntry` (lexer/token_type.rs:18, parser/element_type.rs:16). -/
def objectEntry : Nat := 8
/-- `JsonTokenType::ArrayElement`, `JsonElementType::ArrayElement` (lexer/token_type.rs:19, parser/element_type.rs:17). -/
def arrayElement : Nat := 9
/-- `JsonTokenType::LeftBrace`, `JsonElementType::LeftBrace` (lexer/token_type.rs:21, parser/element_type.rs:19). -/
def leftBrace : Nat := 11
/-- `JsonTokenType::RightBrace`, `JsonElementType::RightBrace` (lexer/token_type.rs:22, parser/element_type.rs:20). -/
def rightBrace : Nat := 12
/-- `JsonTokenType::LeftBracket`, `JsonElementType::LeftBracket` (lexer/token_type.rs:23, parser/element_type.rs:21). -/
def leftBracket : Nat := 13
/-- `JsonTokenType::RightBracket`, `JsonElementType::RightBracket` (lexer/token_type.rs:24, parser/element_type.rs:22). -/
def rightBracket : Nat := 14
/-- `JsonTokenType::Comma`, `JsonElementType::Comma` (lexer/token_type.rs:25, parser/element_type.rs:23). -/
def comma : Nat := 15
/-- `JsonTokenType::Colon`, `JsonElementType::Colon` (lexer/token_type.rs:26, parser/element_type.rs:24). -/
def colon : Nat := 16
/-- `JsonTokenType::StringLiteral`, `JsonElementType::StringLiteral` (lexer/token_type.rs:27, parser/element_type.rs:25). -/
def stringLiteral : Nat := 17
/-- `JsonTokenType::NumberLiteral`, `JsonElementType::NumberLiteral` (lexer/token_type.rs:28, parser/element_type.rs:26). -/
def numberLiteral : Nat := 18
/-- `JsonTokenType::BooleanLiteral`, `JsonElementType::BooleanLiteral` (lexer/token_type.rs:29, parser/element_type.rs:27). -/
def booleanLiteral : Nat := 19
/-- `JsonTokenType::NullLiteral`, `JsonElementType::NullLiteral` (lexer/token_type.rs:30, parser/element_type.rs:28). -/
def nullLiteral : Nat := 20
/-- `JsonTokenType::BareKey`, `JsonElementType::BareKey` (lexer/token_type.rs:31, parser/element_type.rs:29). -/
def bareKey : Nat := 21
/-- `JsonTokenType::Whitespace`, `JsonElementType::Whitespace` (lexer/token_type.rs:32, parser/element_type.rs:30). -/
def whitespace : Nat := 22
/-- `JsonTokenType::Comment`, `JsonElementType::Comment` (lexer/token_type.rs:33, parser/element_type.rs:31). -/
def comment : Nat := 23
/-- `JsonTokenType::Eof`, `JsonElementType::Eof` (lexer/token_type.rs:34, parser/element_type.rs:32). -/
def eof : Nat := 24
/-- `JsonTokenType::Error`, `JsonElementType::Error` (lexer/token_type.rs:35, parser/element_type.rs:33). -/
def error : Nat := 25

/-! ### The lexer -/

/-- `JSON_COMMENT` (lexer/mod.rs:14). -/
def commentCfg : CommentCfg := ⟨"//".toList, "/*".toList, "*/".toList, false⟩

/-- `JSON_SINGLE_QUOTE_STRING` (lexer/mod.rs:15). -/
def singleCfg : StringCfg := ⟨['\''], some '\\'⟩

/-- `char::is_ascii_digit` (standard library; lexer/mod.rs:117, 124, 139). -/
def isDigit (c : Char) : Bool := decide ('0' ≤ c ∧ c ≤ '9')
/-- `char::is_ascii_hexdigit` (standard library; lexer/mod.rs:107). -/
def isHexDigit (c : Char) : Bool := isDigit c || decide ('a' ≤ c ∧ c ≤ 'f') || decide ('A' ≤ c ∧ c ≤ 'F')

/-- The test for a hexadecimal prefix (lexer/mod.rs:103-105). -/
def hexAhead (cfg : JsonCfg) (src : Source) (st : Lex) : Run (Lex × Bool) :=
  if cfg.hexNumbers then do
    let (st, b) ← st.startsWith src ['0']
    if b then do
      let n1 ← st.peekNextN src 1
      pure (st, n1 == some 'x' || n1 == some 'X')
    else pure (st, false)
  else pure (st, false)

/-- The hexadecimal branch of `lex_number` (lexer/mod.rs:103-114); `true` if a token was added. -/
def hexNumber (cfg : JsonCfg) (src : Source) (start : Nat) (st : Lex) : Run (Lex × Bool) := do
  let (st, b) ← hexAhead cfg src st
  if b then do
    let st := st.advance src 2
    let from_ := st.pos
    let st ← st.takeWhile src (fun c => isHexDigit c || c == '_')
    if st.pos > from_ then pure (st.addToken numberLiteral start st.pos, true) else pure (st, false)
  else pure (st, false)

/-- The fraction (lexer/mod.rs:123-128); `true` if there were digits. -/
def fraction (src : Source) (st : Lex) : Run (Lex × Bool) := do
  let (st, b) ← st.consumeIf src ['.']
  if b then do
    let from_ := st.pos
    let st ← st.takeWhile src isDigit
    pure (st, decide (st.pos > from_))
  else pure (st, false)

/-- The sign of an exponent (lexer/mod.rs:134-138). -/
def exponentSign (src : Source) (st : Lex) : Run Lex := do
  let (st, c) ← st.peek src
  match c with
  | some c => if c = '+' ∨ c = '-' then pure (st.advance src 1) else pure st
  | none => pure st

/-- The exponent (lexer/mod.rs:131-141). -/
def exponent (src : Source) (st : Lex) : Run Lex := do
  let (st, c) ← st.peek src
  match c with
  | some c =>
    if c = 'e' ∨ c = 'E' then do
      let st ← exponentSign src (st.advance src 1)
      st.takeWhile src isDigit
    else pure st
  | none => pure st

/-- The decimal part of `lex_number` (lexer/mod.rs:117-149). -/
def decimal (src : Source) (start : Nat) (st : Lex) : Run Lex := do
  let from_ := st.pos
  let st ← st.takeWhile src isDigit
  let hasInt := decide (st.pos > from_)
  let (st, hasFrac) ← fraction src st
  let st ← exponent src st
  if hasInt || hasFrac then pure (st.addToken numberLiteral start st.pos) else pure st

/-- `lex_number` (lexer/mod.rs:94-150). -/
def lexNumber (cfg : JsonCfg) (src : Source) (st : Lex) : Run Lex := do
  let start := st.pos
  let (st, _) ← st.consumeIf src ['-']
  let (st, done) ← hexNumber cfg src start st
  if done then pure st else decimal src start st

/-- `state.consume_if_starts_with(w)`, then `add_token` (lexer/mod.rs:155-162). -/
def word (src : Source) (st : Lex) (w : Str) (kind : Nat) : Run (Lex × Bool) := do
  let start := st.pos
  let (st, b) ← st.consumeIf src w
  if b then pure (st.addToken kind start st.pos, true) else pure (st, false)

/-- `lex_keyword` (lexer/mod.rs:153-164). -/
def lexKeyword (src : Source) (st : Lex) : Run (Lex × Bool) := do
  let (st, b) ← word src st "true".toList booleanLiteral
  if b then pure (st, true) else do
  let (st, b) ← word src st "false".toList booleanLiteral
  if b then pure (st, true) else
  word src st "null".toList nullLiteral

/-- `is_alphabetic() || '_' || '$'` (lexer/mod.rs:75, 170). -/
def keyStart (cc : CharClass) (c : Char) : Bool := cc.alpha c || c == '_' || c == '$'
/-- `is_alphanumeric() || '_' || '$'` (lexer/mod.rs:172). -/
def keyChar (cc : CharClass) (c : Char) : Bool := cc.alnum c || c == '_' || c == '$'

/-- `lex_bare_key` (lexer/mod.rs:167-178). -/
def lexBareKey (cc : CharClass) (src : Source) (st : Lex) : Run (Lex × Bool) := do
  let start := st.pos
  let (st, c) ← st.peek src
  match c with
  | some c =>
    if keyStart cc c then do
      let st ← (st.advance src c.utf8Size).takeWhile src (keyChar cc)
      pure (st.addToken bareKey start st.pos, true)
    else pure (st, false)
  | none => pure (st, false)

/-- The kind of an operator or delimiter (lexer/mod.rs:184-192). -/
def punctuation : Char → Option Nat
  | '{' => some leftBrace
  | '}' => some rightBrace
  | '[' => some leftBracket
  | ']' => some rightBracket
  | ',' => some comma
  | ':' => some colon
  | _ => none

/-- `lex_operator_or_delimiter` (lexer/mod.rs:181-201). -/
def lexOperator (src : Source) (st : Lex) : Run (Lex × Bool) := do
  let start := st.pos
  let (st, c) ← st.peek src
  match c with
  | some c =>
    match punctuation c with
    | some k =>
      let st := st.advance src c.utf8Size
      pure (st.addToken k start st.pos, true)
    | none => pure (st, false)
  | none => pure (st, false)

/-- `skip_whitespace_fast` (lexer/mod.rs:203-222); `count > 0` is read off the position. -/
def skipWhitespaceFast (cc : CharClass) (src : Source) (st : Lex) : Run (Lex × Bool) := do
  let start := st.pos
  let st ← st.takeWhile src cc.ws
  if st.pos > start then pure (st.addToken whitespace start st.pos, true) else pure (st, false)

/-- The loop of `lex_string_fast` (lexer/mod.rs:231-245): whether the closing quote was found. -/
def stringLoop (src : Source) : Nat → Bool → Lex → Run (Lex × Bool)
  | 0, _, _ => .error .spin
  | fuel + 1, escaped, st => do
    let (st, c) ← st.peek src
    match c with
    | none => pure (st, false)
    | some c =>
      let st := st.advance src c.utf8Size
      if escaped then stringLoop src fuel false st
      else if c = '\\' then stringLoop src fuel true st
      else if c = '"' then pure (st, true)
      else stringLoop src fuel false st

/-- `lex_string_fast` (lexer/mod.rs:224-249). -/
def lexStringFast (src : Source) (st : Lex) : Run (Lex × Bool) := do
  let start := st.pos
  let (st, b) ← st.consumeIf src ['"']
  if b then do
    let (st, closed) ← stringLoop src (src.length + 1) false st
    if closed then pure (st.addToken stringLiteral start st.pos, true)
    else pure (st.addToken error start st.pos, false)
  else pure (st, false)

/-- The last arm of the `match` (lexer/mod.rs:73-84). -/
def lexOther (cfg : JsonCfg) (cc : CharClass) (src : Source) (safe : Nat) (ch : Char) (st : Lex) : Run Lex :=
  if cfg.bareKeys && keyStart cc ch then do
    let (st, handled) ← lexBareKey cc src st
    if handled then pure st
    else
      let st := st.advance src ch.utf8Size
      pure (st.addToken error safe st.pos)
  else
    let st := st.advance src ch.utf8Size
    pure (st.addToken error safe st.pos)

/-- The arm for `t`, `f`, `n` (lexer/mod.rs:63-69). -/
def lexWord (cfg : JsonCfg) (cc : CharClass) (src : Source) (st : Lex) : Run Lex := do
  let (st, b) ← lexKeyword src st
  if b then pure st
  else if cfg.bareKeys then do
    let (st, _) ← lexBareKey cc src st
    pure st
  else pure st

/-- The `match` of `run` (lexer/mod.rs:47-85). -/
def arm (cfg : JsonCfg) (cc : CharClass) (src : Source) (ch : Char) (st : Lex) : Run Lex :=
  if ch = ' ' ∨ ch = '\t' ∨ ch = '\n' ∨ ch = '\r' then do
    let (st, _) ← skipWhitespaceFast cc src st
    pure st
  else if ch = '"' then do
    let (st, _) ← lexStringFast src st
    pure st
  else if ch = '/' ∧ cfg.comments then do
    let (st, _) ← commentCfg.scan src st comment comment
    pure st
  else if ch = '-' ∨ isDigit ch then lexNumber cfg src st
  else if (punctuation ch).isSome then do
    let (st, _) ← lexOperator src st
    pure st
  else if ch = 't' ∨ ch = 'f' ∨ ch = 'n' then lexWord cfg cc src st
  else if ch = '\'' ∧ cfg.singleQuotes then do
    let (st, _) ← singleCfg.scan src st stringLiteral
    pure st
  else lexOther cfg cc src st.pos ch st

/-- The loop of `run` (lexer/mod.rs:40-88). -/
def run (cfg : JsonCfg) (cc : CharClass) (src : Source) : Nat → Lex → Run Lex
  | fuel, st =>
    if st.notAtEnd src then
      match fuel with
      | 0 => .error .spin
      | fuel + 1 => do
        let safe := st.pos
        let (st, c) ← st.peek src
        match c with
        | none => pure st
        | some ch => do
          let st ← arm cfg cc src ch st
          let st ← st.advanceIfDeadLock src safe
          run cfg cc src fuel st
    else pure st

/-- `lex` (lexer/mod.rs:24-31): the tokens. -/
def lex (cfg : JsonCfg) (cc : CharClass) (src : Source) : Run (List Tok) := do
  let st ← Lex.new src
  let st ← run cfg cc src src.length st
  pure (st.addEof eof).toks

/-! ### The parser -/

/-- `is_ignored` (lexer/token_type.rs:42-44). -/
def ign (k : Nat) : Bool := k == whitespace || k == comment

/-- `not_at_end` (state.rs:374-376). -/
def notAtEnd (s : PState) : Bool := decide (s.index < s.tokens.length)

/-- `unexpected_eof` (state.rs:319-324). -/
def recordEof (s : PState) : PState := { s with errors := s.errors ++ [⟨4, s.srcLen⟩] }

/-- The loop of `skip_trivia` (parser/mod.rs:176-185), and the last loop of `parse` (201-209), which does the same. -/
def skipLoop : Nat → PState → Run PState
  | fuel, s =>
    match s.current with
    | none => pure s
    | some t =>
      if ign t.kind then
        match fuel with
        | 0 => .error .spin
        | fuel + 1 => do
          let s ← s.bump ign
          skipLoop fuel s
      else pure s

/-- `skip_trivia` (parser/mod.rs:176-184). -/
def skip (s : PState) : Run PState := skipLoop (s.tokens.length - s.index) s

/-- The node for the first token of a value (parser/mod.rs:31-46). -/
def nodeKind (k : Nat) : Option Nat :=
  if k = leftBrace then some object
  else if k = leftBracket then some array
  else if k = stringLiteral then some string
  else if k = numberLiteral then some number
  else if k = booleanLiteral then some boolean
  else if k = nullLiteral then some null
  else none

/-- `incremental_node` (state.rs:629-641). -/
def incrementalNode (s : PState) (kind : Nat) (f : PState → Run (Bool × PState)) : Run (Bool × PState) := do
  let (reused, s) ← s.tryReuse kind
  if reused then pure (true, s) else do
    let cp := s.checkpoint
    let (r, s) ← f s
    let (_, s) ← s.finishAt cp kind
    pure (r, s)

/-- The opening bracket of an array (`false`, parser/mod.rs:133) and of an object (`true`, 63). -/
def openKind : Bool → Nat | false => leftBracket | true => leftBrace
/-- The closing bracket of an array (`false`, parser/mod.rs:166) and of an object (`true`, 97). -/
def closeKind : Bool → Nat | false => rightBracket | true => rightBrace

/-- What follows the loop of `parse_object` and of `parse_array` (parser/mod.rs:97-105, 166-173). -/
def close (b : Bool) (s : PState) : Run (Bool × PState) := do
  let (ok, s) ← s.eat ign (closeKind b)
  if ok then pure (true, s)
  else if s.atKind eof || !notAtEnd s then pure (false, recordEof s)
  else pure (false, s.record 1)

/-- What the part of a loop's body before the element decides (parser/mod.rs:75-90, 145-159). -/
inductive Separated where
  | fail
  | stop
  | go

/-- The separator in front of an element that is not the first (parser/mod.rs:75-90, 145-159). -/
def separator (cfg : JsonCfg) (b first : Bool) (s : PState) : Run (Separated × PState) :=
  if first then pure (.go, s) else do
    let (ok, s) ← s.eat ign comma
    if ok then do
      let s ← skip s
      if s.atKind (closeKind b) then
        if cfg.trailingComma then pure (.stop, s) else pure (.fail, s.record 3)
      else pure (.go, s)
    else pure (.stop, s.record 1)

/-- The colon of an entry (parser/mod.rs:119-121). -/
def eatColon (s : PState) : Run PState := do
  let (ok, s) ← s.eat ign colon
  if ok then pure s else pure (s.record 1)

/-- Is there a key? (parser/mod.rs:110) -/
def atKey (cfg : JsonCfg) (s : PState) : Bool := s.atKind stringLiteral || (cfg.bareKeys && s.atKind bareKey)


mutual
/-- `parse_value` (parser/mod.rs:19-56). -/
def parseValue (cfg : JsonCfg) : Nat → PState → Run (Bool × PState)
  | 0, _ => .error .spin
  | n + 1, s => do
    let s ← skip s
    match s.current with
    | none => pure (false, recordEof s)
    | some t =>
      if t.kind = eof then pure (false, recordEof s)
      else
        match nodeKind t.kind with
        | none => pure (false, s.record 2)
        | some k =>
          incrementalNode s k (fun s =>
            if k = object then parseSeq cfg n true s
            else if k = array then parseSeq cfg n false s
            else do
              let s ← s.bump ign
              pure (true, s))

/-- `parse_object` (`true`, parser/mod.rs:58-106) and `parse_array` (`false`, 128-174): the same but for the
brackets and for what stands between the commas. -/
def parseSeq (cfg : JsonCfg) : Nat → Bool → PState → Run (Bool × PState)
  | 0, _, _ => .error .spin
  | n + 1, b, s => do
    let (ok, s) ← s.eat ign (openKind b)
    if ok then seqLoop cfg n b true s else pure (false, s.record 1)

/-- The loop (parser/mod.rs:64-95, 134-164) and what follows it. -/
def seqLoop (cfg : JsonCfg) : Nat → Bool → Bool → PState → Run (Bool × PState)
  | 0, _, _, _ => .error .spin
  | n + 1, b, first, s =>
    if notAtEnd s then do
      let s ← skip s
      if s.atKind (closeKind b) then close b s
      else if s.atKind eof then pure (false, recordEof s)
      else do
        let (d, s) ← separator cfg b first s
        match d with
        | .fail => pure (false, s)
        | .stop => close b s
        | .go => do
          let (ok, s) ← if b then parseEntry cfg n s else parseValue cfg n s
          if ok then do
            let s ← skip s
            seqLoop cfg n b false s
          else pure (false, s)
    else close b s

/-- `parse_object_entry` (parser/mod.rs:108-126). -/
def parseEntry (cfg : JsonCfg) : Nat → PState → Run (Bool × PState)
  | 0, _ => .error .spin
  | n + 1, s =>
    incrementalNode s objectEntry (fun s =>
      if atKey cfg s then do
        let s ← s.bump ign
        let s ← skip s
        let s ← eatColon s
        let s ← skip s
        parseValue cfg n s
      else pure (false, s.record 1))
end

/-- The closure of `parse` (parser/mod.rs:191-213). -/
def parseRoot (cfg : JsonCfg) (s : PState) : Run (Green × PState) := do
  let cp := s.checkpoint
  let (_, s) ← parseValue cfg (4 * (s.tokens.length - s.index) + 4) s
  let s ← skip s
  let (e, s) ← s.finishAt cp root
  pure (e.tree, s)

/-- `parse` (parser/mod.rs:189-214) with `parse_with_lexer` (oak-core parser/mod.rs:77-120) on a session without
an old tree: the tree and the errors recorded. -/
def parse (cfg : JsonCfg) (cc : CharClass) (src : Source) : Run (Green × List PErr) := do
  let toks ← lex cfg cc src
  let s ← PState.new ign toks src.length
  let (g, s) ← parseRoot cfg s
  pure (g, s.errors)

end Json

/-! ### Values, the builder, the writers -/

/-- `JsonValue` (ast/mod.rs:29-42) without spans; a number is a `ν`. -/
inductive JsonVal (ν : Type) where
  | null
  | bool (b : Bool)
  | num (v : ν)
  | str (s : Str)
  | arr (vs : List (JsonVal ν))
  | obj (fs : List (Str × JsonVal ν))

namespace Json

/-- `trim_matches` of a character (standard library; builder/mod.rs:105, 151, 173). -/
def trimMatches (c : Char) (s : Str) : Str := ((s.dropWhile (· == c)).reverse.dropWhile (· == c)).reverse

section
variable {ν : Type} (num : Str → Option ν) (text : Str)

/-- `source.get_text_in(a..a+n)` of the `SourceText` over the whole text (builder/mod.rs:32-33). -/
def textOf (a n : Nat) : Run Str := (textSource text).textIn a (a + n)

/-- Kinds that are built as elements of an array (builder/mod.rs:89). -/
def isElement (k : Nat) : Bool := k == arrayElement || k == value || k == object || k == array || k == string ||
  k == number || k == boolean || k == null
/-- Kinds that are built as the value of a field (builder/mod.rs:157). -/
def isFieldValue (k : Nat) : Bool := k == value || k == object || k == array || k == string || k == number ||
  k == boolean || k == null

/-- A `String`, `Number`, `Boolean` or `Null` node (builder/mod.rs:103-118). -/
def buildScalar (k n offset : Nat) : Run (Option (JsonVal ν)) := do
  let s ← textOf text offset n
  if k = string then pure (some (.str (trimMatches '"' s)))
  else if k = number then pure ((num s).map .num)
  else if k = boolean then pure (some (.bool (decide (s = "true".toList))))
  else pure (some .null)

/-- What `build_field` has found so far (builder/mod.rs:139-141). -/
structure Found (ν : Type) where
  name : Option Str
  value : Option (JsonVal ν)
  colon : Bool

/-- A leaf of an entry (builder/mod.rs:165-178). -/
def fieldLeaf (k n offset : Nat) (f : Found ν) : Run (Found ν) :=
  if k = colon then pure { f with colon := true }
  else if (k = stringLiteral ∨ k = bareKey) ∧ f.colon = false then do
    let s ← textOf text offset n
    pure { f with name := some (if k = stringLiteral then trimMatches '"' s else s) }
  else pure f

/-- A node of an entry before the colon (builder/mod.rs:147-154). -/
def fieldName (k n offset : Nat) (f : Found ν) : Run (Found ν) :=
  if k = string then do
    let s ← textOf text offset n
    pure { f with name := some (trimMatches '"' s) }
  else pure f

/-- The end of `build_field` (builder/mod.rs:183-186). -/
def fieldDone (f : Found ν) : Option (Str × JsonVal ν) :=
  match f.name, f.value with
  | some n, some v => some (n, v)
  | _, _ => none

mutual
/-- `build_value` (builder/mod.rs:59-133); `none` is `Err`. A leaf is never passed. -/
def buildValue (offset : Nat) : Green → Run (Option (JsonVal ν))
  | .leaf _ _ _ => pure none
  | .node k n cs =>
    if k = object then do
      let fs ← buildFields offset cs
      pure (fs.map .obj)
    else if k = array then do
      let vs ← buildElements offset cs
      pure (vs.map .arr)
    else if k = string ∨ k = number ∨ k = boolean ∨ k = null then buildScalar num text k n offset
    else if k = value ∨ k = arrayElement ∨ k = root then buildFirst offset cs
    else pure none

/-- The loop of the `Array` arm (builder/mod.rs:85-100). -/
def buildElements (offset : Nat) : List Green → Run (Option (List (JsonVal ν)))
  | [] => pure (some [])
  | .leaf _ n _ :: cs => buildElements (offset + n) cs
  | .node k n gs :: cs =>
    if isElement k then do
      let v ← buildValue offset (.node k n gs)
      match v with
      | none => pure none
      | some v => do
        let vs ← buildElements (offset + n) cs
        pure (vs.map (v :: ·))
    else buildElements (offset + n) cs

/-- The loop of the `Object` arm (builder/mod.rs:67-79). -/
def buildFields (offset : Nat) : List Green → Run (Option (List (Str × JsonVal ν)))
  | [] => pure (some [])
  | .leaf _ n _ :: cs => buildFields (offset + n) cs
  | .node k n gs :: cs =>
    if k = objectEntry then do
      let f ← buildField offset gs ⟨none, none, false⟩
      match f with
      | none => pure none
      | some f => do
        let fs ← buildFields (offset + n) cs
        pure (fs.map (f :: ·))
    else buildFields (offset + n) cs

/-- The loop of the `Value`, `ArrayElement`, `Root` arm (builder/mod.rs:119-130). -/
def buildFirst (offset : Nat) : List Green → Run (Option (JsonVal ν))
  | [] => pure none
  | .leaf _ n _ :: cs => buildFirst (offset + n) cs
  | .node k n gs :: _ => buildValue offset (.node k n gs)

/-- The loop of `build_field` (builder/mod.rs:144-181) and what follows it. -/
def buildField (offset : Nat) : List Green → Found ν → Run (Option (Str × JsonVal ν))
  | [], f => pure (fieldDone f)
  | .leaf k n _ :: cs, f => do
    let f ← fieldLeaf text k n offset f
    buildField (offset + n) cs f
  | .node k n gs :: cs, f =>
    if f.colon = false then do
      let f ← fieldName text k n offset f
      buildField (offset + n) cs f
    else if f.value.isNone && isFieldValue k then do
      let v ← buildValue offset (.node k n gs)
      match v with
      | none => pure none
      | some v => buildField (offset + n) cs { f with value := some v }
    else buildField (offset + n) cs f
end

/-- `build_root` (builder/mod.rs:49-57). -/
def buildRoot : Green → Run (Option (JsonVal ν))
  | .node _ _ (.node k n cs :: _) => buildValue num text 0 (.node k n cs)
  | _ => pure none

end

/-- `build` (builder/mod.rs:22-45): the value, `none` for an error, and the errors recorded by the parser. -/
def build {ν : Type} (num : Str → Option ν) (cfg : JsonCfg) (cc : CharClass) (src : Source) :
    Run (Option (JsonVal ν) × List PErr) := do
  let (g, errs) ← parse cfg cc src
  let text ← src.textIn 0 src.length
  let v ← buildRoot num text g
  pure (v, errs)

/-- `join(",")` (standard library; ast/mod.rs:99, 103). -/
def joinComma : List Str → Str
  | [] => []
  | [s] => s
  | s :: ss => s ++ ',' :: joinComma ss

/-- `JsonString::to_source` (ast/mod.rs:347-353). -/
def stringSource (alnum : Char → Bool) (buf : SBuf) (s : Str) : SBuf :=
  ((buf.push alnum ['"']).push alnum s).push alnum ['"']

/-- `if i > 0 { buffer.push(",") }` (ast/mod.rs:265-267, 325-327). -/
def commaSource (alnum : Char → Bool) (first : Bool) (buf : SBuf) : SBuf := if first then buf else buf.push alnum [',']

section
variable {ν : Type} (shw : ν → Str)

mutual
/-- `JsonValue::to_string` (ast/mod.rs:91-106); `shw` is `f64::to_string`. -/
def toText : JsonVal ν → Str
  | .null => "null".toList
  | .bool b => if b then "true".toList else "false".toList
  | .num v => shw v
  | .str s => '"' :: (s ++ ['"'])
  | .arr vs => '[' :: (joinComma (toTexts vs) ++ [']'])
  | .obj fs => '{' :: (joinComma (fieldTexts fs) ++ ['}'])
/-- The elements of an array (ast/mod.rs:97-99). -/
def toTexts : List (JsonVal ν) → List Str
  | [] => []
  | v :: vs => toText v :: toTexts vs
/-- The fields of an object (ast/mod.rs:101-103). -/
def fieldTexts : List (Str × JsonVal ν) → List Str
  | [] => []
  | (k, v) :: fs => ('"' :: (k ++ '"' :: ':' :: toText v)) :: fieldTexts fs
end

mutual
/-- `ToSource::to_source` (ast/mod.rs:217-228, 261-272, 289-295, 321-332, 347-353, 368-372, 387-391, 404-408). -/
def toSource (alnum : Char → Bool) (buf : SBuf) : JsonVal ν → SBuf
  | .null => buf.push alnum "null".toList
  | .bool b => buf.push alnum (if b then "true".toList else "false".toList)
  | .num v => buf.push alnum (shw v)
  | .str s => stringSource alnum buf s
  | .arr vs => (elementsSource alnum true (buf.push alnum ['[']) vs).push alnum [']']
  | .obj fs => (fieldsSource alnum true (buf.push alnum ['{']) fs).push alnum ['}']
/-- The loop over the elements (ast/mod.rs:321-332). -/
def elementsSource (alnum : Char → Bool) (first : Bool) (buf : SBuf) : List (JsonVal ν) → SBuf
  | [] => buf
  | v :: vs => elementsSource alnum false (toSource alnum (commaSource alnum first buf) v) vs
/-- The loop over the fields (ast/mod.rs:261-272) with `JsonField::to_source` (289-295). -/
def fieldsSource (alnum : Char → Bool) (first : Bool) (buf : SBuf) : List (Str × JsonVal ν) → SBuf
  | [] => buf
  | (k, v) :: fs =>
    fieldsSource alnum false (toSource alnum ((stringSource alnum (commaSource alnum first buf) k).push alnum [':']) v) fs
end
end

end Json

end Oaks
