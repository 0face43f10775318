import Verif.Model.Prs
import Verif.Model.Scan

/-
Model of `examples/oak-ini/src`: `lexer/mod.rs`, `parser/mod.rs`, `parser/parse_top_level.rs`.

Simplifications: kinds of tokens and nodes are their index in `IniTokenType` (lexer/token_type.rs:9-35) and `IniElementType`
(parser/element_type.rs:7-45), which agree where both have the kind; `lex` and `parse` start from an empty session without edits;
`parse_array` and `parse_inline_table` call `parse_value` again: the depth of these calls is bounded by the number of tokens, which every
such call has fewer of; of the builder (builder/mod.rs:15-34) only what it does with a parser that returned an error is kept, because
there is no other case (`C81_refused`).
-/
namespace Oaks.Ini
open Oaks

/-- `IniTokenType::Whitespace` (lexer/token_type.rs:9-35). -/
def whitespace : Nat := 0
/-- `IniTokenType::Newline` (lexer/token_type.rs:9-35). -/
def newline : Nat := 1
/-- `IniTokenType::Comment` (lexer/token_type.rs:9-35). -/
def comment : Nat := 2
/-- `IniTokenType::Eof` (lexer/token_type.rs:9-35). -/
def eof : Nat := 4
/-- `IniTokenType::LeftBrace` (lexer/token_type.rs:9-35). -/
def leftBrace : Nat := 5
/-- `IniTokenType::RightBrace` (lexer/token_type.rs:9-35). -/
def rightBrace : Nat := 6
/-- `IniTokenType::LeftBracket` (lexer/token_type.rs:9-35). -/
def leftBracket : Nat := 7
/-- `IniTokenType::RightBracket` (lexer/token_type.rs:9-35). -/
def rightBracket : Nat := 8
/-- `IniTokenType::DoubleLeftBracket` (lexer/token_type.rs:9-35). -/
def doubleLeftBracket : Nat := 9
/-- `IniTokenType::DoubleRightBracket` (lexer/token_type.rs:9-35). -/
def doubleRightBracket : Nat := 10
/-- `IniTokenType::Comma` (lexer/token_type.rs:9-35). -/
def comma : Nat := 11
/-- `IniTokenType::Dot` (lexer/token_type.rs:9-35). -/
def dot : Nat := 12
/-- `IniTokenType::Equal` (lexer/token_type.rs:9-35). -/
def equal : Nat := 13
/-- `IniTokenType::Identifier` (lexer/token_type.rs:9-35). -/
def identifier : Nat := 14
/-- `IniTokenType::String` (lexer/token_type.rs:9-35). -/
def string : Nat := 15
/-- `IniTokenType::Integer` (lexer/token_type.rs:9-35). -/
def integer : Nat := 16
/-- `IniTokenType::Float` (lexer/token_type.rs:9-35). -/
def float : Nat := 17
/-- `IniTokenType::Boolean` (lexer/token_type.rs:9-35). -/
def boolean : Nat := 18
/-- `IniTokenType::DateTime` (lexer/token_type.rs:9-35). -/
def dateTime : Nat := 19
/-- `IniElementType::Root` (parser/element_type.rs:7-45). -/
def root : Nat := 20
/-- `IniElementType::Table` (parser/element_type.rs:7-45). -/
def table : Nat := 23
/-- `IniElementType::ArrayOfTables` (parser/element_type.rs:7-45). -/
def arrayOfTables : Nat := 24
/-- `IniElementType::KeyValue` (parser/element_type.rs:7-45). -/
def keyValue : Nat := 25
/-- `IniElementType::Key` (parser/element_type.rs:7-45). -/
def key : Nat := 26
/-- `IniElementType::Value` (parser/element_type.rs:7-45). -/
def value : Nat := 27
/-- `IniElementType::Array` (parser/element_type.rs:7-45). -/
def array : Nat := 28
/-- `IniElementType::InlineTable` (parser/element_type.rs:7-45). -/
def inlineTable : Nat := 29

/-! ### The lexer -/

section
open Scn

/-- `ch == ' ' || ch == '\t' || ch == '\r'` (lexer/mod.rs:81). -/
def isBlank (c : Char) : Bool := c == ' ' || c == '\t' || c == '\r'
/-- `char::is_ascii_digit` (lexer/mod.rs:178, 185, 199). -/
def isDigit (c : Char) : Bool := decide ('0' ≤ c ∧ c ≤ '9')
/-- `ch.is_ascii_alphabetic() || ch == '_'` (lexer/mod.rs:248). -/
def nameStart (c : Char) : Bool := decide ('a' ≤ c ∧ c ≤ 'z') || decide ('A' ≤ c ∧ c ≤ 'Z') || c == '_'
/-- `c.is_ascii_alphanumeric() || c == '_' || c == '-'` (lexer/mod.rs:254). -/
def nameChar (c : Char) : Bool := nameStart c || isDigit c || c == '-'

/-- `skip_whitespace` (lexer/mod.rs:77-94). -/
def skipWhitespace : Scn Bool := do
  whilePeek isBlank Char.utf8Size
  if ← hasMoved then do tok whitespace; return true else return false

/-- `lex_newline` (lexer/mod.rs:97-106). -/
def lexNewline : Scn Bool := do
  if (← look) = some '\n' then do skip 1; tok newline; return true else return false

/-- `skip_comment` (lexer/mod.rs:109-132). -/
def skipComment : Scn Bool := do
  match ← look with
  | some c =>
    if c = ';' ∨ c = '#' then do
      skip 1
      whilePeek (fun c => !(c == '\n')) Char.utf8Size
      tok comment
      return true
    else return false
  | none => return false

/-- A turn of the loop over a string (lexer/mod.rs:143-160). -/
def stringTurn (quote : Char) (i : Nat) : Scn (Bool × Nat) := do
  match ← look with
  | some c =>
    if c ≠ quote then
      if c = '\\' then do
        skip 1
        match ← look with
        | some _ => do skip 1; return (true, i)
        | none => return (true, i)
      else do skip c.utf8Size; return (true, i)
    else do skip 1; return (false, i)
  | none => return (false, i)

/-- `lex_string_literal` (lexer/mod.rs:135-167). -/
def lexString : Scn Bool := do
  match ← look with
  | some q =>
    if q = '"' ∨ q = '\'' then do
      skip 1
      let _ ← while_ 0 (stringTurn q)
      tok string
      return true
    else return false
  | none => return false

/-- The sign after the letter of an exponent, if there is one (lexer/mod.rs:210-214). -/
def exponentSign : Scn Unit := do
  match ← look with
  | some c => if c = '+' ∨ c = '-' then skip 1 else pure ()
  | none => pure ()

/-- A turn of the loop over a number (lexer/mod.rs:198-219): 1 says `has_dot` alone, 2 `has_exp`, whether or not `has_dot`, which does not
matter any more. -/
def numberTurn (i : Nat) : Scn (Bool × Nat) := do
  match ← look with
  | some c =>
    if isDigit c then do skip 1; return (true, i)
    else if c = '.' ∧ i = 0 then do skip 1; return (true, 1)
    else if (c = 'e' ∨ c = 'E') ∧ i ≠ 2 then do skip 1; exponentSign; return (true, 2)
    else return (false, i)
  | none => return (false, i)

/-- `lex_number_literal` from `state.advance(1)` on (lexer/mod.rs:194-236). -/
def numberRest : Scn Bool := do
  skip 1
  let i ← while_ 0 numberTurn
  let text ← word
  if text = ['-'] ∨ text = ['+'] ∨ text = ['.'] then do back; return false
  else if i = 0 then do tok integer; return true
  else do tok float; return true

/-- `lex_number_literal` (lexer/mod.rs:170-237). -/
def lexNumber : Scn Bool := do
  match ← look with
  | some c =>
    if isDigit c then numberRest
    else if c = '-' ∨ c = '+' then
      match ← lookN 1 with
      | some d => if isDigit d then numberRest else return false
      | none => return false
    else return false
  | none => return false

/-- The kind of a word (lexer/mod.rs:262-274); its characters are ASCII, so `to_lowercase` is `Char.toLower` of each. -/
def wordKind (text : Str) : Nat :=
  if text.map Char.toLower = "true".toList ∨ text.map Char.toLower = "false".toList then boolean
  else if '-' ∈ text ∧ ':' ∈ text then dateTime
  else identifier

/-- `lex_identifier` (lexer/mod.rs:240-280). -/
def lexIdentifier : Scn Bool := do
  match ← look with
  | some c =>
    if nameStart c then do
      skip 1
      whilePeek nameChar (fun _ => 1)
      let text ← word
      tok (wordKind text)
      return true
    else return false
  | none => return false

/-- The `match` of `lex_punctuation` (lexer/mod.rs:301-310). -/
def markKind (c : Char) : Option Nat :=
  if c = '{' then some leftBrace
  else if c = '}' then some rightBrace
  else if c = '[' then some leftBracket
  else if c = ']' then some rightBracket
  else if c = ',' then some comma
  else if c = '.' then some dot
  else if c = '=' then some equal
  else none

/-- `lex_punctuation` (lexer/mod.rs:283-317). -/
def lexPunctuation : Scn Bool := do
  if ← sees ['[', '['] then do skip 2; tok doubleLeftBracket; return true
  else if ← sees [']', ']'] then do skip 2; tok doubleRightBracket; return true
  else do
    match ← look with
    | some c =>
      match markKind c with
      | some k => do skip c.utf8Size; tok k; return true
      | none => return false
    | none => return false

/-- A turn of `run` (lexer/mod.rs:38-73). -/
def step : Scn Next := firstOf [skipWhitespace, lexNewline, skipComment, lexString, lexNumber, lexIdentifier, lexPunctuation]

/-- `IniLexer::lex` (lexer/mod.rs:22-29). -/
def lex (src : Source) : Run (List Tok) := Scn.lex src step eof

end

/-! ### The parser -/

open Prs

/-- `is_ignored`: white space, line ends, comments (lexer/token_type.rs:41-43). -/
def ign (k : Nat) : Bool := k == whitespace || k == newline || k == comment

/-- `skip_trivia` (parser/parse_top_level.rs:149-153). -/
def skipTrivia : Prs Unit :=
  while_ (do return (← sees whitespace) || (← sees comment) || (← sees newline)) (bump ign)

/-- `state.errors.push(err); return Err(…)` with the number of the token as offset (parser/parse_top_level.rs:64-66, 101-103); 2 says that a
key was expected, 3 a value. -/
def expected (code : Nat) : Prs Unit := do
  report code PState.index
  fail

/-- A part of a key (parser/parse_top_level.rs:57-67). -/
def keyPart : Prs Unit := do
  if ← sees identifier then bump ign
  else if ← sees string then bump ign
  else expected 2

/-- A turn of the loop of `parse_key` (parser/parse_top_level.rs:56-77). -/
def keyTurn : Prs Bool := do
  keyPart
  skipTrivia
  if ← sees dot then do bump ign; skipTrivia; return true else return false

/-- `parse_key` (parser/parse_top_level.rs:53-80). -/
def parseKey : Prs Unit := node key (loop_ keyTurn)

/-- `parse_key_value` (parser/parse_top_level.rs:39-51), with `parse_value`. -/
def parseKeyValue (value : Prs Unit) : Prs Unit := node keyValue do
  parseKey
  skipTrivia
  need ign equal
  skipTrivia
  value

/-- The comma of `parse_array` and `parse_inline_table` (parser/parse_top_level.rs:119-122, 138-141). -/
def optComma : Prs Unit := do
  if ← sees comma then do bump ign; skipTrivia else pure ()

/-- The lists of `parse_array` and `parse_inline_table` (parser/parse_top_level.rs:116-123, 135-142): items up to `close`. -/
def items (close : Nat) (item : Prs Unit) : Prs Unit :=
  while_ (do return (← more) && !(← sees close)) (do item; skipTrivia; optComma)

/-- `parse_array` (parser/parse_top_level.rs:111-128) with `parse_value`, and `parse_inline_table` (130-147) with `parse_key_value`. -/
def bracketed (open_ close kind : Nat) (item : Prs Unit) : Prs Unit := node kind do
  need ign open_
  skipTrivia
  items close item
  need ign close

/-- `parse_value` (parser/parse_top_level.rs:82-109), with a bound on the depth of the calls. -/
def parseValue : Nat → Prs Unit
  | 0 => fun _ => .error .spin
  | fuel + 1 => node value do
    match ← kind with
    | none => expected 3
    | some k =>
      if k = string ∨ k = integer ∨ k = float ∨ k = boolean ∨ k = dateTime then bump ign
      else if k = leftBracket then bracketed leftBracket rightBracket array (parseValue fuel)
      else if k = leftBrace then bracketed leftBrace rightBrace inlineTable (parseKeyValue (parseValue fuel))
      else expected 3

/-- The condition of the loop of `parse_table` (parser/parse_top_level.rs:27). -/
def inTable : Prs Bool := do return (← more) && !(← sees leftBracket) && !(← sees doubleLeftBracket)

/-- A turn of the loop of `parse_table` (parser/parse_top_level.rs:27-33). -/
def tableTurn (value : Prs Unit) : Prs Bool := do
  if ← inTable then do
    skipTrivia
    if ← inTable then do parseKeyValue value; return true else return false
  else return false

/-- `parse_table` (parser/parse_top_level.rs:11-37). -/
def parseTable (value : Prs Unit) : Prs Unit := do
  if ← sees doubleLeftBracket then node arrayOfTables do
    need ign doubleLeftBracket
    parseKey
    need ign doubleRightBracket
    loop_ (tableTurn value)
  else node table do
    need ign leftBracket
    parseKey
    need ign rightBracket
    loop_ (tableTurn value)

/-- A table or a line (parser/mod.rs:42-43). -/
def rootItem (value : Prs Unit) : Prs Unit := do
  if (← sees leftBracket) || (← sees doubleLeftBracket) then parseTable value else parseKeyValue value

/-- A turn of the loop of `parse_root_internal` (parser/mod.rs:37-44). -/
def rootTurn (value : Prs Unit) : Prs Bool := do
  if ← more then do
    skipTrivia
    if ← more then do
      rootItem value
      return true
    else return false
  else return false

/-- `parse_root_internal` (parser/mod.rs:35-47), from the tokens: the tree, or nothing if it returned an error, and the recorded errors. -/
def parseTokens (toks : List Tok) (srcLen : Nat) : Run (Option Green × List PErr) :=
  Prs.parse ign root (loop_ (rootTurn (parseValue (toks.length + 1)))) toks srcLen

/-- `IniParser::parse` (parser/mod.rs:27-31). -/
def parse (src : Source) : Run (Option Green × List PErr) := do parseTokens (← lex src) src.length

end Oaks.Ini
