import Verif.Model.Flat
import Verif.Model.Scan

/-
Model of `examples/oak-toml/src/lexer/mod.rs` and `examples/oak-toml/src/parser/mod.rs`. `TomlBuilder::build` is `todo!`
(builder/mod.rs:16-18), so there is nothing behind the tree to model.

Simplifications: kinds of tokens are their index in `TomlTokenKind` (token_type.rs:7-44); `lex` starts from an empty cache.
-/
namespace Oaks.Toml
open Oaks Scn

/-- `TomlTokenKind::Whitespace` (token_type.rs:8). -/
def whitespace : Nat := 0
/-- `TomlTokenKind::Comment` (token_type.rs:10). -/
def comment : Nat := 2
/-- `TomlTokenKind::BasicString` (token_type.rs:14). -/
def basicString : Nat := 4
/-- `TomlTokenKind::LiteralString` (token_type.rs:15). -/
def literalString : Nat := 5
/-- `TomlTokenKind::Integer` (token_type.rs:16). -/
def integer : Nat := 6
/-- `TomlTokenKind::Float` (token_type.rs:17). -/
def float : Nat := 7
/-- `TomlTokenKind::Boolean` (token_type.rs:18). -/
def boolean : Nat := 8
/-- `TomlTokenKind::BareKey` (token_type.rs:26). -/
def bareKey : Nat := 14
/-- `TomlTokenKind::Equal` (token_type.rs:29). -/
def equal : Nat := 15
/-- `TomlTokenKind::Dot` (token_type.rs:30). -/
def dot : Nat := 16
/-- `TomlTokenKind::Comma` (token_type.rs:31). -/
def comma : Nat := 17
/-- `TomlTokenKind::LeftBrace` (token_type.rs:32). -/
def leftBrace : Nat := 18
/-- `TomlTokenKind::RightBrace` (token_type.rs:33). -/
def rightBrace : Nat := 19
/-- `TomlTokenKind::LeftBracket` (token_type.rs:34). -/
def leftBracket : Nat := 20
/-- `TomlTokenKind::RightBracket` (token_type.rs:35). -/
def rightBracket : Nat := 21
/-- `TomlTokenKind::DoubleLeftBracket` (token_type.rs:36). -/
def doubleLeftBracket : Nat := 22
/-- `TomlTokenKind::DoubleRightBracket` (token_type.rs:37). -/
def doubleRightBracket : Nat := 23
/-- `TomlTokenKind::Eof` (token_type.rs:41). -/
def eof : Nat := 25

/-- `' ' | '\t' | '\n' | '\r'` (lexer/mod.rs:39, 79). -/
def isBlank (c : Char) : Bool := c == ' ' || c == '\t' || c == '\n' || c == '\r'
/-- `char::is_ascii_digit`; `'0'..='9'` (lexer/mod.rs:48, 175). -/
def isDigit (c : Char) : Bool := decide ('0' ≤ c ∧ c ≤ '9')
/-- `char::is_ascii_alphabetic` (lexer/mod.rs:54, 276). -/
def isLetter (c : Char) : Bool := decide ('a' ≤ c ∧ c ≤ 'z') || decide ('A' ≤ c ∧ c ≤ 'Z')
/-- `c.is_ascii_alphanumeric() || c == '_' || c == '-'` (lexer/mod.rs:282). -/
def keyChar (c : Char) : Bool := isLetter c || isDigit c || c == '_' || c == '-'

/-- `skip_whitespace` (lexer/mod.rs:75-94). -/
def skipWhitespace : Scn Bool := do
  whilePeek isBlank (fun _ => 1)
  if ← hasMoved then do tok whitespace; return true else return false

/-- `skip_comment` (lexer/mod.rs:97-116). -/
def skipComment : Scn Bool := do
  match ← look with
  | some '#' => do
    skip 1
    whilePeek (fun c => !(c == '\n' || c == '\r')) Char.utf8Size
    tok comment
    return true
  | _ => return false

/-- A turn of the loop over a basic string (lexer/mod.rs:126-140). -/
def basicTurn (i : Nat) : Scn (Bool × Nat) := do
  match ← look with
  | some c =>
    if c = '"' then do skip 1; return (false, i)
    else if c = '\\' then do
      skip 1
      match ← look with
      | some _ => do skip 1; return (true, i)
      | none => return (true, i)
    else do skip 1; return (true, i)
  | none => return (false, i)

/-- A turn of the loop over a literal string (lexer/mod.rs:151-157). -/
def literalTurn (i : Nat) : Scn (Bool × Nat) := do
  match ← look with
  | some c => if c = '\'' then do skip 1; return (false, i) else do skip 1; return (true, i)
  | none => return (false, i)

/-- `lex_string` (lexer/mod.rs:119-166). -/
def lexString : Scn Bool := do
  match ← look with
  | some '"' => do
    skip 1
    let _ ← while_ 0 basicTurn
    tok basicString
    return true
  | some '\'' => do
    skip 1
    let _ ← while_ 0 literalTurn
    tok literalString
    return true
  | _ => return false

/-- The digits of `lex_number` and what follows them (lexer/mod.rs:181-199). -/
def numberTail : Scn Bool := do
  whilePeek isDigit (fun _ => 1)
  match ← look with
  | some c =>
    if c = '.' then do
      skip 1
      whilePeek isDigit (fun _ => 1)
      tok float
      return true
    else do tok integer; return true
  | none => do tok integer; return true

/-- `lex_number` (lexer/mod.rs:169-200). -/
def lexNumber : Scn Bool := do
  match ← look with
  | some c =>
    if isDigit c || c == '-' || c == '+' then
      if c == '-' || c == '+' then do skip 1; numberTail else numberTail
    else return false
  | none => return false

/-- `lex_punctuation` (lexer/mod.rs:203-271). -/
def lexPunctuation : Scn Bool := do
  match ← look with
  | some '[' => do
    skip 1
    match ← look with
    | some c => if c = '[' then do skip 1; tok doubleLeftBracket; return true else do tok leftBracket; return true
    | none => do tok leftBracket; return true
  | some ']' => do
    skip 1
    match ← look with
    | some c => if c = ']' then do skip 1; tok doubleRightBracket; return true else do tok rightBracket; return true
    | none => do tok rightBracket; return true
  | some '{' => do skip 1; tok leftBrace; return true
  | some '}' => do skip 1; tok rightBrace; return true
  | some ',' => do skip 1; tok comma; return true
  | some '.' => do skip 1; tok dot; return true
  | some '=' => do skip 1; tok equal; return true
  | _ => return false

/-- `lex_identifier` (lexer/mod.rs:274-300). -/
def lexIdentifier : Scn Bool := do
  match ← look with
  | some c =>
    if isLetter c || c == '_' then do
      whilePeek keyChar (fun _ => 1)
      let text ← word
      if text = "true".toList ∨ text = "false".toList then tok boolean else tok bareKey
      return true
    else return false
  | none => return false

/-- A turn of `run` (lexer/mod.rs:36-72); there is no `advance_if_dead_lock`. -/
def step : Scn Next := do
  match ← look with
  | some c =>
    if isBlank c then do let _ ← skipWhitespace; return .again
    else if c == '#' then do let _ ← skipComment; return .again
    else if c == '"' || c == '\'' then do let _ ← lexString; return .again
    else if isDigit c || c == '+' || c == '-' then do let _ ← lexNumber; return .again
    else if c ∈ "[]{},.=".toList then do let _ ← lexPunctuation; return .again
    else if isLetter c || c == '_' then do let _ ← lexIdentifier; return .again
    else do
      if ← lexPunctuation then return .again
      else do
        skip 1
        return .again
  | none => return .stop

/-- `lex` (lexer/mod.rs:20-27). -/
def lex (src : Source) : Run (List Tok) := Scn.lex src step eof

/-- The parser (parser/mod.rs:20-33); `is_ignored` by role (oak-core language/mod.rs:298-300, token_type.rs:52-54), root
`TomlTokenKind::Root` (token_type.rs:42). -/
def parser : FlatParser := ⟨fun k => k == whitespace || k == 1 || k == comment, 26, true⟩

/-- `TomlParser::parse` (parser/mod.rs:20-33). -/
def parse (src : Source) : Run (Green × List PErr) := do parser.parse (← lex src) src.length

end Oaks.Toml
