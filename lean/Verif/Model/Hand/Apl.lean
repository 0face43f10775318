import Verif.Model.Prog

/-
The parser of `oak-apl` (examples/oak-apl/src/parser) as a program: one definition for every function it calls, in the order of the
source. Kinds are the places of the variants in their enums.
-/
namespace Oaks.Hand.Apl
open Prog

/-- `AplTokenType::Whitespace` (oak-apl lexer/token_type.rs:9). -/
abbrev tWhitespace : Nat := 0
/-- `AplTokenType::Newline` (oak-apl lexer/token_type.rs:10). -/
abbrev tNewline : Nat := 1
/-- `AplTokenType::Comment` (oak-apl lexer/token_type.rs:11). -/
abbrev tComment : Nat := 2
/-- `AplTokenType::StringLiteral` (oak-apl lexer/token_type.rs:13). -/
abbrev tStringLiteral : Nat := 3
/-- `AplTokenType::NumberLiteral` (oak-apl lexer/token_type.rs:14). -/
abbrev tNumberLiteral : Nat := 4
/-- `AplTokenType::Identifier` (oak-apl lexer/token_type.rs:15). -/
abbrev tIdentifier : Nat := 5
/-- `AplTokenType::LeftArrow` (oak-apl lexer/token_type.rs:18). -/
abbrev tLeftArrow : Nat := 6
/-- `AplTokenType::Diamond` (oak-apl lexer/token_type.rs:20). -/
abbrev tDiamond : Nat := 8
/-- `AplTokenType::LeftParen` (oak-apl lexer/token_type.rs:73). -/
abbrev tLeftParen : Nat := 55
/-- `AplTokenType::RightParen` (oak-apl lexer/token_type.rs:74). -/
abbrev tRightParen : Nat := 56
/-- `AplTokenType::LeftBrace` (oak-apl lexer/token_type.rs:77). -/
abbrev tLeftBrace : Nat := 59
/-- `AplTokenType::RightBrace` (oak-apl lexer/token_type.rs:78). -/
abbrev tRightBrace : Nat := 60
/-- `AplTokenType::Eof` (oak-apl lexer/token_type.rs:81). -/
abbrev tEof : Nat := 62
/-- `AplElementType::Root` (oak-apl parser/element_type.rs:15). -/
abbrev eRoot : Nat := 0
/-- `AplElementType::Statement` (oak-apl parser/element_type.rs:17). -/
abbrev eStatement : Nat := 1
/-- `AplElementType::Expression` (oak-apl parser/element_type.rs:19). -/
abbrev eExpression : Nat := 2
/-- `AplElementType::Assignment` (oak-apl parser/element_type.rs:21). -/
abbrev eAssignment : Nat := 3

/-- The number of `parse_statement` (oak-apl parser/mod.rs:25-41). -/
abbrev pParseStatement : Nat := 0
/-- The number of `parse_expression` (oak-apl parser/mod.rs:44-78). -/
abbrev pParseExpression : Nat := 1

/-- `parse_statement` (oak-apl parser/mod.rs:25-41). -/
def parseStatement : Prog :=
  mark (ite (and_ (sees tIdentifier) (ask (fun v => v.kindAt 1 == some tLeftArrow)))
    (block [
      advance,
      advance,
      call pParseExpression,
      close eAssignment])
    (block [
      call pParseExpression,
      close eStatement]))

/-- `parse_expression` (oak-apl parser/mod.rs:44-78). -/
def parseExpression : Prog :=
  mark (block [
    loop (and_ (and_ more (not_ (sees tNewline))) (not_ (sees tDiamond)))
      (ite (sees tIdentifier)
        advance
        (ite (sees tNumberLiteral)
          advance
          (ite (sees tStringLiteral)
            advance
            (ite (sees tLeftParen)
              (block [
                advance,
                call pParseExpression,
                expect tRightParen])
              (ite (sees tLeftBrace)
                (block [
                  advance,
                  loop (and_ more (not_ (sees tRightBrace)))
                    advance,
                  expect tRightBrace])
                advance))))),
    close eExpression])

/-- `parse` between the checkpoint and the last `finish_at` (oak-apl parser/mod.rs:82-107). -/
def main : Prog :=
  loop (and_ more (not_ (sees tEof)))
    (block [
      when_ (or_ (sees tNewline) (sees tWhitespace))
        (block [
          advance,
          cont]),
      when_ (sees tComment)
        (block [
          advance,
          cont]),
      call pParseStatement,
      when_ (sees tDiamond)
        advance])

/-- The parser (`parse`, oak-apl parser/mod.rs:82-107; `is_ignored`, oak-apl lexer/token_type.rs:103-109, oak-core language/mod.rs:298-300). -/
def parser : HandParser where
  ign := [tWhitespace, tNewline, tComment]
  fromStart := false
  root := eRoot
  main := main
  procs := [parseStatement, parseExpression]

end Oaks.Hand.Apl
