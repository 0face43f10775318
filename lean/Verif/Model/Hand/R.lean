import Verif.Model.Prog

/-
The parser of `oak-r` (examples/oak-r/src/parser) as a program: one definition for every function it calls, in the order of the
source. Kinds are the places of the variants in their enums.
-/
namespace Oaks.Hand.R
open Prog

/-- `RTokenType::Newline` (oak-r lexer/token_type.rs:36). -/
abbrev tNewline : Nat := 1
/-- `RTokenType::StringLiteral` (oak-r lexer/token_type.rs:42). -/
abbrev tStringLiteral : Nat := 3
/-- `RTokenType::IntegerLiteral` (oak-r lexer/token_type.rs:43). -/
abbrev tIntegerLiteral : Nat := 4
/-- `RTokenType::FloatLiteral` (oak-r lexer/token_type.rs:44). -/
abbrev tFloatLiteral : Nat := 5
/-- `RTokenType::BooleanLiteral` (oak-r lexer/token_type.rs:45). -/
abbrev tBooleanLiteral : Nat := 6
/-- `RTokenType::Identifier` (oak-r lexer/token_type.rs:56). -/
abbrev tIdentifier : Nat := 15
/-- `RTokenType::Function` (oak-r lexer/token_type.rs:67). -/
abbrev tFunction : Nat := 24
/-- `RTokenType::LeftArrow` (oak-r lexer/token_type.rs:93). -/
abbrev tLeftArrow : Nat := 48
/-- `RTokenType::LeftParen` (oak-r lexer/token_type.rs:101). -/
abbrev tLeftParen : Nat := 54
/-- `RTokenType::RightParen` (oak-r lexer/token_type.rs:102). -/
abbrev tRightParen : Nat := 55
/-- `RTokenType::LeftBrace` (oak-r lexer/token_type.rs:105). -/
abbrev tLeftBrace : Nat := 58
/-- `RTokenType::RightBrace` (oak-r lexer/token_type.rs:106). -/
abbrev tRightBrace : Nat := 59
/-- `RTokenType::Comma` (oak-r lexer/token_type.rs:107). -/
abbrev tComma : Nat := 60
/-- `RTokenType::Semicolon` (oak-r lexer/token_type.rs:108). -/
abbrev tSemicolon : Nat := 61
/-- `RElementType::Function` (oak-r parser/element_type.rs:42). -/
abbrev eFunction : Nat := 24
/-- `RElementType::Root` (oak-r parser/element_type.rs:93). -/
abbrev eRoot : Nat := 69
/-- `RElementType::Assignment` (oak-r parser/element_type.rs:96). -/
abbrev eAssignment : Nat := 70
/-- `RElementType::LiteralExpression` (oak-r parser/element_type.rs:99). -/
abbrev eLiteralExpression : Nat := 73
/-- `RElementType::IdentifierExpression` (oak-r parser/element_type.rs:100). -/
abbrev eIdentifierExpression : Nat := 74
/-- `RElementType::CallExpression` (oak-r parser/element_type.rs:101). -/
abbrev eCallExpression : Nat := 75
/-- `RElementType::BlockExpression` (oak-r parser/element_type.rs:103). -/
abbrev eBlockExpression : Nat := 77

/-- The number of `parse_statement` (oak-r parser/parse_top_level.rs:20-64). -/
abbrev pParseStatement : Nat := 0
/-- The number of `parse_expression` (oak-r parser/parse_top_level.rs:66-94). -/
abbrev pParseExpression : Nat := 1

/-- `parse_statement` (oak-r parser/parse_top_level.rs:20-64). -/
def parseStatement : Prog :=
  ite (and_ (sees tIdentifier) (ask (fun v => v.kindAt 1 == some tLeftArrow)))
    (mark (block [
      bump,
      bump,
      call pParseExpression,
      close eAssignment]))
    (ite (sees tFunction)
      (mark (block [
        bump,
        when_ (sees tLeftParen)
          (block [
            bump,
            loop (and_ (not_ (sees tRightParen)) more)
              (block [
                when_ (sees tIdentifier)
                  bump,
                when_ (sees tComma)
                  bump]),
            when_ (sees tRightParen)
              bump]),
        when_ (sees tLeftBrace)
          (mark (block [
            bump,
            loop (and_ (not_ (sees tRightBrace)) more)
              (block [
                call pParseStatement,
                loop (or_ (sees tNewline) (sees tSemicolon))
                  bump]),
            when_ (sees tRightBrace)
              bump,
            close eBlockExpression])),
        close eFunction]))
      (call pParseExpression))

/-- `parse_expression` (oak-r parser/parse_top_level.rs:66-94). -/
def parseExpression : Prog :=
  block [
    mark (ite (sees tIdentifier)
      (block [
        bump,
        ite (sees tLeftParen)
          (block [
            bump,
            loop (and_ (not_ (sees tRightParen)) more)
              (block [
                call pParseExpression,
                when_ (sees tComma)
                  bump]),
            when_ (sees tRightParen)
              bump,
            close eCallExpression])
          (close eIdentifierExpression)])
      (ite (or_ (or_ (or_ (sees tIntegerLiteral) (sees tFloatLiteral)) (sees tStringLiteral)) (sees tBooleanLiteral))
        (block [
          bump,
          close eLiteralExpression])
        bump))]

/-- `parse_root_internal` between the checkpoint and the last `finish_at` (oak-r parser/parse_top_level.rs:9-18). -/
def main : Prog :=
  loop more
    (block [
      call pParseStatement,
      loop (or_ (sees tNewline) (sees tSemicolon))
        bump])

/-- The parser (`parse_root_internal`, oak-r parser/parse_top_level.rs:9-18; `is_ignored`, oak-r lexer/token_type.rs:17-19). -/
def parser : HandParser where
  ign := []
  fromStart := false
  root := eRoot
  main := main
  procs := [parseStatement, parseExpression]

end Oaks.Hand.R
