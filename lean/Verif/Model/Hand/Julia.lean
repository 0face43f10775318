import Verif.Model.Prog

/-
The parser of `oak-julia` (examples/oak-julia/src/parser) as a program: one definition for every function it calls, in the order of the
source. Kinds are the places of the variants in their enums.
-/
namespace Oaks.Hand.Julia
open Prog

/-- `JuliaTokenType::If` (oak-julia lexer/token_type.rs:14). -/
abbrev tIf : Nat := 1
/-- `JuliaTokenType::ElseIf` (oak-julia lexer/token_type.rs:15). -/
abbrev tElseIf : Nat := 2
/-- `JuliaTokenType::Else` (oak-julia lexer/token_type.rs:16). -/
abbrev tElse : Nat := 3
/-- `JuliaTokenType::For` (oak-julia lexer/token_type.rs:17). -/
abbrev tFor : Nat := 4
/-- `JuliaTokenType::In` (oak-julia lexer/token_type.rs:19). -/
abbrev tIn : Nat := 6
/-- `JuliaTokenType::Function` (oak-julia lexer/token_type.rs:22). -/
abbrev tFunction : Nat := 9
/-- `JuliaTokenType::End` (oak-julia lexer/token_type.rs:23). -/
abbrev tEnd : Nat := 10
/-- `JuliaTokenType::Equal` (oak-julia lexer/token_type.rs:44). -/
abbrev tEqual : Nat := 29
/-- `JuliaTokenType::LeftParen` (oak-julia lexer/token_type.rs:73). -/
abbrev tLeftParen : Nat := 56
/-- `JuliaTokenType::RightParen` (oak-julia lexer/token_type.rs:74). -/
abbrev tRightParen : Nat := 57
/-- `JuliaTokenType::Comma` (oak-julia lexer/token_type.rs:79). -/
abbrev tComma : Nat := 62
/-- `JuliaTokenType::StringLiteral` (oak-julia lexer/token_type.rs:85). -/
abbrev tStringLiteral : Nat := 66
/-- `JuliaTokenType::Identifier` (oak-julia lexer/token_type.rs:91). -/
abbrev tIdentifier : Nat := 70
/-- `JuliaTokenType::Comment` (oak-julia lexer/token_type.rs:94). -/
abbrev tComment : Nat := 73
/-- `JuliaTokenType::Whitespace` (oak-julia lexer/token_type.rs:95). -/
abbrev tWhitespace : Nat := 74
/-- `JuliaTokenType::Newline` (oak-julia lexer/token_type.rs:96). -/
abbrev tNewline : Nat := 75
/-- `JuliaElementType::Root` (oak-julia parser/element_type.rs:9). -/
abbrev eRoot : Nat := 0
/-- `JuliaElementType::If` (oak-julia parser/element_type.rs:11). -/
abbrev eIf : Nat := 1
/-- `JuliaElementType::For` (oak-julia parser/element_type.rs:14). -/
abbrev eFor : Nat := 4
/-- `JuliaElementType::Function` (oak-julia parser/element_type.rs:18). -/
abbrev eFunction : Nat := 8
/-- `JuliaElementType::StringLiteral` (oak-julia parser/element_type.rs:81). -/
abbrev eStringLiteral : Nat := 65
/-- `JuliaElementType::Identifier` (oak-julia parser/element_type.rs:87). -/
abbrev eIdentifier : Nat := 69
/-- `JuliaElementType::Call` (oak-julia parser/element_type.rs:88). -/
abbrev eCall : Nat := 70
/-- `JuliaElementType::ArgumentList` (oak-julia parser/element_type.rs:89). -/
abbrev eArgumentList : Nat := 71

/-- The number of `skip_trivia` (oak-julia parser/mod.rs:22-32). -/
abbrev pSkipTrivia : Nat := 0
/-- The number of `parse_statement` (oak-julia parser/parse_top_level.rs:23-43). -/
abbrev pParseStatement : Nat := 1
/-- The number of `parse_if` (oak-julia parser/parse_top_level.rs:45-74). -/
abbrev pParseIf : Nat := 2
/-- The number of `parse_for` (oak-julia parser/parse_top_level.rs:76-106). -/
abbrev pParseFor : Nat := 3
/-- The number of `parse_function` (oak-julia parser/parse_top_level.rs:108-145). -/
abbrev pParseFunction : Nat := 4
/-- The number of `parse_expression` (oak-julia parser/parse_top_level.rs:147-185). -/
abbrev pParseExpression : Nat := 5

/-- `skip_trivia` (oak-julia parser/mod.rs:22-32). -/
def skipTrivia : Prog :=
  loop more
    (block [
      when_ more
        (when_ (seesAny [tWhitespace, tNewline, tComment])
          (block [
            bump,
            cont])),
      brk])

/-- `parse_statement` (oak-julia parser/parse_top_level.rs:23-43). -/
def parseStatement : Prog :=
  block [
    call pSkipTrivia,
    ite (sees tFunction)
      (call pParseFunction)
      (ite (sees tIf)
        (call pParseIf)
        (ite (sees tFor)
          (call pParseFor)
          (ite (sees tEnd)
            bump
            (call pParseExpression))))]

/-- `parse_if` (oak-julia parser/parse_top_level.rs:45-74). -/
def parseIf : Prog :=
  mark (block [
    bump,
    call pSkipTrivia,
    call pParseExpression,
    call pSkipTrivia,
    loop (and_ (and_ (and_ more (not_ (sees tElse))) (not_ (sees tElseIf))) (not_ (sees tEnd)))
      (block [
        call pParseStatement,
        call pSkipTrivia]),
    when_ (or_ (sees tElse) (sees tElseIf))
      (block [
        bump,
        call pSkipTrivia,
        loop (and_ more (not_ (sees tEnd)))
          (block [
            call pParseStatement,
            call pSkipTrivia])]),
    when_ (sees tEnd)
      bump,
    close eIf])

/-- `parse_for` (oak-julia parser/parse_top_level.rs:76-106). -/
def parseFor : Prog :=
  mark (block [
    bump,
    call pSkipTrivia,
    when_ (sees tIdentifier)
      bump,
    call pSkipTrivia,
    when_ (or_ (sees tEqual) (sees tIn))
      bump,
    call pSkipTrivia,
    call pParseExpression,
    call pSkipTrivia,
    loop (and_ more (not_ (sees tEnd)))
      (block [
        call pParseStatement,
        call pSkipTrivia]),
    when_ (sees tEnd)
      bump,
    close eFor])

/-- `parse_function` (oak-julia parser/parse_top_level.rs:108-145). -/
def parseFunction : Prog :=
  mark (block [
    bump,
    call pSkipTrivia,
    when_ (sees tIdentifier)
      (mark (block [
        bump,
        close eIdentifier])),
    when_ (sees tLeftParen)
      (block [
        bump,
        call pSkipTrivia,
        loop (and_ more (not_ (sees tRightParen)))
          bump,
        when_ (sees tRightParen)
          bump]),
    call pSkipTrivia,
    loop (and_ more (not_ (sees tEnd)))
      (block [
        call pParseStatement,
        call pSkipTrivia]),
    when_ (sees tEnd)
      bump,
    close eFunction])

/-- `parse_expression` (oak-julia parser/parse_top_level.rs:147-185). The node of the identifier was made at `cp`, so `checkpoint_before`
(line 157) finds the place of `cp`. -/
def parseExpression : Prog :=
  block [
    call pSkipTrivia,
    mark (ite (sees tIdentifier)
      (block [
        bump,
        close eIdentifier,
        call pSkipTrivia,
        when_ (sees tLeftParen)
          (block [
            bump,
            call pSkipTrivia,
            mark (block [
              loop (and_ more (not_ (sees tRightParen)))
                (block [
                  call pParseExpression,
                  call pSkipTrivia,
                  when_ (sees tComma)
                    (block [
                      bump,
                      call pSkipTrivia])]),
              close eArgumentList]),
            when_ (sees tRightParen)
              bump,
            close eCall])])
      (ite (sees tStringLiteral)
        (block [
          bump,
          close eStringLiteral])
        (when_ more
          bump)))]

/-- `parse_root_internal` between the checkpoint and the last `finish_at` (oak-julia parser/parse_top_level.rs:9-21). -/
def main : Prog :=
  loop more
    (block [
      call pSkipTrivia,
      when_ (not_ more)
        brk,
      call pParseStatement])

/-- The parser (`parse_root_internal`, oak-julia parser/parse_top_level.rs:9-21; `is_ignored`, oak-julia lexer/token_type.rs:234-236). -/
def parser : HandParser where
  ign := []
  fromStart := false
  root := eRoot
  main := main
  procs := [skipTrivia, parseStatement, parseIf, parseFor, parseFunction, parseExpression]

end Oaks.Hand.Julia
