import Verif.Model.Prog

/-
The parser of `oak-elixir` (examples/oak-elixir/src/parser) as a program: one definition for every function it calls, in the order of the
source. Kinds are the places of the variants in their enums.
-/
namespace Oaks.Hand.Elixir
open Prog

/-- `ElixirTokenType::Whitespace` (oak-elixir lexer/token_type.rs:9). -/
abbrev tWhitespace : Nat := 1
/-- `ElixirTokenType::Newline` (oak-elixir lexer/token_type.rs:10). -/
abbrev tNewline : Nat := 2
/-- `ElixirTokenType::Comment` (oak-elixir lexer/token_type.rs:11). -/
abbrev tComment : Nat := 3
/-- `ElixirTokenType::Identifier` (oak-elixir lexer/token_type.rs:12). -/
abbrev tIdentifier : Nat := 4
/-- `ElixirTokenType::Atom` (oak-elixir lexer/token_type.rs:13). -/
abbrev tAtom : Nat := 5
/-- `ElixirTokenType::Number` (oak-elixir lexer/token_type.rs:15). -/
abbrev tNumber : Nat := 7
/-- `ElixirTokenType::Float` (oak-elixir lexer/token_type.rs:16). -/
abbrev tFloat : Nat := 8
/-- `ElixirTokenType::String` (oak-elixir lexer/token_type.rs:17). -/
abbrev tString : Nat := 9
/-- `ElixirTokenType::Character` (oak-elixir lexer/token_type.rs:18). -/
abbrev tCharacter : Nat := 10
/-- `ElixirTokenType::Def` (oak-elixir lexer/token_type.rs:26). -/
abbrev tDef : Nat := 17
/-- `ElixirTokenType::Defp` (oak-elixir lexer/token_type.rs:27). -/
abbrev tDefp : Nat := 18
/-- `ElixirTokenType::Defmodule` (oak-elixir lexer/token_type.rs:28). -/
abbrev tDefmodule : Nat := 19
/-- `ElixirTokenType::Do` (oak-elixir lexer/token_type.rs:34). -/
abbrev tDo : Nat := 25
/-- `ElixirTokenType::End` (oak-elixir lexer/token_type.rs:37). -/
abbrev tEnd : Nat := 28
/-- `ElixirTokenType::Plus` (oak-elixir lexer/token_type.rs:53). -/
abbrev tPlus : Nat := 42
/-- `ElixirTokenType::Minus` (oak-elixir lexer/token_type.rs:54). -/
abbrev tMinus : Nat := 43
/-- `ElixirTokenType::Mul` (oak-elixir lexer/token_type.rs:55). -/
abbrev tMul : Nat := 44
/-- `ElixirTokenType::Div` (oak-elixir lexer/token_type.rs:56). -/
abbrev tDiv : Nat := 45
/-- `ElixirTokenType::Dot` (oak-elixir lexer/token_type.rs:57). -/
abbrev tDot : Nat := 46
/-- `ElixirTokenType::Comma` (oak-elixir lexer/token_type.rs:58). -/
abbrev tComma : Nat := 47
/-- `ElixirTokenType::Semicolon` (oak-elixir lexer/token_type.rs:59). -/
abbrev tSemicolon : Nat := 48
/-- `ElixirTokenType::LeftParen` (oak-elixir lexer/token_type.rs:61). -/
abbrev tLeftParen : Nat := 50
/-- `ElixirTokenType::RightParen` (oak-elixir lexer/token_type.rs:62). -/
abbrev tRightParen : Nat := 51
/-- `ElixirTokenType::LeftBrace` (oak-elixir lexer/token_type.rs:63). -/
abbrev tLeftBrace : Nat := 52
/-- `ElixirTokenType::RightBrace` (oak-elixir lexer/token_type.rs:64). -/
abbrev tRightBrace : Nat := 53
/-- `ElixirTokenType::LeftBracket` (oak-elixir lexer/token_type.rs:65). -/
abbrev tLeftBracket : Nat := 54
/-- `ElixirTokenType::RightBracket` (oak-elixir lexer/token_type.rs:66). -/
abbrev tRightBracket : Nat := 55
/-- `ElixirTokenType::Eq` (oak-elixir lexer/token_type.rs:71). -/
abbrev tEq : Nat := 58
/-- `ElixirTokenType::EqEq` (oak-elixir lexer/token_type.rs:72). -/
abbrev tEqEq : Nat := 59
/-- `ElixirTokenType::Ne` (oak-elixir lexer/token_type.rs:73). -/
abbrev tNe : Nat := 60
/-- `ElixirTokenType::Lt` (oak-elixir lexer/token_type.rs:74). -/
abbrev tLt : Nat := 61
/-- `ElixirTokenType::Le` (oak-elixir lexer/token_type.rs:75). -/
abbrev tLe : Nat := 62
/-- `ElixirTokenType::Gt` (oak-elixir lexer/token_type.rs:76). -/
abbrev tGt : Nat := 63
/-- `ElixirTokenType::Ge` (oak-elixir lexer/token_type.rs:77). -/
abbrev tGe : Nat := 64
/-- `ElixirTokenType::AndAnd` (oak-elixir lexer/token_type.rs:78). -/
abbrev tAndAnd : Nat := 65
/-- `ElixirTokenType::OrOr` (oak-elixir lexer/token_type.rs:79). -/
abbrev tOrOr : Nat := 66
/-- `ElixirTokenType::Bang` (oak-elixir lexer/token_type.rs:80). -/
abbrev tBang : Nat := 67
/-- `ElixirTokenType::Concat` (oak-elixir lexer/token_type.rs:81). -/
abbrev tConcat : Nat := 68
/-- `ElixirTokenType::PlusPlus` (oak-elixir lexer/token_type.rs:82). -/
abbrev tPlusPlus : Nat := 69
/-- `ElixirTokenType::MinusMinus` (oak-elixir lexer/token_type.rs:83). -/
abbrev tMinusMinus : Nat := 70
/-- `ElixirTokenType::Pipeline` (oak-elixir lexer/token_type.rs:84). -/
abbrev tPipeline : Nat := 71
/-- `ElixirTokenType::At` (oak-elixir lexer/token_type.rs:87). -/
abbrev tAt : Nat := 74
/-- `ElixirTokenType::Percent` (oak-elixir lexer/token_type.rs:88). -/
abbrev tPercent : Nat := 75
/-- `ElixirElementType::Root` (oak-elixir parser/element_type.rs:10). -/
abbrev eRoot : Nat := 0
/-- `ElixirElementType::ModuleDefinition` (oak-elixir parser/element_type.rs:71). -/
abbrev eModuleDefinition : Nat := 58
/-- `ElixirElementType::FunctionDefinition` (oak-elixir parser/element_type.rs:72). -/
abbrev eFunctionDefinition : Nat := 59
/-- `ElixirElementType::CallExpression` (oak-elixir parser/element_type.rs:73). -/
abbrev eCallExpression : Nat := 60
/-- `ElixirElementType::BinaryExpression` (oak-elixir parser/element_type.rs:74). -/
abbrev eBinaryExpression : Nat := 61
/-- `ElixirElementType::UnaryExpression` (oak-elixir parser/element_type.rs:75). -/
abbrev eUnaryExpression : Nat := 62
/-- `ElixirElementType::LiteralExpression` (oak-elixir parser/element_type.rs:76). -/
abbrev eLiteralExpression : Nat := 63
/-- `ElixirElementType::IdentifierExpression` (oak-elixir parser/element_type.rs:77). -/
abbrev eIdentifierExpression : Nat := 64
/-- `ElixirElementType::AccessExpression` (oak-elixir parser/element_type.rs:79). -/
abbrev eAccessExpression : Nat := 66
/-- `ElixirElementType::ListLiteral` (oak-elixir parser/element_type.rs:80). -/
abbrev eListLiteral : Nat := 67
/-- `ElixirElementType::TupleLiteral` (oak-elixir parser/element_type.rs:81). -/
abbrev eTupleLiteral : Nat := 68
/-- `ElixirElementType::MapLiteral` (oak-elixir parser/element_type.rs:82). -/
abbrev eMapLiteral : Nat := 69
/-- `ElixirElementType::BlockExpression` (oak-elixir parser/element_type.rs:84). -/
abbrev eBlockExpression : Nat := 71
/-- `ElixirElementType::MatchExpression` (oak-elixir parser/element_type.rs:85). -/
abbrev eMatchExpression : Nat := 72
/-- `ElixirElementType::Error` (oak-elixir parser/element_type.rs:89). -/
abbrev eError : Nat := 75

/-- The number of `primary` (oak-elixir parser/mod.rs:35-109). -/
abbrev pPrimary : Nat := 0
/-- The number of `prefix` (oak-elixir parser/mod.rs:111-121). -/
abbrev pPrefix : Nat := 1
/-- The number of `parse_module` (oak-elixir parser/parse_top_level.rs:32-52). -/
abbrev pParseModule : Nat := 2
/-- The number of `parse_function` (oak-elixir parser/parse_top_level.rs:54-67). -/
abbrev pParseFunction : Nat := 3
/-- The precedences expressions are parsed with (oak-elixir parser/mod.rs:123-172). -/
abbrev levels : List Nat := [0, 1, 3, 4, 5, 6, 7, 8, 9, 10, 12, 13]
/-- The number of `PrattParser::parse` with a precedence (oak-core parser/pratt.rs:237-243): after the other functions. -/
abbrev pPratt (min : Nat) : Nat := 4 + levels.idxOf min

/-- `primary` (oak-elixir parser/mod.rs:35-109). -/
def primary : Prog :=
  mark (ite (sees tIdentifier)
    (block [
      bump,
      close eIdentifierExpression])
    (ite (sees tAtom)
      (block [
        bump,
        close eLiteralExpression])
      (ite (seesAny [tNumber, tFloat])
        (block [
          bump,
          close eLiteralExpression])
        (ite (seesAny [tString, tCharacter])
          (block [
            bump,
            close eLiteralExpression])
          (ite (sees tLeftParen)
            (block [
              bump,
              call (pPratt 0),
              expect tRightParen,
              close eBlockExpression])
            (ite (sees tLeftBracket)
              (block [
                bump,
                when_ (not_ (sees tRightBracket))
                  (loop (val true)
                    (block [
                      call (pPratt 0),
                      when_ (not_ (eat tComma))
                        brk])),
                expect tRightBracket,
                close eListLiteral])
              (ite (sees tLeftBrace)
                (block [
                  bump,
                  when_ (not_ (sees tRightBrace))
                    (loop (val true)
                      (block [
                        call (pPratt 0),
                        when_ (not_ (eat tComma))
                          brk])),
                  expect tRightBrace,
                  close eTupleLiteral])
                (ite (sees tPercent)
                  (block [
                    bump,
                    ite (eat tLeftBrace)
                      (block [
                        when_ (not_ (sees tRightBrace))
                          (loop (val true)
                            (block [
                              call (pPratt 0),
                              when_ (not_ (eat tComma))
                                brk])),
                        expect tRightBrace,
                        close eMapLiteral])
                      (close eError)])
                  (block [
                    bump,
                    close eError])))))))))

/-- `prefix` (oak-elixir parser/mod.rs:111-121). -/
def prefix_ : Prog :=
  ite more
    (ite (seesAny [tPlus, tMinus, tBang, tAt])
      (mark (block [
        bump,
        call (pPratt 13),
        close eUnaryExpression]))
      (call pPrimary))
    (call pPrimary)

/-- `parse_module` (oak-elixir parser/parse_top_level.rs:32-52). -/
def parseModule : Prog :=
  block [
    mark (block [
      expect tDefmodule,
      call (pPratt 0),
      expect tDo,
      loop (and_ more (not_ (sees tEnd)))
        (block [
          ite (seesAny [tDef, tDefp])
            (call pParseFunction)
            (ite more
              (call (pPratt 0))
              (ite (not_ more)
                brk
                (val true))),
          eat tSemicolon,
          eat tNewline]),
      expect tEnd,
      close eModuleDefinition])]

/-- `parse_function` (oak-elixir parser/parse_top_level.rs:54-67). -/
def parseFunction : Prog :=
  block [
    mark (block [
      bump,
      call (pPratt 0),
      when_ (eat tDo)
        (block [
          loop (and_ more (not_ (sees tEnd)))
            (block [
              call (pPratt 0),
              eat tSemicolon,
              eat tNewline]),
          expect tEnd]),
      close eFunctionDefinition])]

/-- `infix` (oak-elixir parser/mod.rs:123-172) with a least precedence. -/
def infix_ (min : Nat) : Prog :=
  ite more
    (ite (sees tEq)
      (level min 1
        (mark (block [
          back,
          bump,
          call (pPratt 1),
          close eMatchExpression])))
      (ite (sees tOrOr)
        (level min 2
          (mark (block [
            back,
            bump,
            call (pPratt 3),
            close eBinaryExpression])))
        (ite (sees tAndAnd)
          (level min 3
            (mark (block [
              back,
              bump,
              call (pPratt 4),
              close eBinaryExpression])))
          (ite (seesAny [tEqEq, tNe])
            (level min 4
              (mark (block [
                back,
                bump,
                call (pPratt 5),
                close eBinaryExpression])))
            (ite (seesAny [tLt, tLe, tGt, tGe])
              (level min 5
                (mark (block [
                  back,
                  bump,
                  call (pPratt 6),
                  close eBinaryExpression])))
              (ite (sees tPipeline)
                (level min 6
                  (mark (block [
                    back,
                    bump,
                    call (pPratt 7),
                    close eBinaryExpression])))
                (ite (seesAny [tConcat, tPlusPlus, tMinusMinus])
                  (level min 7
                    (mark (block [
                      back,
                      bump,
                      call (pPratt 8),
                      close eBinaryExpression])))
                  (ite (seesAny [tPlus, tMinus])
                    (level min 8
                      (mark (block [
                        back,
                        bump,
                        call (pPratt 9),
                        close eBinaryExpression])))
                    (ite (seesAny [tMul, tDiv])
                      (level min 9
                        (mark (block [
                          back,
                          bump,
                          call (pPratt 10),
                          close eBinaryExpression])))
                      (ite (sees tDot)
                        (level min 11
                          (block [
                            mark (block [
                              again,
                              bump,
                              call (pPratt 12),
                              close eAccessExpression])]))
                        (ite (sees tLeftParen)
                          (level min 12
                            (block [
                              mark (block [
                                again,
                                bump,
                                when_ (not_ (sees tRightParen))
                                  (loop (val true)
                                    (block [
                                      call (pPratt 0),
                                      when_ (not_ (eat tComma))
                                        brk])),
                                expect tRightParen,
                                close eCallExpression])]))
                          (val false))))))))))))
    (val false)

/-- `PrattParser::parse` (oak-core parser/pratt.rs:237-243). -/
def pratt (min : Nat) : Prog :=
  block [call pPrefix, loop (infix_ min) (val true)]

/-- `parse_root_internal` between the checkpoint and the last `finish_at` (oak-elixir parser/parse_top_level.rs:9-30). -/
def main : Prog :=
  loop more
    (block [
      ite (sees tDefmodule)
        (call pParseModule)
        (ite (seesAny [tDef, tDefp])
          (call pParseFunction)
          (ite more
            (call (pPratt 0))
            (ite (not_ more)
              brk
              (val true)))),
      eat tSemicolon,
      eat tNewline])

/-- The parser (`parse_root_internal`, oak-elixir parser/parse_top_level.rs:9-30; `is_ignored`, oak-elixir lexer/token_type.rs:137-139). -/
def parser : HandParser where
  ign := [tWhitespace, tComment, tNewline]
  fromStart := false
  root := eRoot
  main := main
  procs := [primary, prefix_, parseModule, parseFunction] ++ levels.map pratt

end Oaks.Hand.Elixir
