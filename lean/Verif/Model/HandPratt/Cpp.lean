import Verif.Model.Prog

/-
The parser of `oak-cpp` (examples/oak-cpp/src/parser) as a program: one definition for every function it calls, in the order of the
source. Kinds are the places of the variants in their enums.
-/
namespace Oaks.Hand.Cpp
open Prog

/-- `CppTokenType::Whitespace` (oak-cpp lexer/token_type.rs:12). -/
abbrev tWhitespace : Nat := 0
/-- `CppTokenType::Newline` (oak-cpp lexer/token_type.rs:14). -/
abbrev tNewline : Nat := 1
/-- `CppTokenType::Comment` (oak-cpp lexer/token_type.rs:16). -/
abbrev tComment : Nat := 2
/-- `CppTokenType::StringLiteral` (oak-cpp lexer/token_type.rs:20). -/
abbrev tStringLiteral : Nat := 3
/-- `CppTokenType::CharacterLiteral` (oak-cpp lexer/token_type.rs:22). -/
abbrev tCharacterLiteral : Nat := 4
/-- `CppTokenType::IntegerLiteral` (oak-cpp lexer/token_type.rs:24). -/
abbrev tIntegerLiteral : Nat := 5
/-- `CppTokenType::FloatLiteral` (oak-cpp lexer/token_type.rs:26). -/
abbrev tFloatLiteral : Nat := 6
/-- `CppTokenType::BooleanLiteral` (oak-cpp lexer/token_type.rs:28). -/
abbrev tBooleanLiteral : Nat := 7
/-- `CppTokenType::Identifier` (oak-cpp lexer/token_type.rs:32). -/
abbrev tIdentifier : Nat := 8
/-- `CppTokenType::Keyword` (oak-cpp lexer/token_type.rs:34). -/
abbrev tKeyword : Nat := 9
/-- `CppTokenType::Plus` (oak-cpp lexer/token_type.rs:38). -/
abbrev tPlus : Nat := 10
/-- `CppTokenType::Minus` (oak-cpp lexer/token_type.rs:40). -/
abbrev tMinus : Nat := 11
/-- `CppTokenType::Star` (oak-cpp lexer/token_type.rs:42). -/
abbrev tStar : Nat := 12
/-- `CppTokenType::Slash` (oak-cpp lexer/token_type.rs:44). -/
abbrev tSlash : Nat := 13
/-- `CppTokenType::Percent` (oak-cpp lexer/token_type.rs:46). -/
abbrev tPercent : Nat := 14
/-- `CppTokenType::Assign` (oak-cpp lexer/token_type.rs:48). -/
abbrev tAssign : Nat := 15
/-- `CppTokenType::PlusAssign` (oak-cpp lexer/token_type.rs:50). -/
abbrev tPlusAssign : Nat := 16
/-- `CppTokenType::MinusAssign` (oak-cpp lexer/token_type.rs:52). -/
abbrev tMinusAssign : Nat := 17
/-- `CppTokenType::StarAssign` (oak-cpp lexer/token_type.rs:54). -/
abbrev tStarAssign : Nat := 18
/-- `CppTokenType::SlashAssign` (oak-cpp lexer/token_type.rs:56). -/
abbrev tSlashAssign : Nat := 19
/-- `CppTokenType::PercentAssign` (oak-cpp lexer/token_type.rs:58). -/
abbrev tPercentAssign : Nat := 20
/-- `CppTokenType::Equal` (oak-cpp lexer/token_type.rs:60). -/
abbrev tEqual : Nat := 21
/-- `CppTokenType::NotEqual` (oak-cpp lexer/token_type.rs:62). -/
abbrev tNotEqual : Nat := 22
/-- `CppTokenType::Less` (oak-cpp lexer/token_type.rs:64). -/
abbrev tLess : Nat := 23
/-- `CppTokenType::Greater` (oak-cpp lexer/token_type.rs:66). -/
abbrev tGreater : Nat := 24
/-- `CppTokenType::LessEqual` (oak-cpp lexer/token_type.rs:68). -/
abbrev tLessEqual : Nat := 25
/-- `CppTokenType::GreaterEqual` (oak-cpp lexer/token_type.rs:70). -/
abbrev tGreaterEqual : Nat := 26
/-- `CppTokenType::LogicalAnd` (oak-cpp lexer/token_type.rs:72). -/
abbrev tLogicalAnd : Nat := 27
/-- `CppTokenType::LogicalOr` (oak-cpp lexer/token_type.rs:74). -/
abbrev tLogicalOr : Nat := 28
/-- `CppTokenType::AndAssign` (oak-cpp lexer/token_type.rs:90). -/
abbrev tAndAssign : Nat := 36
/-- `CppTokenType::OrAssign` (oak-cpp lexer/token_type.rs:92). -/
abbrev tOrAssign : Nat := 37
/-- `CppTokenType::XorAssign` (oak-cpp lexer/token_type.rs:94). -/
abbrev tXorAssign : Nat := 38
/-- `CppTokenType::LeftShiftAssign` (oak-cpp lexer/token_type.rs:96). -/
abbrev tLeftShiftAssign : Nat := 39
/-- `CppTokenType::RightShiftAssign` (oak-cpp lexer/token_type.rs:98). -/
abbrev tRightShiftAssign : Nat := 40
/-- `CppTokenType::Arrow` (oak-cpp lexer/token_type.rs:104). -/
abbrev tArrow : Nat := 43
/-- `CppTokenType::Scope` (oak-cpp lexer/token_type.rs:106). -/
abbrev tScope : Nat := 44
/-- `CppTokenType::Semicolon` (oak-cpp lexer/token_type.rs:112). -/
abbrev tSemicolon : Nat := 47
/-- `CppTokenType::Dot` (oak-cpp lexer/token_type.rs:116). -/
abbrev tDot : Nat := 49
/-- `CppTokenType::LeftParen` (oak-cpp lexer/token_type.rs:124). -/
abbrev tLeftParen : Nat := 52
/-- `CppTokenType::RightParen` (oak-cpp lexer/token_type.rs:126). -/
abbrev tRightParen : Nat := 53
/-- `CppTokenType::LeftBracket` (oak-cpp lexer/token_type.rs:128). -/
abbrev tLeftBracket : Nat := 54
/-- `CppTokenType::LeftBrace` (oak-cpp lexer/token_type.rs:132). -/
abbrev tLeftBrace : Nat := 56
/-- `CppTokenType::RightBrace` (oak-cpp lexer/token_type.rs:134). -/
abbrev tRightBrace : Nat := 57
/-- `CppTokenType::Preprocessor` (oak-cpp lexer/token_type.rs:142). -/
abbrev tPreprocessor : Nat := 60
/-- `CppElementType::SourceFile` (oak-cpp parser/element_type.rs:14). -/
abbrev eSourceFile : Nat := 1
/-- `CppElementType::Error` (oak-cpp parser/element_type.rs:16). -/
abbrev eError : Nat := 2

/-- The number of `parse_statement` (oak-cpp parser/mod.rs:35-53). -/
abbrev pParseStatement : Nat := 0
/-- The number of `parse_compound_statement` (oak-cpp parser/mod.rs:56-63). -/
abbrev pParseCompoundStatement : Nat := 1
/-- The number of `primary` (oak-cpp parser/mod.rs:82-105). -/
abbrev pPrimary : Nat := 2
/-- The number of `prefix` (oak-cpp parser/mod.rs:107-109). -/
abbrev pPrefix : Nat := 3
/-- The precedences expressions are parsed with (oak-cpp parser/mod.rs:111-151). -/
abbrev levels : List Nat := [0, 2, 3, 4, 10, 11, 15, 16]
/-- The number of `PrattParser::parse` with a precedence (oak-core parser/pratt.rs:237-243): after the other functions. -/
abbrev pPratt (min : Nat) : Nat := 4 + levels.idxOf min

/-- `parse_statement` (oak-cpp parser/mod.rs:35-53). -/
def parseStatement : Prog :=
  ite (sees tKeyword)
    (block [
      bump,
      loop (and_ more (not_ (sees tSemicolon)))
        advance,
      eat tSemicolon])
    (ite (sees tLeftBrace)
      (call pParseCompoundStatement)
      (ite (sees tPreprocessor)
        bump
        (block [
          call (pPratt 0),
          eat tSemicolon])))

/-- `parse_compound_statement` (oak-cpp parser/mod.rs:56-63). -/
def parseCompoundStatement : Prog :=
  block [
    expect tLeftBrace,
    loop (and_ more (not_ (sees tRightBrace)))
      (call pParseStatement),
    expect tRightBrace]

/-- `primary` (oak-cpp parser/mod.rs:82-105). -/
def primary : Prog :=
  mark (ite (sees tIdentifier)
    (block [
      bump,
      close eSourceFile])
    (ite (seesAny [tIntegerLiteral, tFloatLiteral, tCharacterLiteral, tStringLiteral, tBooleanLiteral])
      (block [
        bump,
        close eSourceFile])
      (ite (sees tLeftParen)
        (block [
          bump,
          call (pPratt 0),
          expect tRightParen,
          close eSourceFile])
        (block [
          bump,
          close eError]))))

/-- `prefix` (oak-cpp parser/mod.rs:107-109). -/
def prefix_ : Prog :=
  call pPrimary

/-- `infix` (oak-cpp parser/mod.rs:111-151) with a least precedence. -/
def infix_ (min : Nat) : Prog :=
  ite more
    (ite (seesAny [tAssign, tPlusAssign, tMinusAssign, tStarAssign, tSlashAssign, tPercentAssign, tAndAssign, tOrAssign, tXorAssign, tLeftShiftAssign, tRightShiftAssign])
      (level min 1
        (block [
          mark (block [
            again,
            bump,
            call (pPratt 2),
            again,
            close eSourceFile])]))
      (ite (sees tLogicalOr)
        (level min 2
          (block [
            mark (block [
              again,
              bump,
              call (pPratt 2),
              again,
              close eSourceFile])]))
        (ite (sees tLogicalAnd)
          (level min 3
            (block [
              mark (block [
                again,
                bump,
                call (pPratt 3),
                again,
                close eSourceFile])]))
          (ite (seesAny [tEqual, tNotEqual, tLess, tGreater, tLessEqual, tGreaterEqual])
            (level min 4
              (block [
                mark (block [
                  again,
                  bump,
                  call (pPratt 4),
                  again,
                  close eSourceFile])]))
            (ite (seesAny [tPlus, tMinus])
              (level min 10
                (block [
                  mark (block [
                    again,
                    bump,
                    call (pPratt 10),
                    again,
                    close eSourceFile])]))
              (ite (seesAny [tStar, tSlash, tPercent])
                (level min 11
                  (block [
                    mark (block [
                      again,
                      bump,
                      call (pPratt 11),
                      again,
                      close eSourceFile])]))
                (ite (seesAny [tLeftParen, tLeftBracket, tDot, tArrow])
                  (level min 15
                    (ite (sees tLeftParen)
                      (block [
                        mark (block [
                          again,
                          expect tLeftParen,
                          loop (and_ more (not_ (sees tRightParen)))
                            bump,
                          expect tRightParen,
                          close eSourceFile])])
                      (block [
                        mark (block [
                          again,
                          bump,
                          call (pPratt 15),
                          again,
                          close eSourceFile])])))
                  (ite (sees tScope)
                    (level min 16
                      (block [
                        mark (block [
                          again,
                          bump,
                          call (pPratt 16),
                          again,
                          close eSourceFile])]))
                    (val false)))))))))
    (val false)

/-- `PrattParser::parse` (oak-core parser/pratt.rs:237-243). -/
def pratt (min : Nat) : Prog :=
  block [call pPrefix, loop (infix_ min) (val true)]

/-- `parse` between the checkpoint and the last `finish_at` (oak-cpp parser/mod.rs:68-77). -/
def main : Prog :=
  loop more
    (call pParseStatement)

/-- The parser (`parse`, oak-cpp parser/mod.rs:68-77; `is_ignored`, oak-cpp lexer/token_type.rs:159-160, oak-core language/mod.rs:298-300). -/
def parser : HandParser where
  ign := [tWhitespace, tNewline, tComment]
  fromStart := false
  root := eSourceFile
  main := main
  procs := [parseStatement, parseCompoundStatement, primary, prefix_] ++ levels.map pratt

end Oaks.Hand.Cpp
