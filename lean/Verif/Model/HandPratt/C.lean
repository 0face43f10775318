import Verif.Model.Prog

/-
The parser of `oak-c` (examples/oak-c/src/parser) as a program: one definition for every function it calls, in the order of the
source. Kinds are the places of the variants in their enums.
-/
namespace Oaks.Hand.C
open Prog

/-- `CTokenType::LeftParen` (oak-c lexer/token_type.rs:10). -/
abbrev tLeftParen : Nat := 0
/-- `CTokenType::RightParen` (oak-c lexer/token_type.rs:12). -/
abbrev tRightParen : Nat := 1
/-- `CTokenType::LeftBracket` (oak-c lexer/token_type.rs:14). -/
abbrev tLeftBracket : Nat := 2
/-- `CTokenType::RightBracket` (oak-c lexer/token_type.rs:16). -/
abbrev tRightBracket : Nat := 3
/-- `CTokenType::LeftBrace` (oak-c lexer/token_type.rs:18). -/
abbrev tLeftBrace : Nat := 4
/-- `CTokenType::RightBrace` (oak-c lexer/token_type.rs:20). -/
abbrev tRightBrace : Nat := 5
/-- `CTokenType::Comma` (oak-c lexer/token_type.rs:22). -/
abbrev tComma : Nat := 6
/-- `CTokenType::Semicolon` (oak-c lexer/token_type.rs:24). -/
abbrev tSemicolon : Nat := 7
/-- `CTokenType::Dot` (oak-c lexer/token_type.rs:28). -/
abbrev tDot : Nat := 9
/-- `CTokenType::Plus` (oak-c lexer/token_type.rs:32). -/
abbrev tPlus : Nat := 11
/-- `CTokenType::Minus` (oak-c lexer/token_type.rs:34). -/
abbrev tMinus : Nat := 12
/-- `CTokenType::Star` (oak-c lexer/token_type.rs:36). -/
abbrev tStar : Nat := 13
/-- `CTokenType::Slash` (oak-c lexer/token_type.rs:38). -/
abbrev tSlash : Nat := 14
/-- `CTokenType::Percent` (oak-c lexer/token_type.rs:40). -/
abbrev tPercent : Nat := 15
/-- `CTokenType::Assign` (oak-c lexer/token_type.rs:42). -/
abbrev tAssign : Nat := 16
/-- `CTokenType::PlusAssign` (oak-c lexer/token_type.rs:44). -/
abbrev tPlusAssign : Nat := 17
/-- `CTokenType::MinusAssign` (oak-c lexer/token_type.rs:46). -/
abbrev tMinusAssign : Nat := 18
/-- `CTokenType::StarAssign` (oak-c lexer/token_type.rs:48). -/
abbrev tStarAssign : Nat := 19
/-- `CTokenType::SlashAssign` (oak-c lexer/token_type.rs:50). -/
abbrev tSlashAssign : Nat := 20
/-- `CTokenType::PercentAssign` (oak-c lexer/token_type.rs:52). -/
abbrev tPercentAssign : Nat := 21
/-- `CTokenType::Equal` (oak-c lexer/token_type.rs:54). -/
abbrev tEqual : Nat := 22
/-- `CTokenType::NotEqual` (oak-c lexer/token_type.rs:56). -/
abbrev tNotEqual : Nat := 23
/-- `CTokenType::Less` (oak-c lexer/token_type.rs:58). -/
abbrev tLess : Nat := 24
/-- `CTokenType::Greater` (oak-c lexer/token_type.rs:60). -/
abbrev tGreater : Nat := 25
/-- `CTokenType::LessEqual` (oak-c lexer/token_type.rs:62). -/
abbrev tLessEqual : Nat := 26
/-- `CTokenType::GreaterEqual` (oak-c lexer/token_type.rs:64). -/
abbrev tGreaterEqual : Nat := 27
/-- `CTokenType::LogicalAnd` (oak-c lexer/token_type.rs:66). -/
abbrev tLogicalAnd : Nat := 28
/-- `CTokenType::LogicalOr` (oak-c lexer/token_type.rs:68). -/
abbrev tLogicalOr : Nat := 29
/-- `CTokenType::AndAssign` (oak-c lexer/token_type.rs:84). -/
abbrev tAndAssign : Nat := 37
/-- `CTokenType::OrAssign` (oak-c lexer/token_type.rs:86). -/
abbrev tOrAssign : Nat := 38
/-- `CTokenType::XorAssign` (oak-c lexer/token_type.rs:88). -/
abbrev tXorAssign : Nat := 39
/-- `CTokenType::LeftShiftAssign` (oak-c lexer/token_type.rs:90). -/
abbrev tLeftShiftAssign : Nat := 40
/-- `CTokenType::RightShiftAssign` (oak-c lexer/token_type.rs:92). -/
abbrev tRightShiftAssign : Nat := 41
/-- `CTokenType::Arrow` (oak-c lexer/token_type.rs:98). -/
abbrev tArrow : Nat := 44
/-- `CTokenType::Static` (oak-c lexer/token_type.rs:104). -/
abbrev tStatic : Nat := 47
/-- `CTokenType::Extern` (oak-c lexer/token_type.rs:106). -/
abbrev tExtern : Nat := 48
/-- `CTokenType::Typedef` (oak-c lexer/token_type.rs:108). -/
abbrev tTypedef : Nat := 49
/-- `CTokenType::Void` (oak-c lexer/token_type.rs:110). -/
abbrev tVoid : Nat := 50
/-- `CTokenType::Char` (oak-c lexer/token_type.rs:112). -/
abbrev tChar : Nat := 51
/-- `CTokenType::Int` (oak-c lexer/token_type.rs:116). -/
abbrev tInt : Nat := 53
/-- `CTokenType::Float` (oak-c lexer/token_type.rs:120). -/
abbrev tFloat : Nat := 55
/-- `CTokenType::Double` (oak-c lexer/token_type.rs:122). -/
abbrev tDouble : Nat := 56
/-- `CTokenType::Struct` (oak-c lexer/token_type.rs:128). -/
abbrev tStruct : Nat := 59
/-- `CTokenType::Union` (oak-c lexer/token_type.rs:130). -/
abbrev tUnion : Nat := 60
/-- `CTokenType::Enum` (oak-c lexer/token_type.rs:132). -/
abbrev tEnum : Nat := 61
/-- `CTokenType::If` (oak-c lexer/token_type.rs:140). -/
abbrev tIf : Nat := 65
/-- `CTokenType::Else` (oak-c lexer/token_type.rs:142). -/
abbrev tElse : Nat := 66
/-- `CTokenType::For` (oak-c lexer/token_type.rs:150). -/
abbrev tFor : Nat := 70
/-- `CTokenType::While` (oak-c lexer/token_type.rs:152). -/
abbrev tWhile : Nat := 71
/-- `CTokenType::Return` (oak-c lexer/token_type.rs:162). -/
abbrev tReturn : Nat := 76
/-- `CTokenType::IntegerLiteral` (oak-c lexer/token_type.rs:188). -/
abbrev tIntegerLiteral : Nat := 89
/-- `CTokenType::FloatLiteral` (oak-c lexer/token_type.rs:190). -/
abbrev tFloatLiteral : Nat := 90
/-- `CTokenType::CharLiteral` (oak-c lexer/token_type.rs:192). -/
abbrev tCharLiteral : Nat := 91
/-- `CTokenType::StringLiteral` (oak-c lexer/token_type.rs:194). -/
abbrev tStringLiteral : Nat := 92
/-- `CTokenType::Identifier` (oak-c lexer/token_type.rs:196). -/
abbrev tIdentifier : Nat := 93
/-- `CTokenType::Whitespace` (oak-c lexer/token_type.rs:198). -/
abbrev tWhitespace : Nat := 94
/-- `CTokenType::Comment` (oak-c lexer/token_type.rs:200). -/
abbrev tComment : Nat := 95
/-- `CElementType::Root` (oak-c parser/element_type.rs:13). -/
abbrev eRoot : Nat := 1
/-- `CElementType::FunctionDefinition` (oak-c parser/element_type.rs:15). -/
abbrev eFunctionDefinition : Nat := 2
/-- `CElementType::ParameterList` (oak-c parser/element_type.rs:17). -/
abbrev eParameterList : Nat := 3
/-- `CElementType::CompoundStatement` (oak-c parser/element_type.rs:19). -/
abbrev eCompoundStatement : Nat := 4
/-- `CElementType::ExpressionStatement` (oak-c parser/element_type.rs:21). -/
abbrev eExpressionStatement : Nat := 5
/-- `CElementType::DeclarationStatement` (oak-c parser/element_type.rs:23). -/
abbrev eDeclarationStatement : Nat := 6
/-- `CElementType::IfStatement` (oak-c parser/element_type.rs:25). -/
abbrev eIfStatement : Nat := 7
/-- `CElementType::WhileStatement` (oak-c parser/element_type.rs:27). -/
abbrev eWhileStatement : Nat := 8
/-- `CElementType::ForStatement` (oak-c parser/element_type.rs:29). -/
abbrev eForStatement : Nat := 9
/-- `CElementType::ReturnStatement` (oak-c parser/element_type.rs:31). -/
abbrev eReturnStatement : Nat := 10
/-- `CElementType::Error` (oak-c parser/element_type.rs:33). -/
abbrev eError : Nat := 11
/-- `CElementType::Token(CTokenType::Identifier)` (oak-c parser/element_type.rs:11): after the other kinds. -/
abbrev eTokenIdentifier : Nat := 105

/-- The number of `parse_statement` (oak-c parser/mod.rs:27-45). -/
abbrev pParseStatement : Nat := 0
/-- The number of `skip_trivia` (oak-c parser/mod.rs:48-57). -/
abbrev pSkipTrivia : Nat := 1
/-- The number of `parse_declaration` (oak-c parser/mod.rs:60-111). -/
abbrev pParseDeclaration : Nat := 2
/-- The number of `parse_if_statement` (oak-c parser/mod.rs:113-126). -/
abbrev pParseIfStatement : Nat := 3
/-- The number of `parse_while_statement` (oak-c parser/mod.rs:128-138). -/
abbrev pParseWhileStatement : Nat := 4
/-- The number of `parse_for_statement` (oak-c parser/mod.rs:140-169). -/
abbrev pParseForStatement : Nat := 5
/-- The number of `parse_return_statement` (oak-c parser/mod.rs:171-181). -/
abbrev pParseReturnStatement : Nat := 6
/-- The number of `parse_compound_statement` (oak-c parser/mod.rs:183-192). -/
abbrev pParseCompoundStatement : Nat := 7
/-- The number of `primary` (oak-c parser/mod.rs:196-223). -/
abbrev pPrimary : Nat := 8
/-- The precedences expressions are parsed with (oak-c parser/mod.rs:225-279). -/
abbrev levels : List Nat := [0, 1, 3, 4, 5, 11, 12]
/-- The number of `PrattParser::parse` with a precedence (oak-core parser/pratt.rs:237-243): after the other functions. -/
abbrev pPratt (min : Nat) : Nat := 9 + levels.idxOf min

/-- `parse_statement` (oak-c parser/mod.rs:27-45). -/
def parseStatement : Prog :=
  block [
    call pSkipTrivia,
    ite (sees tIf)
      (call pParseIfStatement)
      (ite (sees tWhile)
        (call pParseWhileStatement)
        (ite (sees tFor)
          (call pParseForStatement)
          (ite (sees tReturn)
            (call pParseReturnStatement)
            (ite (sees tLeftBrace)
              (call pParseCompoundStatement)
              (ite (seesAny [tStruct, tUnion, tEnum, tTypedef, tExtern, tStatic, tInt, tChar, tVoid, tFloat, tDouble])
                (call pParseDeclaration)
                (block [
                  call (pPratt 0),
                  again,
                  call pSkipTrivia,
                  eat tSemicolon]))))))]

/-- `skip_trivia` (oak-c parser/mod.rs:48-57). -/
def skipTrivia : Prog :=
  loop more
    (ite (seesAny [tWhitespace, tComment])
      bump
      brk)

/-- `parse_declaration` (oak-c parser/mod.rs:60-111). -/
def parseDeclaration : Prog :=
  mark (block [
    call pSkipTrivia,
    loop (and_ (and_ (and_ (and_ more (not_ (sees tSemicolon))) (not_ (sees tLeftBrace))) (not_ (sees tAssign))) (not_ (sees tLeftParen)))
      (block [
        bump,
        call pSkipTrivia]),
    when_ (sees tLeftParen)
      (mark (block [
        bump,
        call pSkipTrivia,
        loop (and_ more (not_ (sees tRightParen)))
          (block [
            ite (or_ (or_ (or_ (or_ (or_ (sees tIdentifier) (sees tInt)) (sees tChar)) (sees tFloat)) (sees tDouble)) (sees tVoid))
              bump
              (ite (sees tComma)
                bump
                bump),
            call pSkipTrivia]),
        expect tRightParen,
        close eParameterList])),
    call pSkipTrivia,
    when_ (sees tAssign)
      (block [
        bump,
        call pSkipTrivia,
        call (pPratt 0),
        again]),
    call pSkipTrivia,
    ite (sees tLeftBrace)
      (block [
        call pParseCompoundStatement,
        close eFunctionDefinition])
      (block [
        eat tSemicolon,
        close eDeclarationStatement])])

/-- `parse_if_statement` (oak-c parser/mod.rs:113-126). -/
def parseIfStatement : Prog :=
  mark (block [
    bump,
    expect tLeftParen,
    call (pPratt 0),
    again,
    expect tRightParen,
    call pParseStatement,
    when_ (eat tElse)
      (call pParseStatement),
    close eIfStatement])

/-- `parse_while_statement` (oak-c parser/mod.rs:128-138). -/
def parseWhileStatement : Prog :=
  mark (block [
    bump,
    expect tLeftParen,
    call (pPratt 0),
    again,
    expect tRightParen,
    call pParseStatement,
    close eWhileStatement])

/-- `parse_for_statement` (oak-c parser/mod.rs:140-169). -/
def parseForStatement : Prog :=
  mark (block [
    bump,
    expect tLeftParen,
    when_ (not_ (sees tSemicolon))
      (block [
        call (pPratt 0),
        again]),
    expect tSemicolon,
    when_ (not_ (sees tSemicolon))
      (block [
        call (pPratt 0),
        again]),
    expect tSemicolon,
    when_ (not_ (sees tRightParen))
      (block [
        call (pPratt 0),
        again]),
    expect tRightParen,
    call pParseStatement,
    close eForStatement])

/-- `parse_return_statement` (oak-c parser/mod.rs:171-181). -/
def parseReturnStatement : Prog :=
  mark (block [
    bump,
    when_ (not_ (sees tSemicolon))
      (block [
        call (pPratt 0),
        again]),
    eat tSemicolon,
    close eReturnStatement])

/-- `parse_compound_statement` (oak-c parser/mod.rs:183-192). -/
def parseCompoundStatement : Prog :=
  mark (block [
    expect tLeftBrace,
    loop (and_ more (not_ (sees tRightBrace)))
      (call pParseStatement),
    expect tRightBrace,
    close eCompoundStatement])

/-- `primary` (oak-c parser/mod.rs:196-223). -/
def primary : Prog :=
  block [
    call pSkipTrivia,
    mark (ite (sees tIdentifier)
      (block [
        bump,
        close eTokenIdentifier])
      (ite (seesAny [tIntegerLiteral, tFloatLiteral, tCharLiteral, tStringLiteral])
        (block [
          bump,
          close eExpressionStatement])
        (ite (sees tLeftParen)
          (block [
            bump,
            call (pPratt 0),
            again,
            call pSkipTrivia,
            expect tRightParen,
            close eExpressionStatement])
          (block [
            bump,
            close eError]))))]

/-- `infix` (oak-c parser/mod.rs:225-279) with a least precedence. -/
def infix_ (min : Nat) : Prog :=
  block [
    call pSkipTrivia,
    ite more
      (ite (seesAny [tAssign, tPlusAssign, tMinusAssign, tStarAssign, tSlashAssign, tPercentAssign, tAndAssign, tOrAssign, tXorAssign, tLeftShiftAssign, tRightShiftAssign])
        (level min 1
          (mark (block [
            back,
            bump,
            call (pPratt 1),
            close eExpressionStatement])))
        (ite (sees tLogicalOr)
          (level min 2
            (mark (block [
              back,
              bump,
              call (pPratt 3),
              close eExpressionStatement])))
          (ite (sees tLogicalAnd)
            (level min 3
              (mark (block [
                back,
                bump,
                call (pPratt 4),
                close eExpressionStatement])))
            (ite (seesAny [tEqual, tNotEqual, tLess, tGreater, tLessEqual, tGreaterEqual])
              (level min 4
                (mark (block [
                  back,
                  bump,
                  call (pPratt 5),
                  close eExpressionStatement])))
              (ite (seesAny [tPlus, tMinus])
                (level min 10
                  (mark (block [
                    back,
                    bump,
                    call (pPratt 11),
                    close eExpressionStatement])))
                (ite (seesAny [tStar, tSlash, tPercent])
                  (level min 11
                    (mark (block [
                      back,
                      bump,
                      call (pPratt 12),
                      close eExpressionStatement])))
                  (ite (seesAny [tLeftParen, tLeftBracket, tDot, tArrow])
                    (level min 15
                      (ite (sees tLeftParen)
                        (block [
                          mark (block [
                            again,
                            expect tLeftParen,
                            loop (and_ more (not_ (sees tRightParen)))
                              (block [
                                call (pPratt 0),
                                again,
                                call pSkipTrivia,
                                when_ (not_ (eat tComma))
                                  brk]),
                            expect tRightParen,
                            close eExpressionStatement])])
                        (ite (sees tLeftBracket)
                          (block [
                            mark (block [
                              again,
                              expect tLeftBracket,
                              call (pPratt 0),
                              again,
                              expect tRightBracket,
                              close eExpressionStatement])])
                          (block [
                            mark (block [
                              again,
                              bump,
                              expect tIdentifier,
                              close eExpressionStatement])]))))
                    (val false))))))))
      (val false)]

/-- `PrattParser::parse` (oak-core parser/pratt.rs:237-243). -/
def pratt (min : Nat) : Prog :=
  block [call pPrimary, loop (infix_ min) (val true)]

/-- `parse` between the checkpoint and the last `finish_at` (oak-c parser/mod.rs:283-292). -/
def main : Prog :=
  loop more
    (catch_ (call pParseStatement))

/-- The parser (`parse`, oak-c parser/mod.rs:283-292; `is_ignored`, oak-c lexer/token_type.rs:268-270). -/
def parser : HandParser where
  ign := [tWhitespace, tComment]
  fromStart := false
  root := eRoot
  main := main
  procs := [parseStatement, skipTrivia, parseDeclaration, parseIfStatement, parseWhileStatement, parseForStatement, parseReturnStatement, parseCompoundStatement, primary] ++ levels.map pratt

end Oaks.Hand.C
