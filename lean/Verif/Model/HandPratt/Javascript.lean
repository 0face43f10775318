import Verif.Model.Prog

/-
The parser of `oak-javascript` (examples/oak-javascript/src/parser) as a program: one definition for every function it calls, in the order of the
source. Kinds are the places of the variants in their enums.
-/
namespace Oaks.Hand.Javascript
open Prog

/-- `JavaScriptTokenType::Const` (oak-javascript lexer/token_type.rs:33). -/
abbrev tConst : Nat := 8
/-- `JavaScriptTokenType::Else` (oak-javascript lexer/token_type.rs:45). -/
abbrev tElse : Nat := 14
/-- `JavaScriptTokenType::False` (oak-javascript lexer/token_type.rs:53). -/
abbrev tFalse : Nat := 18
/-- `JavaScriptTokenType::For` (oak-javascript lexer/token_type.rs:57). -/
abbrev tFor : Nat := 20
/-- `JavaScriptTokenType::Function` (oak-javascript lexer/token_type.rs:59). -/
abbrev tFunction : Nat := 21
/-- `JavaScriptTokenType::If` (oak-javascript lexer/token_type.rs:61). -/
abbrev tIf : Nat := 22
/-- `JavaScriptTokenType::Let` (oak-javascript lexer/token_type.rs:73). -/
abbrev tLet : Nat := 28
/-- `JavaScriptTokenType::Null` (oak-javascript lexer/token_type.rs:77). -/
abbrev tNull : Nat := 30
/-- `JavaScriptTokenType::Return` (oak-javascript lexer/token_type.rs:87). -/
abbrev tReturn : Nat := 35
/-- `JavaScriptTokenType::True` (oak-javascript lexer/token_type.rs:99). -/
abbrev tTrue : Nat := 41
/-- `JavaScriptTokenType::Var` (oak-javascript lexer/token_type.rs:107). -/
abbrev tVar : Nat := 45
/-- `JavaScriptTokenType::While` (oak-javascript lexer/token_type.rs:111). -/
abbrev tWhile : Nat := 47
/-- `JavaScriptTokenType::Plus` (oak-javascript lexer/token_type.rs:119). -/
abbrev tPlus : Nat := 50
/-- `JavaScriptTokenType::Minus` (oak-javascript lexer/token_type.rs:121). -/
abbrev tMinus : Nat := 51
/-- `JavaScriptTokenType::Star` (oak-javascript lexer/token_type.rs:123). -/
abbrev tStar : Nat := 52
/-- `JavaScriptTokenType::Slash` (oak-javascript lexer/token_type.rs:125). -/
abbrev tSlash : Nat := 53
/-- `JavaScriptTokenType::Percent` (oak-javascript lexer/token_type.rs:127). -/
abbrev tPercent : Nat := 54
/-- `JavaScriptTokenType::EqualEqual` (oak-javascript lexer/token_type.rs:149). -/
abbrev tEqualEqual : Nat := 65
/-- `JavaScriptTokenType::NotEqual` (oak-javascript lexer/token_type.rs:151). -/
abbrev tNotEqual : Nat := 66
/-- `JavaScriptTokenType::EqualEqualEqual` (oak-javascript lexer/token_type.rs:153). -/
abbrev tEqualEqualEqual : Nat := 67
/-- `JavaScriptTokenType::NotEqualEqual` (oak-javascript lexer/token_type.rs:155). -/
abbrev tNotEqualEqual : Nat := 68
/-- `JavaScriptTokenType::AmpersandAmpersand` (oak-javascript lexer/token_type.rs:167). -/
abbrev tAmpersandAmpersand : Nat := 74
/-- `JavaScriptTokenType::PipePipe` (oak-javascript lexer/token_type.rs:169). -/
abbrev tPipePipe : Nat := 75
/-- `JavaScriptTokenType::Equal` (oak-javascript lexer/token_type.rs:179). -/
abbrev tEqual : Nat := 79
/-- `JavaScriptTokenType::PlusEqual` (oak-javascript lexer/token_type.rs:181). -/
abbrev tPlusEqual : Nat := 80
/-- `JavaScriptTokenType::MinusEqual` (oak-javascript lexer/token_type.rs:183). -/
abbrev tMinusEqual : Nat := 81
/-- `JavaScriptTokenType::StarEqual` (oak-javascript lexer/token_type.rs:185). -/
abbrev tStarEqual : Nat := 82
/-- `JavaScriptTokenType::SlashEqual` (oak-javascript lexer/token_type.rs:187). -/
abbrev tSlashEqual : Nat := 83
/-- `JavaScriptTokenType::PercentEqual` (oak-javascript lexer/token_type.rs:189). -/
abbrev tPercentEqual : Nat := 84
/-- `JavaScriptTokenType::StarStarEqual` (oak-javascript lexer/token_type.rs:191). -/
abbrev tStarStarEqual : Nat := 85
/-- `JavaScriptTokenType::LeftShiftEqual` (oak-javascript lexer/token_type.rs:193). -/
abbrev tLeftShiftEqual : Nat := 86
/-- `JavaScriptTokenType::RightShiftEqual` (oak-javascript lexer/token_type.rs:195). -/
abbrev tRightShiftEqual : Nat := 87
/-- `JavaScriptTokenType::UnsignedRightShiftEqual` (oak-javascript lexer/token_type.rs:197). -/
abbrev tUnsignedRightShiftEqual : Nat := 88
/-- `JavaScriptTokenType::AmpersandEqual` (oak-javascript lexer/token_type.rs:199). -/
abbrev tAmpersandEqual : Nat := 89
/-- `JavaScriptTokenType::PipeEqual` (oak-javascript lexer/token_type.rs:201). -/
abbrev tPipeEqual : Nat := 90
/-- `JavaScriptTokenType::CaretEqual` (oak-javascript lexer/token_type.rs:203). -/
abbrev tCaretEqual : Nat := 91
/-- `JavaScriptTokenType::AmpersandAmpersandEqual` (oak-javascript lexer/token_type.rs:205). -/
abbrev tAmpersandAmpersandEqual : Nat := 92
/-- `JavaScriptTokenType::PipePipeEqual` (oak-javascript lexer/token_type.rs:207). -/
abbrev tPipePipeEqual : Nat := 93
/-- `JavaScriptTokenType::QuestionQuestionEqual` (oak-javascript lexer/token_type.rs:209). -/
abbrev tQuestionQuestionEqual : Nat := 94
/-- `JavaScriptTokenType::LeftParen` (oak-javascript lexer/token_type.rs:213). -/
abbrev tLeftParen : Nat := 95
/-- `JavaScriptTokenType::RightParen` (oak-javascript lexer/token_type.rs:215). -/
abbrev tRightParen : Nat := 96
/-- `JavaScriptTokenType::LeftBrace` (oak-javascript lexer/token_type.rs:217). -/
abbrev tLeftBrace : Nat := 97
/-- `JavaScriptTokenType::RightBrace` (oak-javascript lexer/token_type.rs:219). -/
abbrev tRightBrace : Nat := 98
/-- `JavaScriptTokenType::Semicolon` (oak-javascript lexer/token_type.rs:225). -/
abbrev tSemicolon : Nat := 101
/-- `JavaScriptTokenType::Dot` (oak-javascript lexer/token_type.rs:229). -/
abbrev tDot : Nat := 103
/-- `JavaScriptTokenType::StringLiteral` (oak-javascript lexer/token_type.rs:239). -/
abbrev tStringLiteral : Nat := 107
/-- `JavaScriptTokenType::NumericLiteral` (oak-javascript lexer/token_type.rs:241). -/
abbrev tNumericLiteral : Nat := 108
/-- `JavaScriptTokenType::IdentifierName` (oak-javascript lexer/token_type.rs:257). -/
abbrev tIdentifierName : Nat := 115
/-- `JavaScriptElementType::Root` (oak-javascript parser/element_type.rs:13). -/
abbrev eRoot : Nat := 0
/-- `JavaScriptElementType::Expression` (oak-javascript parser/element_type.rs:17). -/
abbrev eExpression : Nat := 2
/-- `JavaScriptElementType::Error` (oak-javascript parser/element_type.rs:21). -/
abbrev eError : Nat := 4
/-- `JavaScriptElementType::FunctionDeclaration` (oak-javascript parser/element_type.rs:24). -/
abbrev eFunctionDeclaration : Nat := 5
/-- `JavaScriptElementType::VariableDeclaration` (oak-javascript parser/element_type.rs:26). -/
abbrev eVariableDeclaration : Nat := 6
/-- `JavaScriptElementType::IfStatement` (oak-javascript parser/element_type.rs:28). -/
abbrev eIfStatement : Nat := 7
/-- `JavaScriptElementType::WhileStatement` (oak-javascript parser/element_type.rs:30). -/
abbrev eWhileStatement : Nat := 8
/-- `JavaScriptElementType::ForStatement` (oak-javascript parser/element_type.rs:32). -/
abbrev eForStatement : Nat := 9
/-- `JavaScriptElementType::ReturnStatement` (oak-javascript parser/element_type.rs:34). -/
abbrev eReturnStatement : Nat := 10
/-- `JavaScriptElementType::BlockStatement` (oak-javascript parser/element_type.rs:36). -/
abbrev eBlockStatement : Nat := 11
/-- `JavaScriptElementType::Identifier` (oak-javascript parser/element_type.rs:39). -/
abbrev eIdentifier : Nat := 12
/-- `JavaScriptElementType::Literal` (oak-javascript parser/element_type.rs:41). -/
abbrev eLiteral : Nat := 13
/-- `JavaScriptElementType::CallExpression` (oak-javascript parser/element_type.rs:44). -/
abbrev eCallExpression : Nat := 14
/-- `JavaScriptElementType::MemberExpression` (oak-javascript parser/element_type.rs:46). -/
abbrev eMemberExpression : Nat := 15
/-- `JavaScriptElementType::AssignmentExpression` (oak-javascript parser/element_type.rs:48). -/
abbrev eAssignmentExpression : Nat := 16
/-- `JavaScriptElementType::LogicalExpression` (oak-javascript parser/element_type.rs:50). -/
abbrev eLogicalExpression : Nat := 17
/-- `JavaScriptElementType::BinaryExpression` (oak-javascript parser/element_type.rs:52). -/
abbrev eBinaryExpression : Nat := 18

/-- The number of `parse_statement` (oak-javascript parser/mod.rs:26-42). -/
abbrev pParseStatement : Nat := 0
/-- The number of `parse_function_declaration` (oak-javascript parser/mod.rs:44-57). -/
abbrev pParseFunctionDeclaration : Nat := 1
/-- The number of `parse_variable_declaration` (oak-javascript parser/mod.rs:59-70). -/
abbrev pParseVariableDeclaration : Nat := 2
/-- The number of `parse_if_statement` (oak-javascript parser/mod.rs:72-85). -/
abbrev pParseIfStatement : Nat := 3
/-- The number of `parse_while_statement` (oak-javascript parser/mod.rs:87-97). -/
abbrev pParseWhileStatement : Nat := 4
/-- The number of `parse_for_statement` (oak-javascript parser/mod.rs:99-112). -/
abbrev pParseForStatement : Nat := 5
/-- The number of `parse_return_statement` (oak-javascript parser/mod.rs:114-124). -/
abbrev pParseReturnStatement : Nat := 6
/-- The number of `parse_block_statement` (oak-javascript parser/mod.rs:126-136). -/
abbrev pParseBlockStatement : Nat := 7
/-- The number of `primary` (oak-javascript parser/mod.rs:140-163). -/
abbrev pPrimary : Nat := 8
/-- The precedences expressions are parsed with (oak-javascript parser/mod.rs:165-241). -/
abbrev levels : List Nat := [0, 1, 3, 4, 5, 11, 12]
/-- The number of `PrattParser::parse` with a precedence (oak-core parser/pratt.rs:237-243): after the other functions. -/
abbrev pPratt (min : Nat) : Nat := 9 + levels.idxOf min

/-- `parse_statement` (oak-javascript parser/mod.rs:26-42). -/
def parseStatement : Prog :=
  ite (sees tFunction)
    (call pParseFunctionDeclaration)
    (ite (seesAny [tVar, tLet, tConst])
      (call pParseVariableDeclaration)
      (ite (sees tIf)
        (call pParseIfStatement)
        (ite (sees tWhile)
          (call pParseWhileStatement)
          (ite (sees tFor)
            (call pParseForStatement)
            (ite (sees tReturn)
              (call pParseReturnStatement)
              (ite (sees tLeftBrace)
                (call pParseBlockStatement)
                (block [
                  call (pPratt 0),
                  eat tSemicolon])))))))

/-- `parse_function_declaration` (oak-javascript parser/mod.rs:44-57). -/
def parseFunctionDeclaration : Prog :=
  mark (block [
    expect tFunction,
    eat tIdentifierName,
    expect tLeftParen,
    loop (and_ more (not_ (sees tRightParen)))
      advance,
    expect tRightParen,
    call pParseBlockStatement,
    close eFunctionDeclaration])

/-- `parse_variable_declaration` (oak-javascript parser/mod.rs:59-70). -/
def parseVariableDeclaration : Prog :=
  mark (block [
    bump,
    expect tIdentifierName,
    when_ (eat tEqual)
      (call (pPratt 0)),
    eat tSemicolon,
    close eVariableDeclaration])

/-- `parse_if_statement` (oak-javascript parser/mod.rs:72-85). -/
def parseIfStatement : Prog :=
  mark (block [
    expect tIf,
    expect tLeftParen,
    call (pPratt 0),
    expect tRightParen,
    call pParseStatement,
    when_ (eat tElse)
      (call pParseStatement),
    close eIfStatement])

/-- `parse_while_statement` (oak-javascript parser/mod.rs:87-97). -/
def parseWhileStatement : Prog :=
  mark (block [
    expect tWhile,
    expect tLeftParen,
    call (pPratt 0),
    expect tRightParen,
    call pParseStatement,
    close eWhileStatement])

/-- `parse_for_statement` (oak-javascript parser/mod.rs:99-112). -/
def parseForStatement : Prog :=
  mark (block [
    expect tFor,
    expect tLeftParen,
    loop (and_ more (not_ (sees tRightParen)))
      advance,
    expect tRightParen,
    call pParseStatement,
    close eForStatement])

/-- `parse_return_statement` (oak-javascript parser/mod.rs:114-124). -/
def parseReturnStatement : Prog :=
  mark (block [
    expect tReturn,
    when_ (not_ (sees tSemicolon))
      (call (pPratt 0)),
    eat tSemicolon,
    close eReturnStatement])

/-- `parse_block_statement` (oak-javascript parser/mod.rs:126-136). -/
def parseBlockStatement : Prog :=
  mark (block [
    expect tLeftBrace,
    loop (and_ more (not_ (sees tRightBrace)))
      (call pParseStatement),
    expect tRightBrace,
    close eBlockStatement])

/-- `primary` (oak-javascript parser/mod.rs:140-163). -/
def primary : Prog :=
  mark (ite (sees tIdentifierName)
    (block [
      bump,
      close eIdentifier])
    (ite (seesAny [tNumericLiteral, tStringLiteral, tTrue, tFalse, tNull])
      (block [
        bump,
        close eLiteral])
      (ite (sees tLeftParen)
        (block [
          bump,
          call (pPratt 0),
          expect tRightParen,
          close eExpression])
        (block [
          bump,
          close eError]))))

/-- `infix` (oak-javascript parser/mod.rs:165-241) with a least precedence. -/
def infix_ (min : Nat) : Prog :=
  ite more
    (ite (seesAny [tEqual, tPlusEqual, tMinusEqual, tStarEqual, tSlashEqual, tPercentEqual, tStarStarEqual, tLeftShiftEqual, tRightShiftEqual, tUnsignedRightShiftEqual, tAmpersandEqual, tPipeEqual, tCaretEqual, tAmpersandAmpersandEqual, tPipePipeEqual, tQuestionQuestionEqual])
      (level min 1
        (ite (seesAny [tEqual, tPlusEqual, tMinusEqual, tStarEqual, tSlashEqual, tPercentEqual, tStarStarEqual, tLeftShiftEqual, tRightShiftEqual, tUnsignedRightShiftEqual, tAmpersandEqual, tPipeEqual, tCaretEqual, tAmpersandAmpersandEqual, tPipePipeEqual, tQuestionQuestionEqual])
          (mark (block [
            back,
            bump,
            call (pPratt 1),
            close eAssignmentExpression]))
          (ite (seesAny [tPipePipe, tAmpersandAmpersand])
            (mark (block [
              back,
              bump,
              call (pPratt 1),
              close eLogicalExpression]))
            (mark (block [
              back,
              bump,
              call (pPratt 1),
              close eBinaryExpression])))))
      (ite (sees tPipePipe)
        (level min 2
          (ite (seesAny [tEqual, tPlusEqual, tMinusEqual, tStarEqual, tSlashEqual, tPercentEqual, tStarStarEqual, tLeftShiftEqual, tRightShiftEqual, tUnsignedRightShiftEqual, tAmpersandEqual, tPipeEqual, tCaretEqual, tAmpersandAmpersandEqual, tPipePipeEqual, tQuestionQuestionEqual])
            (mark (block [
              back,
              bump,
              call (pPratt 3),
              close eAssignmentExpression]))
            (ite (seesAny [tPipePipe, tAmpersandAmpersand])
              (mark (block [
                back,
                bump,
                call (pPratt 3),
                close eLogicalExpression]))
              (mark (block [
                back,
                bump,
                call (pPratt 3),
                close eBinaryExpression])))))
        (ite (sees tAmpersandAmpersand)
          (level min 3
            (ite (seesAny [tEqual, tPlusEqual, tMinusEqual, tStarEqual, tSlashEqual, tPercentEqual, tStarStarEqual, tLeftShiftEqual, tRightShiftEqual, tUnsignedRightShiftEqual, tAmpersandEqual, tPipeEqual, tCaretEqual, tAmpersandAmpersandEqual, tPipePipeEqual, tQuestionQuestionEqual])
              (mark (block [
                back,
                bump,
                call (pPratt 4),
                close eAssignmentExpression]))
              (ite (seesAny [tPipePipe, tAmpersandAmpersand])
                (mark (block [
                  back,
                  bump,
                  call (pPratt 4),
                  close eLogicalExpression]))
                (mark (block [
                  back,
                  bump,
                  call (pPratt 4),
                  close eBinaryExpression])))))
          (ite (seesAny [tEqualEqual, tNotEqual, tEqualEqualEqual, tNotEqualEqual])
            (level min 4
              (ite (seesAny [tEqual, tPlusEqual, tMinusEqual, tStarEqual, tSlashEqual, tPercentEqual, tStarStarEqual, tLeftShiftEqual, tRightShiftEqual, tUnsignedRightShiftEqual, tAmpersandEqual, tPipeEqual, tCaretEqual, tAmpersandAmpersandEqual, tPipePipeEqual, tQuestionQuestionEqual])
                (mark (block [
                  back,
                  bump,
                  call (pPratt 5),
                  close eAssignmentExpression]))
                (ite (seesAny [tPipePipe, tAmpersandAmpersand])
                  (mark (block [
                    back,
                    bump,
                    call (pPratt 5),
                    close eLogicalExpression]))
                  (mark (block [
                    back,
                    bump,
                    call (pPratt 5),
                    close eBinaryExpression])))))
            (ite (seesAny [tPlus, tMinus])
              (level min 10
                (ite (seesAny [tEqual, tPlusEqual, tMinusEqual, tStarEqual, tSlashEqual, tPercentEqual, tStarStarEqual, tLeftShiftEqual, tRightShiftEqual, tUnsignedRightShiftEqual, tAmpersandEqual, tPipeEqual, tCaretEqual, tAmpersandAmpersandEqual, tPipePipeEqual, tQuestionQuestionEqual])
                  (mark (block [
                    back,
                    bump,
                    call (pPratt 11),
                    close eAssignmentExpression]))
                  (ite (seesAny [tPipePipe, tAmpersandAmpersand])
                    (mark (block [
                      back,
                      bump,
                      call (pPratt 11),
                      close eLogicalExpression]))
                    (mark (block [
                      back,
                      bump,
                      call (pPratt 11),
                      close eBinaryExpression])))))
              (ite (seesAny [tStar, tSlash, tPercent])
                (level min 11
                  (ite (seesAny [tEqual, tPlusEqual, tMinusEqual, tStarEqual, tSlashEqual, tPercentEqual, tStarStarEqual, tLeftShiftEqual, tRightShiftEqual, tUnsignedRightShiftEqual, tAmpersandEqual, tPipeEqual, tCaretEqual, tAmpersandAmpersandEqual, tPipePipeEqual, tQuestionQuestionEqual])
                    (mark (block [
                      back,
                      bump,
                      call (pPratt 12),
                      close eAssignmentExpression]))
                    (ite (seesAny [tPipePipe, tAmpersandAmpersand])
                      (mark (block [
                        back,
                        bump,
                        call (pPratt 12),
                        close eLogicalExpression]))
                      (mark (block [
                        back,
                        bump,
                        call (pPratt 12),
                        close eBinaryExpression])))))
                (ite (seesAny [tLeftParen, tDot])
                  (level min 15
                    (ite (sees tLeftParen)
                      (block [
                        mark (block [
                          again,
                          expect tLeftParen,
                          loop (and_ more (not_ (sees tRightParen)))
                            advance,
                          expect tRightParen,
                          close eCallExpression])])
                      (block [
                        mark (block [
                          again,
                          expect tDot,
                          expect tIdentifierName,
                          close eMemberExpression])])))
                  (val false))))))))
    (val false)

/-- `PrattParser::parse` (oak-core parser/pratt.rs:237-243). -/
def pratt (min : Nat) : Prog :=
  block [call pPrimary, loop (infix_ min) (val true)]

/-- `parse_root_internal` between the checkpoint and the last `finish_at` (oak-javascript parser/mod.rs:245-251). -/
def main : Prog :=
  loop more
    (catch_ (call pParseStatement))

/-- The parser (`parse_root_internal`, oak-javascript parser/mod.rs:245-251; `is_ignored`, oak-javascript lexer/token_type.rs:403-405). -/
def parser : HandParser where
  ign := []
  fromStart := false
  root := eRoot
  main := main
  procs := [parseStatement, parseFunctionDeclaration, parseVariableDeclaration, parseIfStatement, parseWhileStatement, parseForStatement, parseReturnStatement, parseBlockStatement, primary] ++ levels.map pratt

end Oaks.Hand.Javascript
