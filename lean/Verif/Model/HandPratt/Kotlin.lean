import Verif.Model.Prog

/-
The parser of `oak-kotlin` (examples/oak-kotlin/src/parser) as a program: one definition for every function it calls, in the order of the
source. Kinds are the places of the variants in their enums.
-/
namespace Oaks.Hand.Kotlin
open Prog

/-- `KotlinTokenType::Class` (oak-kotlin lexer/token_type.rs:49). -/
abbrev tClass : Nat := 19
/-- `KotlinTokenType::Fun` (oak-kotlin lexer/token_type.rs:50). -/
abbrev tFun : Nat := 20
/-- `KotlinTokenType::Val` (oak-kotlin lexer/token_type.rs:51). -/
abbrev tVal : Nat := 21
/-- `KotlinTokenType::Var` (oak-kotlin lexer/token_type.rs:52). -/
abbrev tVar : Nat := 22
/-- `KotlinTokenType::If` (oak-kotlin lexer/token_type.rs:53). -/
abbrev tIf : Nat := 23
/-- `KotlinTokenType::Else` (oak-kotlin lexer/token_type.rs:54). -/
abbrev tElse : Nat := 24
/-- `KotlinTokenType::While` (oak-kotlin lexer/token_type.rs:57). -/
abbrev tWhile : Nat := 27
/-- `KotlinTokenType::Return` (oak-kotlin lexer/token_type.rs:58). -/
abbrev tReturn : Nat := 28
/-- `KotlinTokenType::Is` (oak-kotlin lexer/token_type.rs:94). -/
abbrev tIs : Nat := 64
/-- `KotlinTokenType::As` (oak-kotlin lexer/token_type.rs:95). -/
abbrev tAs : Nat := 65
/-- `KotlinTokenType::Null` (oak-kotlin lexer/token_type.rs:98). -/
abbrev tNull : Nat := 68
/-- `KotlinTokenType::True` (oak-kotlin lexer/token_type.rs:99). -/
abbrev tTrue : Nat := 69
/-- `KotlinTokenType::False` (oak-kotlin lexer/token_type.rs:100). -/
abbrev tFalse : Nat := 70
/-- `KotlinTokenType::Identifier` (oak-kotlin lexer/token_type.rs:103). -/
abbrev tIdentifier : Nat := 71
/-- `KotlinTokenType::StringLiteral` (oak-kotlin lexer/token_type.rs:105). -/
abbrev tStringLiteral : Nat := 73
/-- `KotlinTokenType::CharLiteral` (oak-kotlin lexer/token_type.rs:106). -/
abbrev tCharLiteral : Nat := 74
/-- `KotlinTokenType::NumberLiteral` (oak-kotlin lexer/token_type.rs:107). -/
abbrev tNumberLiteral : Nat := 75
/-- `KotlinTokenType::IntLiteral` (oak-kotlin lexer/token_type.rs:108). -/
abbrev tIntLiteral : Nat := 76
/-- `KotlinTokenType::FloatLiteral` (oak-kotlin lexer/token_type.rs:109). -/
abbrev tFloatLiteral : Nat := 77
/-- `KotlinTokenType::BooleanLiteral` (oak-kotlin lexer/token_type.rs:110). -/
abbrev tBooleanLiteral : Nat := 78
/-- `KotlinTokenType::Plus` (oak-kotlin lexer/token_type.rs:113). -/
abbrev tPlus : Nat := 79
/-- `KotlinTokenType::Minus` (oak-kotlin lexer/token_type.rs:114). -/
abbrev tMinus : Nat := 80
/-- `KotlinTokenType::Star` (oak-kotlin lexer/token_type.rs:115). -/
abbrev tStar : Nat := 81
/-- `KotlinTokenType::Slash` (oak-kotlin lexer/token_type.rs:116). -/
abbrev tSlash : Nat := 82
/-- `KotlinTokenType::Percent` (oak-kotlin lexer/token_type.rs:117). -/
abbrev tPercent : Nat := 83
/-- `KotlinTokenType::Ampersand` (oak-kotlin lexer/token_type.rs:121). -/
abbrev tAmpersand : Nat := 87
/-- `KotlinTokenType::Pipe` (oak-kotlin lexer/token_type.rs:122). -/
abbrev tPipe : Nat := 88
/-- `KotlinTokenType::Caret` (oak-kotlin lexer/token_type.rs:123). -/
abbrev tCaret : Nat := 89
/-- `KotlinTokenType::Tilde` (oak-kotlin lexer/token_type.rs:124). -/
abbrev tTilde : Nat := 90
/-- `KotlinTokenType::Exclamation` (oak-kotlin lexer/token_type.rs:125). -/
abbrev tExclamation : Nat := 91
/-- `KotlinTokenType::Assign` (oak-kotlin lexer/token_type.rs:126). -/
abbrev tAssign : Nat := 92
/-- `KotlinTokenType::PlusAssign` (oak-kotlin lexer/token_type.rs:127). -/
abbrev tPlusAssign : Nat := 93
/-- `KotlinTokenType::MinusAssign` (oak-kotlin lexer/token_type.rs:128). -/
abbrev tMinusAssign : Nat := 94
/-- `KotlinTokenType::StarAssign` (oak-kotlin lexer/token_type.rs:129). -/
abbrev tStarAssign : Nat := 95
/-- `KotlinTokenType::SlashAssign` (oak-kotlin lexer/token_type.rs:130). -/
abbrev tSlashAssign : Nat := 96
/-- `KotlinTokenType::PercentAssign` (oak-kotlin lexer/token_type.rs:131). -/
abbrev tPercentAssign : Nat := 97
/-- `KotlinTokenType::EqEq` (oak-kotlin lexer/token_type.rs:132). -/
abbrev tEqEq : Nat := 98
/-- `KotlinTokenType::NotEq` (oak-kotlin lexer/token_type.rs:133). -/
abbrev tNotEq : Nat := 99
/-- `KotlinTokenType::Lt` (oak-kotlin lexer/token_type.rs:134). -/
abbrev tLt : Nat := 100
/-- `KotlinTokenType::Gt` (oak-kotlin lexer/token_type.rs:135). -/
abbrev tGt : Nat := 101
/-- `KotlinTokenType::LtEq` (oak-kotlin lexer/token_type.rs:136). -/
abbrev tLtEq : Nat := 102
/-- `KotlinTokenType::GtEq` (oak-kotlin lexer/token_type.rs:137). -/
abbrev tGtEq : Nat := 103
/-- `KotlinTokenType::AndAnd` (oak-kotlin lexer/token_type.rs:138). -/
abbrev tAndAnd : Nat := 104
/-- `KotlinTokenType::OrOr` (oak-kotlin lexer/token_type.rs:139). -/
abbrev tOrOr : Nat := 105
/-- `KotlinTokenType::Dot` (oak-kotlin lexer/token_type.rs:140). -/
abbrev tDot : Nat := 106
/-- `KotlinTokenType::Comma` (oak-kotlin lexer/token_type.rs:141). -/
abbrev tComma : Nat := 107
/-- `KotlinTokenType::Colon` (oak-kotlin lexer/token_type.rs:142). -/
abbrev tColon : Nat := 108
/-- `KotlinTokenType::Semi` (oak-kotlin lexer/token_type.rs:143). -/
abbrev tSemi : Nat := 109
/-- `KotlinTokenType::DoubleColon` (oak-kotlin lexer/token_type.rs:145). -/
abbrev tDoubleColon : Nat := 111
/-- `KotlinTokenType::Range` (oak-kotlin lexer/token_type.rs:146). -/
abbrev tRange : Nat := 112
/-- `KotlinTokenType::LParen` (oak-kotlin lexer/token_type.rs:152). -/
abbrev tLParen : Nat := 116
/-- `KotlinTokenType::RParen` (oak-kotlin lexer/token_type.rs:153). -/
abbrev tRParen : Nat := 117
/-- `KotlinTokenType::LBracket` (oak-kotlin lexer/token_type.rs:154). -/
abbrev tLBracket : Nat := 118
/-- `KotlinTokenType::RBracket` (oak-kotlin lexer/token_type.rs:155). -/
abbrev tRBracket : Nat := 119
/-- `KotlinTokenType::LBrace` (oak-kotlin lexer/token_type.rs:156). -/
abbrev tLBrace : Nat := 120
/-- `KotlinTokenType::RBrace` (oak-kotlin lexer/token_type.rs:157). -/
abbrev tRBrace : Nat := 121
/-- `KotlinTokenType::Comment` (oak-kotlin lexer/token_type.rs:160). -/
abbrev tComment : Nat := 122
/-- `KotlinTokenType::Whitespace` (oak-kotlin lexer/token_type.rs:161). -/
abbrev tWhitespace : Nat := 123
/-- `KotlinTokenType::Newline` (oak-kotlin lexer/token_type.rs:162). -/
abbrev tNewline : Nat := 124
/-- `KotlinElementType::SourceFile` (oak-kotlin parser/element_type.rs:9). -/
abbrev eSourceFile : Nat := 0
/-- `KotlinElementType::ClassDeclaration` (oak-kotlin parser/element_type.rs:10). -/
abbrev eClassDeclaration : Nat := 1
/-- `KotlinElementType::FunctionDeclaration` (oak-kotlin parser/element_type.rs:11). -/
abbrev eFunctionDeclaration : Nat := 2
/-- `KotlinElementType::VariableDeclaration` (oak-kotlin parser/element_type.rs:12). -/
abbrev eVariableDeclaration : Nat := 3
/-- `KotlinElementType::IfStatement` (oak-kotlin parser/element_type.rs:13). -/
abbrev eIfStatement : Nat := 4
/-- `KotlinElementType::WhileStatement` (oak-kotlin parser/element_type.rs:14). -/
abbrev eWhileStatement : Nat := 5
/-- `KotlinElementType::ReturnStatement` (oak-kotlin parser/element_type.rs:15). -/
abbrev eReturnStatement : Nat := 6
/-- `KotlinElementType::Block` (oak-kotlin parser/element_type.rs:16). -/
abbrev eBlock : Nat := 7
/-- `KotlinElementType::Parameter` (oak-kotlin parser/element_type.rs:17). -/
abbrev eParameter : Nat := 8
/-- `KotlinElementType::Identifier` (oak-kotlin parser/element_type.rs:18). -/
abbrev eIdentifier : Nat := 9
/-- `KotlinElementType::IntLiteral` (oak-kotlin parser/element_type.rs:19). -/
abbrev eIntLiteral : Nat := 10
/-- `KotlinElementType::PrefixExpression` (oak-kotlin parser/element_type.rs:20). -/
abbrev ePrefixExpression : Nat := 11
/-- `KotlinElementType::MemberAccessExpression` (oak-kotlin parser/element_type.rs:21). -/
abbrev eMemberAccessExpression : Nat := 12
/-- `KotlinElementType::CallExpression` (oak-kotlin parser/element_type.rs:22). -/
abbrev eCallExpression : Nat := 13
/-- `KotlinElementType::AssignmentExpression` (oak-kotlin parser/element_type.rs:23). -/
abbrev eAssignmentExpression : Nat := 14
/-- `KotlinElementType::BinaryExpression` (oak-kotlin parser/element_type.rs:24). -/
abbrev eBinaryExpression : Nat := 15
/-- `KotlinElementType::Error` (oak-kotlin parser/element_type.rs:25). -/
abbrev eError : Nat := 16

/-- The number of `skip_trivia` (oak-kotlin parser/mod.rs:41-51). -/
abbrev pSkipTrivia : Nat := 0
/-- The number of `parse_statement` (oak-kotlin parser/mod.rs:53-71). -/
abbrev pParseStatement : Nat := 1
/-- The number of `parse_class_declaration` (oak-kotlin parser/mod.rs:73-106). -/
abbrev pParseClassDeclaration : Nat := 2
/-- The number of `parse_function_declaration` (oak-kotlin parser/mod.rs:108-141). -/
abbrev pParseFunctionDeclaration : Nat := 3
/-- The number of `parse_variable_declaration` (oak-kotlin parser/mod.rs:143-163). -/
abbrev pParseVariableDeclaration : Nat := 4
/-- The number of `parse_if_statement` (oak-kotlin parser/mod.rs:165-184). -/
abbrev pParseIfStatement : Nat := 5
/-- The number of `parse_while_statement` (oak-kotlin parser/mod.rs:186-200). -/
abbrev pParseWhileStatement : Nat := 6
/-- The number of `parse_return_statement` (oak-kotlin parser/mod.rs:202-214). -/
abbrev pParseReturnStatement : Nat := 7
/-- The number of `parse_block` (oak-kotlin parser/mod.rs:216-231). -/
abbrev pParseBlock : Nat := 8
/-- The number of `primary` (oak-kotlin parser/mod.rs:235-261). -/
abbrev pPrimary : Nat := 9
/-- The number of `prefix` (oak-kotlin parser/mod.rs:263-278). -/
abbrev pPrefix : Nat := 10
/-- The precedences expressions are parsed with (oak-kotlin parser/mod.rs:280-345). -/
abbrev levels : List Nat := [0, 1, 3, 4, 6, 7, 8, 9, 12]
/-- The number of `PrattParser::parse` with a precedence (oak-core parser/pratt.rs:237-243): after the other functions. -/
abbrev pPratt (min : Nat) : Nat := 11 + levels.idxOf min

/-- `skip_trivia` (oak-kotlin parser/mod.rs:41-51). -/
def skipTrivia : Prog :=
  loop more
    (ite (seesAny [tWhitespace, tNewline, tComment])
      bump
      brk)

/-- `parse_statement` (oak-kotlin parser/mod.rs:53-71). -/
def parseStatement : Prog :=
  block [
    call pSkipTrivia,
    ite (sees tFun)
      (call pParseFunctionDeclaration)
      (ite (sees tClass)
        (call pParseClassDeclaration)
        (ite (seesAny [tVal, tVar])
          (call pParseVariableDeclaration)
          (ite (sees tIf)
            (call pParseIfStatement)
            (ite (sees tWhile)
              (call pParseWhileStatement)
              (ite (sees tReturn)
                (call pParseReturnStatement)
                (ite (sees tLBrace)
                  (call pParseBlock)
                  (block [
                    call (pPratt 0),
                    call pSkipTrivia,
                    eat tSemi])))))))]

/-- `parse_class_declaration` (oak-kotlin parser/mod.rs:73-106). -/
def parseClassDeclaration : Prog :=
  mark (block [
    expect tClass,
    call pSkipTrivia,
    expect tIdentifier,
    call pSkipTrivia,
    when_ (eat tLParen)
      (block [
        loop (and_ more (not_ (sees tRParen)))
          (block [
            mark (block [
              call pSkipTrivia,
              eat tVal,
              eat tVar,
              call pSkipTrivia,
              expect tIdentifier,
              call pSkipTrivia,
              when_ (eat tColon)
                (block [
                  call pSkipTrivia,
                  expect tIdentifier]),
              close eParameter]),
            call pSkipTrivia,
            eat tComma]),
        call pSkipTrivia,
        expect tRParen]),
    call pSkipTrivia,
    when_ (sees tLBrace)
      (call pParseBlock),
    close eClassDeclaration])

/-- `parse_function_declaration` (oak-kotlin parser/mod.rs:108-141). -/
def parseFunctionDeclaration : Prog :=
  mark (block [
    expect tFun,
    call pSkipTrivia,
    expect tIdentifier,
    call pSkipTrivia,
    when_ (eat tLParen)
      (block [
        loop (and_ more (not_ (sees tRParen)))
          (block [
            mark (block [
              call pSkipTrivia,
              expect tIdentifier,
              call pSkipTrivia,
              when_ (eat tColon)
                (block [
                  call pSkipTrivia,
                  expect tIdentifier]),
              close eParameter]),
            call pSkipTrivia,
            eat tComma]),
        call pSkipTrivia,
        expect tRParen]),
    call pSkipTrivia,
    when_ (eat tColon)
      (block [
        call pSkipTrivia,
        expect tIdentifier]),
    call pSkipTrivia,
    call pParseBlock,
    close eFunctionDeclaration])

/-- `parse_variable_declaration` (oak-kotlin parser/mod.rs:143-163). -/
def parseVariableDeclaration : Prog :=
  mark (block [
    bump,
    call pSkipTrivia,
    expect tIdentifier,
    call pSkipTrivia,
    when_ (eat tColon)
      (block [
        call pSkipTrivia,
        expect tIdentifier]),
    call pSkipTrivia,
    when_ (eat tAssign)
      (block [
        call pSkipTrivia,
        call (pPratt 0)]),
    call pSkipTrivia,
    eat tSemi,
    close eVariableDeclaration])

/-- `parse_if_statement` (oak-kotlin parser/mod.rs:165-184). -/
def parseIfStatement : Prog :=
  mark (block [
    expect tIf,
    call pSkipTrivia,
    expect tLParen,
    call pSkipTrivia,
    call (pPratt 0),
    call pSkipTrivia,
    expect tRParen,
    call pSkipTrivia,
    call pParseStatement,
    call pSkipTrivia,
    when_ (eat tElse)
      (block [
        call pSkipTrivia,
        call pParseStatement]),
    close eIfStatement])

/-- `parse_while_statement` (oak-kotlin parser/mod.rs:186-200). -/
def parseWhileStatement : Prog :=
  mark (block [
    expect tWhile,
    call pSkipTrivia,
    expect tLParen,
    call pSkipTrivia,
    call (pPratt 0),
    call pSkipTrivia,
    expect tRParen,
    call pSkipTrivia,
    call pParseStatement,
    close eWhileStatement])

/-- `parse_return_statement` (oak-kotlin parser/mod.rs:202-214). -/
def parseReturnStatement : Prog :=
  mark (block [
    expect tReturn,
    call pSkipTrivia,
    when_ (and_ (and_ more (not_ (sees tSemi))) (not_ (sees tRBrace)))
      (call (pPratt 0)),
    call pSkipTrivia,
    eat tSemi,
    close eReturnStatement])

/-- `parse_block` (oak-kotlin parser/mod.rs:216-231). -/
def parseBlock : Prog :=
  mark (block [
    expect tLBrace,
    loop (and_ more (not_ (sees tRBrace)))
      (block [
        call pSkipTrivia,
        when_ (sees tRBrace)
          brk,
        call pParseStatement]),
    call pSkipTrivia,
    expect tRBrace,
    close eBlock])

/-- `primary` (oak-kotlin parser/mod.rs:235-261). -/
def primary : Prog :=
  block [
    call pSkipTrivia,
    mark (ite (sees tIdentifier)
      (block [
        bump,
        close eIdentifier])
      (ite (seesAny [tStringLiteral, tCharLiteral, tNumberLiteral, tIntLiteral, tFloatLiteral, tBooleanLiteral, tNull, tTrue, tFalse])
        (block [
          bump,
          close eIntLiteral])
        (ite (sees tLParen)
          (block [
            bump,
            call pSkipTrivia,
            call (pPratt 0),
            call pSkipTrivia,
            expect tRParen,
            close eSourceFile])
          (block [
            bump,
            close eError]))))]

/-- `prefix` (oak-kotlin parser/mod.rs:263-278). -/
def prefix_ : Prog :=
  block [
    call pSkipTrivia,
    ite more
      (ite (seesAny [tPlus, tMinus, tExclamation, tTilde])
        (mark (block [
          bump,
          call pSkipTrivia,
          call (pPratt 12),
          close ePrefixExpression]))
        (call pPrimary))
      (call pPrimary)]

/-- `infix` (oak-kotlin parser/mod.rs:280-345) with a least precedence. -/
def infix_ (min : Nat) : Prog :=
  block [
    call pSkipTrivia,
    ite more
      (ite (seesAny [tAssign, tPlusAssign, tMinusAssign, tStarAssign, tSlashAssign, tPercentAssign])
        (level min 1
          (mark (block [
            back,
            bump,
            call pSkipTrivia,
            call (pPratt 1),
            close eAssignmentExpression])))
        (ite (sees tOrOr)
          (level min 2
            (mark (block [
              back,
              bump,
              call pSkipTrivia,
              call (pPratt 3),
              close eBinaryExpression])))
          (ite (sees tAndAnd)
            (level min 3
              (mark (block [
                back,
                bump,
                call pSkipTrivia,
                call (pPratt 4),
                close eBinaryExpression])))
            (ite (seesAny [tLt, tGt, tLtEq, tGtEq, tEqEq, tNotEq, tIs, tAs])
              (level min 5
                (mark (block [
                  back,
                  bump,
                  call pSkipTrivia,
                  call (pPratt 6),
                  close eBinaryExpression])))
              (ite (seesAny [tPlus, tMinus, tPipe, tCaret])
                (level min 6
                  (mark (block [
                    back,
                    bump,
                    call pSkipTrivia,
                    call (pPratt 7),
                    close eBinaryExpression])))
                (ite (seesAny [tStar, tSlash, tPercent, tAmpersand])
                  (level min 7
                    (mark (block [
                      back,
                      bump,
                      call pSkipTrivia,
                      call (pPratt 8),
                      close eBinaryExpression])))
                  (ite (seesAny [tDot, tDoubleColon, tRange])
                    (level min 8
                      (ite (sees tDot)
                        (block [
                          mark (block [
                            again,
                            bump,
                            call pSkipTrivia,
                            expect tIdentifier,
                            close eMemberAccessExpression])])
                        (mark (block [
                          back,
                          bump,
                          call pSkipTrivia,
                          call (pPratt 9),
                          close eBinaryExpression]))))
                    (ite (seesAny [tLParen, tLBracket])
                      (level min 9
                        (ite (sees tLParen)
                          (block [
                            mark (block [
                              again,
                              bump,
                              loop (and_ more (not_ (sees tRParen)))
                                (block [
                                  call pSkipTrivia,
                                  call (pPratt 0),
                                  call pSkipTrivia,
                                  when_ (not_ (eat tComma))
                                    brk]),
                              call pSkipTrivia,
                              expect tRParen,
                              close eCallExpression])])
                          (block [
                            mark (block [
                              again,
                              bump,
                              call pSkipTrivia,
                              call (pPratt 0),
                              call pSkipTrivia,
                              expect tRBracket,
                              close eMemberAccessExpression])])))
                      (level min 0
                        (ite (sees tDot)
                          (block [
                            mark (block [
                              again,
                              bump,
                              call pSkipTrivia,
                              expect tIdentifier,
                              close eMemberAccessExpression])])
                          (ite (sees tLParen)
                            (block [
                              mark (block [
                                again,
                                bump,
                                loop (and_ more (not_ (sees tRParen)))
                                  (block [
                                    call pSkipTrivia,
                                    call (pPratt 0),
                                    call pSkipTrivia,
                                    when_ (not_ (eat tComma))
                                      brk]),
                                call pSkipTrivia,
                                expect tRParen,
                                close eCallExpression])])
                            (ite (sees tLBracket)
                              (block [
                                mark (block [
                                  again,
                                  bump,
                                  call pSkipTrivia,
                                  call (pPratt 0),
                                  call pSkipTrivia,
                                  expect tRBracket,
                                  close eMemberAccessExpression])])
                              (ite (seesAny [tAssign, tPlusAssign, tMinusAssign, tStarAssign, tSlashAssign, tPercentAssign])
                                (mark (block [
                                  back,
                                  bump,
                                  call pSkipTrivia,
                                  call (pPratt 1),
                                  close eAssignmentExpression]))
                                (mark (block [
                                  back,
                                  bump,
                                  call pSkipTrivia,
                                  call (pPratt 1),
                                  close eBinaryExpression])))))))))))))))
      (val false)]

/-- `PrattParser::parse` (oak-core parser/pratt.rs:237-243). -/
def pratt (min : Nat) : Prog :=
  block [call pPrefix, loop (infix_ min) (val true)]

/-- `parse_root_internal` between the checkpoint and the last `finish_at` (oak-kotlin parser/mod.rs:28-39). -/
def main : Prog :=
  loop more
    (block [
      call pSkipTrivia,
      when_ more
        (catch_ (call pParseStatement))])

/-- The parser (`parse_root_internal`, oak-kotlin parser/mod.rs:28-39; `is_ignored`, oak-kotlin lexer/token_type.rs:11-13). -/
def parser : HandParser where
  ign := []
  fromStart := false
  root := eSourceFile
  main := main
  procs := [skipTrivia, parseStatement, parseClassDeclaration, parseFunctionDeclaration, parseVariableDeclaration, parseIfStatement, parseWhileStatement, parseReturnStatement, parseBlock, primary, prefix_] ++ levels.map pratt

end Oaks.Hand.Kotlin
