import Verif.Model.Prog

/-
The parser of `oak-swift` (examples/oak-swift/src/parser) as a program: one definition for every function it calls, in the order of the
source. Kinds are the places of the variants in their enums.
-/
namespace Oaks.Hand.Swift
open Prog

/-- `SwiftTokenType::Whitespace` (oak-swift lexer/token_type.rs:11). -/
abbrev tWhitespace : Nat := 0
/-- `SwiftTokenType::Newline` (oak-swift lexer/token_type.rs:12). -/
abbrev tNewline : Nat := 1
/-- `SwiftTokenType::Comment` (oak-swift lexer/token_type.rs:13). -/
abbrev tComment : Nat := 2
/-- `SwiftTokenType::Identifier` (oak-swift lexer/token_type.rs:14). -/
abbrev tIdentifier : Nat := 3
/-- `SwiftTokenType::Eof` (oak-swift lexer/token_type.rs:16). -/
abbrev tEof : Nat := 5
/-- `SwiftTokenType::NumberLiteral` (oak-swift lexer/token_type.rs:17). -/
abbrev tNumberLiteral : Nat := 6
/-- `SwiftTokenType::StringLiteral` (oak-swift lexer/token_type.rs:18). -/
abbrev tStringLiteral : Nat := 7
/-- `SwiftTokenType::CharLiteral` (oak-swift lexer/token_type.rs:19). -/
abbrev tCharLiteral : Nat := 8
/-- `SwiftTokenType::BooleanLiteral` (oak-swift lexer/token_type.rs:20). -/
abbrev tBooleanLiteral : Nat := 9
/-- `SwiftTokenType::Func` (oak-swift lexer/token_type.rs:26). -/
abbrev tFunc : Nat := 15
/-- `SwiftTokenType::Var` (oak-swift lexer/token_type.rs:27). -/
abbrev tVar : Nat := 16
/-- `SwiftTokenType::Let` (oak-swift lexer/token_type.rs:28). -/
abbrev tLet : Nat := 17
/-- `SwiftTokenType::If` (oak-swift lexer/token_type.rs:34). -/
abbrev tIf : Nat := 23
/-- `SwiftTokenType::Else` (oak-swift lexer/token_type.rs:35). -/
abbrev tElse : Nat := 24
/-- `SwiftTokenType::For` (oak-swift lexer/token_type.rs:39). -/
abbrev tFor : Nat := 28
/-- `SwiftTokenType::While` (oak-swift lexer/token_type.rs:40). -/
abbrev tWhile : Nat := 29
/-- `SwiftTokenType::Return` (oak-swift lexer/token_type.rs:46). -/
abbrev tReturn : Nat := 35
/-- `SwiftTokenType::True` (oak-swift lexer/token_type.rs:78). -/
abbrev tTrue : Nat := 67
/-- `SwiftTokenType::False` (oak-swift lexer/token_type.rs:79). -/
abbrev tFalse : Nat := 68
/-- `SwiftTokenType::Nil` (oak-swift lexer/token_type.rs:80). -/
abbrev tNil : Nat := 69
/-- `SwiftTokenType::As` (oak-swift lexer/token_type.rs:81). -/
abbrev tAs : Nat := 70
/-- `SwiftTokenType::Is` (oak-swift lexer/token_type.rs:82). -/
abbrev tIs : Nat := 71
/-- `SwiftTokenType::In` (oak-swift lexer/token_type.rs:83). -/
abbrev tIn : Nat := 72
/-- `SwiftTokenType::Plus` (oak-swift lexer/token_type.rs:92). -/
abbrev tPlus : Nat := 81
/-- `SwiftTokenType::Minus` (oak-swift lexer/token_type.rs:93). -/
abbrev tMinus : Nat := 82
/-- `SwiftTokenType::Star` (oak-swift lexer/token_type.rs:94). -/
abbrev tStar : Nat := 83
/-- `SwiftTokenType::Slash` (oak-swift lexer/token_type.rs:95). -/
abbrev tSlash : Nat := 84
/-- `SwiftTokenType::Percent` (oak-swift lexer/token_type.rs:96). -/
abbrev tPercent : Nat := 85
/-- `SwiftTokenType::Equal` (oak-swift lexer/token_type.rs:97). -/
abbrev tEqual : Nat := 86
/-- `SwiftTokenType::NotEqual` (oak-swift lexer/token_type.rs:98). -/
abbrev tNotEqual : Nat := 87
/-- `SwiftTokenType::Less` (oak-swift lexer/token_type.rs:99). -/
abbrev tLess : Nat := 88
/-- `SwiftTokenType::Greater` (oak-swift lexer/token_type.rs:100). -/
abbrev tGreater : Nat := 89
/-- `SwiftTokenType::LessEqual` (oak-swift lexer/token_type.rs:101). -/
abbrev tLessEqual : Nat := 90
/-- `SwiftTokenType::GreaterEqual` (oak-swift lexer/token_type.rs:102). -/
abbrev tGreaterEqual : Nat := 91
/-- `SwiftTokenType::LogicalAnd` (oak-swift lexer/token_type.rs:103). -/
abbrev tLogicalAnd : Nat := 92
/-- `SwiftTokenType::LogicalOr` (oak-swift lexer/token_type.rs:104). -/
abbrev tLogicalOr : Nat := 93
/-- `SwiftTokenType::LogicalNot` (oak-swift lexer/token_type.rs:105). -/
abbrev tLogicalNot : Nat := 94
/-- `SwiftTokenType::BitAnd` (oak-swift lexer/token_type.rs:106). -/
abbrev tBitAnd : Nat := 95
/-- `SwiftTokenType::BitOr` (oak-swift lexer/token_type.rs:107). -/
abbrev tBitOr : Nat := 96
/-- `SwiftTokenType::BitXor` (oak-swift lexer/token_type.rs:108). -/
abbrev tBitXor : Nat := 97
/-- `SwiftTokenType::BitNot` (oak-swift lexer/token_type.rs:109). -/
abbrev tBitNot : Nat := 98
/-- `SwiftTokenType::LeftShift` (oak-swift lexer/token_type.rs:110). -/
abbrev tLeftShift : Nat := 99
/-- `SwiftTokenType::RightShift` (oak-swift lexer/token_type.rs:111). -/
abbrev tRightShift : Nat := 100
/-- `SwiftTokenType::Assign` (oak-swift lexer/token_type.rs:112). -/
abbrev tAssign : Nat := 101
/-- `SwiftTokenType::PlusAssign` (oak-swift lexer/token_type.rs:113). -/
abbrev tPlusAssign : Nat := 102
/-- `SwiftTokenType::MinusAssign` (oak-swift lexer/token_type.rs:114). -/
abbrev tMinusAssign : Nat := 103
/-- `SwiftTokenType::StarAssign` (oak-swift lexer/token_type.rs:115). -/
abbrev tStarAssign : Nat := 104
/-- `SwiftTokenType::SlashAssign` (oak-swift lexer/token_type.rs:116). -/
abbrev tSlashAssign : Nat := 105
/-- `SwiftTokenType::PercentAssign` (oak-swift lexer/token_type.rs:117). -/
abbrev tPercentAssign : Nat := 106
/-- `SwiftTokenType::AndAssign` (oak-swift lexer/token_type.rs:118). -/
abbrev tAndAssign : Nat := 107
/-- `SwiftTokenType::OrAssign` (oak-swift lexer/token_type.rs:119). -/
abbrev tOrAssign : Nat := 108
/-- `SwiftTokenType::XorAssign` (oak-swift lexer/token_type.rs:120). -/
abbrev tXorAssign : Nat := 109
/-- `SwiftTokenType::LeftShiftAssign` (oak-swift lexer/token_type.rs:121). -/
abbrev tLeftShiftAssign : Nat := 110
/-- `SwiftTokenType::RightShiftAssign` (oak-swift lexer/token_type.rs:122). -/
abbrev tRightShiftAssign : Nat := 111
/-- `SwiftTokenType::QuestionQuestion` (oak-swift lexer/token_type.rs:124). -/
abbrev tQuestionQuestion : Nat := 113
/-- `SwiftTokenType::Dot` (oak-swift lexer/token_type.rs:125). -/
abbrev tDot : Nat := 114
/-- `SwiftTokenType::Arrow` (oak-swift lexer/token_type.rs:126). -/
abbrev tArrow : Nat := 115
/-- `SwiftTokenType::Range` (oak-swift lexer/token_type.rs:127). -/
abbrev tRange : Nat := 116
/-- `SwiftTokenType::ClosedRange` (oak-swift lexer/token_type.rs:128). -/
abbrev tClosedRange : Nat := 117
/-- `SwiftTokenType::LeftParen` (oak-swift lexer/token_type.rs:129). -/
abbrev tLeftParen : Nat := 118
/-- `SwiftTokenType::RightParen` (oak-swift lexer/token_type.rs:130). -/
abbrev tRightParen : Nat := 119
/-- `SwiftTokenType::LeftBracket` (oak-swift lexer/token_type.rs:131). -/
abbrev tLeftBracket : Nat := 120
/-- `SwiftTokenType::RightBracket` (oak-swift lexer/token_type.rs:132). -/
abbrev tRightBracket : Nat := 121
/-- `SwiftTokenType::LeftBrace` (oak-swift lexer/token_type.rs:133). -/
abbrev tLeftBrace : Nat := 122
/-- `SwiftTokenType::RightBrace` (oak-swift lexer/token_type.rs:134). -/
abbrev tRightBrace : Nat := 123
/-- `SwiftTokenType::Comma` (oak-swift lexer/token_type.rs:135). -/
abbrev tComma : Nat := 124
/-- `SwiftTokenType::Semicolon` (oak-swift lexer/token_type.rs:136). -/
abbrev tSemicolon : Nat := 125
/-- `SwiftTokenType::Colon` (oak-swift lexer/token_type.rs:137). -/
abbrev tColon : Nat := 126
/-- `SwiftElementType::Error` (oak-swift parser/element_type.rs:13). -/
abbrev eError : Nat := 4
/-- `SwiftElementType::SourceFile` (oak-swift parser/element_type.rs:141). -/
abbrev eSourceFile : Nat := 132
/-- `SwiftElementType::FunctionDeclaration` (oak-swift parser/element_type.rs:142). -/
abbrev eFunctionDeclaration : Nat := 133
/-- `SwiftElementType::Parameter` (oak-swift parser/element_type.rs:143). -/
abbrev eParameter : Nat := 134
/-- `SwiftElementType::ParameterList` (oak-swift parser/element_type.rs:144). -/
abbrev eParameterList : Nat := 135
/-- `SwiftElementType::VariableDeclaration` (oak-swift parser/element_type.rs:145). -/
abbrev eVariableDeclaration : Nat := 136
/-- `SwiftElementType::IfStatement` (oak-swift parser/element_type.rs:150). -/
abbrev eIfStatement : Nat := 141
/-- `SwiftElementType::WhileStatement` (oak-swift parser/element_type.rs:151). -/
abbrev eWhileStatement : Nat := 142
/-- `SwiftElementType::ForStatement` (oak-swift parser/element_type.rs:152). -/
abbrev eForStatement : Nat := 143
/-- `SwiftElementType::ReturnStatement` (oak-swift parser/element_type.rs:153). -/
abbrev eReturnStatement : Nat := 144
/-- `SwiftElementType::ExpressionStatement` (oak-swift parser/element_type.rs:156). -/
abbrev eExpressionStatement : Nat := 147
/-- `SwiftElementType::Block` (oak-swift parser/element_type.rs:157). -/
abbrev eBlock : Nat := 148
/-- `SwiftElementType::BinaryExpression` (oak-swift parser/element_type.rs:158). -/
abbrev eBinaryExpression : Nat := 149
/-- `SwiftElementType::UnaryExpression` (oak-swift parser/element_type.rs:159). -/
abbrev eUnaryExpression : Nat := 150
/-- `SwiftElementType::CallExpression` (oak-swift parser/element_type.rs:160). -/
abbrev eCallExpression : Nat := 151
/-- `SwiftElementType::MemberExpression` (oak-swift parser/element_type.rs:161). -/
abbrev eMemberExpression : Nat := 152
/-- `SwiftElementType::IdentifierExpression` (oak-swift parser/element_type.rs:162). -/
abbrev eIdentifierExpression : Nat := 153
/-- `SwiftElementType::LiteralExpression` (oak-swift parser/element_type.rs:163). -/
abbrev eLiteralExpression : Nat := 154

/-- The number of `parse_statement` (oak-swift parser/mod.rs:37-58). -/
abbrev pParseStatement : Nat := 0
/-- The number of `parse_function_declaration` (oak-swift parser/mod.rs:60-92). -/
abbrev pParseFunctionDeclaration : Nat := 1
/-- The number of `parse_variable_declaration` (oak-swift parser/mod.rs:94-108). -/
abbrev pParseVariableDeclaration : Nat := 2
/-- The number of `parse_if_statement` (oak-swift parser/mod.rs:110-121). -/
abbrev pParseIfStatement : Nat := 3
/-- The number of `parse_while_statement` (oak-swift parser/mod.rs:123-131). -/
abbrev pParseWhileStatement : Nat := 4
/-- The number of `parse_for_statement` (oak-swift parser/mod.rs:133-143). -/
abbrev pParseForStatement : Nat := 5
/-- The number of `parse_return_statement` (oak-swift parser/mod.rs:145-155). -/
abbrev pParseReturnStatement : Nat := 6
/-- The number of `parse_block` (oak-swift parser/mod.rs:157-167). -/
abbrev pParseBlock : Nat := 7
/-- The number of `primary` (oak-swift parser/mod.rs:171-197). -/
abbrev pPrimary : Nat := 8
/-- The number of `prefix` (oak-swift parser/mod.rs:199-210). -/
abbrev pPrefix : Nat := 9
/-- The precedences expressions are parsed with (oak-swift parser/mod.rs:212-261). -/
abbrev levels : List Nat := [0, 1, 3, 4, 6, 7, 8, 9, 10, 12]
/-- The number of `PrattParser::parse` with a precedence (oak-core parser/pratt.rs:237-243): after the other functions. -/
abbrev pPratt (min : Nat) : Nat := 10 + levels.idxOf min

/-- `parse_statement` (oak-swift parser/mod.rs:37-58). -/
def parseStatement : Prog :=
  ite (or_ (sees tEof) (not_ more))
    (ret true)
    (ite (sees tFunc)
      (call pParseFunctionDeclaration)
      (ite (seesAny [tVar, tLet])
        (call pParseVariableDeclaration)
        (ite (sees tIf)
          (call pParseIfStatement)
          (ite (sees tWhile)
            (call pParseWhileStatement)
            (ite (sees tFor)
              (call pParseForStatement)
              (ite (sees tReturn)
                (call pParseReturnStatement)
                (ite (sees tLeftBrace)
                  (call pParseBlock)
                  (mark (block [
                    call (pPratt 0),
                    eat tSemicolon,
                    close eExpressionStatement])))))))))

/-- `parse_function_declaration` (oak-swift parser/mod.rs:60-92). -/
def parseFunctionDeclaration : Prog :=
  mark (block [
    expect tFunc,
    expect tIdentifier,
    when_ (sees tLeftParen)
      (mark (block [
        bump,
        loop (and_ more (not_ (sees tRightParen)))
          (block [
            mark (block [
              expect tIdentifier,
              when_ (eat tColon)
                (expect tIdentifier),
              close eParameter]),
            when_ (eat tComma)
              cont,
            brk]),
        expect tRightParen,
        close eParameterList])),
    when_ (eat tArrow)
      (expect tIdentifier),
    call pParseBlock,
    close eFunctionDeclaration])

/-- `parse_variable_declaration` (oak-swift parser/mod.rs:94-108). -/
def parseVariableDeclaration : Prog :=
  mark (block [
    bump,
    expect tIdentifier,
    when_ (eat tColon)
      (expect tIdentifier),
    when_ (eat tAssign)
      (call (pPratt 0)),
    eat tSemicolon,
    close eVariableDeclaration])

/-- `parse_if_statement` (oak-swift parser/mod.rs:110-121). -/
def parseIfStatement : Prog :=
  mark (block [
    expect tIf,
    call (pPratt 0),
    call pParseBlock,
    when_ (eat tElse)
      (ite (sees tIf)
        (call pParseIfStatement)
        (call pParseBlock)),
    close eIfStatement])

/-- `parse_while_statement` (oak-swift parser/mod.rs:123-131). -/
def parseWhileStatement : Prog :=
  mark (block [
    expect tWhile,
    call (pPratt 0),
    call pParseBlock,
    close eWhileStatement])

/-- `parse_for_statement` (oak-swift parser/mod.rs:133-143). -/
def parseForStatement : Prog :=
  mark (block [
    expect tFor,
    expect tIdentifier,
    expect tIn,
    call (pPratt 0),
    call pParseBlock,
    close eForStatement])

/-- `parse_return_statement` (oak-swift parser/mod.rs:145-155). -/
def parseReturnStatement : Prog :=
  mark (block [
    expect tReturn,
    when_ (and_ (and_ more (not_ (sees tSemicolon))) (not_ (sees tRightBrace)))
      (call (pPratt 0)),
    eat tSemicolon,
    close eReturnStatement])

/-- `parse_block` (oak-swift parser/mod.rs:157-167). -/
def parseBlock : Prog :=
  mark (block [
    expect tLeftBrace,
    loop (and_ more (not_ (sees tRightBrace)))
      (call pParseStatement),
    expect tRightBrace,
    close eBlock])

/-- `primary` (oak-swift parser/mod.rs:171-197). -/
def primary : Prog :=
  block [
    trivia,
    mark (ite (sees tIdentifier)
      (block [
        bump,
        close eIdentifierExpression])
      (ite (seesAny [tNumberLiteral, tStringLiteral, tCharLiteral, tBooleanLiteral, tNil, tTrue, tFalse])
        (block [
          bump,
          close eLiteralExpression])
        (ite (sees tLeftParen)
          (block [
            bump,
            call (pPratt 0),
            expect tRightParen,
            close eIdentifierExpression])
          (block [
            val true,
            bump,
            close eError]))))]

/-- `prefix` (oak-swift parser/mod.rs:199-210). -/
def prefix_ : Prog :=
  ite more
    (ite (seesAny [tPlus, tMinus, tLogicalNot, tBitNot])
      (mark (block [
        bump,
        call (pPratt 12),
        close eUnaryExpression]))
      (call pPrimary))
    (call pPrimary)

/-- `infix` (oak-swift parser/mod.rs:212-261) with a least precedence. -/
def infix_ (min : Nat) : Prog :=
  ite more
    (ite (seesAny [tAssign, tPlusAssign, tMinusAssign, tStarAssign, tSlashAssign, tPercentAssign, tAndAssign, tOrAssign, tXorAssign, tLeftShiftAssign, tRightShiftAssign])
      (level min 1
        (block [
          bump,
          call (pPratt 1),
          close eBinaryExpression]))
      (ite (sees tLogicalOr)
        (level min 2
          (block [
            bump,
            call (pPratt 3),
            close eBinaryExpression]))
        (ite (sees tLogicalAnd)
          (level min 3
            (block [
              bump,
              call (pPratt 4),
              close eBinaryExpression]))
          (ite (seesAny [tLess, tGreater, tLessEqual, tGreaterEqual, tEqual, tNotEqual, tAs, tIs])
            (level min 5
              (block [
                bump,
                call (pPratt 6),
                close eBinaryExpression]))
            (ite (seesAny [tRange, tClosedRange])
              (level min 6
                (block [
                  bump,
                  call (pPratt 7),
                  close eBinaryExpression]))
              (ite (seesAny [tPlus, tMinus, tBitOr, tBitXor])
                (level min 7
                  (block [
                    bump,
                    call (pPratt 8),
                    close eBinaryExpression]))
                (ite (seesAny [tStar, tSlash, tPercent, tBitAnd, tLeftShift, tRightShift])
                  (level min 8
                    (block [
                      bump,
                      call (pPratt 9),
                      close eBinaryExpression]))
                  (ite (seesAny [tDot, tQuestionQuestion])
                    (level min 9
                      (ite (sees tDot)
                        (block [
                          bump,
                          expect tIdentifier,
                          close eMemberExpression])
                        (block [
                          bump,
                          call (pPratt 10),
                          close eBinaryExpression])))
                    (ite (seesAny [tLeftParen, tLeftBracket])
                      (level min 10
                        (ite (sees tLeftParen)
                          (block [
                            bump,
                            loop (and_ more (not_ (sees tRightParen)))
                              (block [
                                call (pPratt 0),
                                when_ (not_ (eat tComma))
                                  brk]),
                            expect tRightParen,
                            close eCallExpression])
                          (block [
                            bump,
                            call (pPratt 0),
                            expect tRightBracket,
                            close eMemberExpression])))
                      (val false))))))))))
    (val false)

/-- `PrattParser::parse` (oak-core parser/pratt.rs:237-243): `left` always begins at the checkpoint. -/
def pratt (min : Nat) : Prog :=
  mark (block [call pPrefix, loop (infix_ min) (val true)])

/-- `parse_root_internal` between the checkpoint and the last `finish_at` (oak-swift parser/mod.rs:24-35). -/
def main : Prog :=
  block [
    loop (and_ more (not_ (sees tEof)))
      (call pParseStatement),
    eat tEof]

/-- The parser (`parse_root_internal`, oak-swift parser/mod.rs:24-35; `is_ignored`, oak-swift lexer/token_type.rs:178-180). -/
def parser : HandParser where
  ign := [tWhitespace, tNewline, tComment]
  fromStart := true
  root := eSourceFile
  main := main
  procs := [parseStatement, parseFunctionDeclaration, parseVariableDeclaration, parseIfStatement, parseWhileStatement, parseForStatement, parseReturnStatement, parseBlock, primary, prefix_] ++ levels.map pratt

end Oaks.Hand.Swift
