import Verif.Model.Prog

/-
The parser of `oak-php` (examples/oak-php/src/parser) as a program: one definition for every function it calls, in the order of the
source. Kinds are the places of the variants in their enums.
-/
namespace Oaks.Hand.Php
open Prog

/-- `PhpTokenType::StringLiteral` (oak-php lexer/token_type.rs:84). -/
abbrev tStringLiteral : Nat := 3
/-- `PhpTokenType::NumberLiteral` (oak-php lexer/token_type.rs:85). -/
abbrev tNumberLiteral : Nat := 4
/-- `PhpTokenType::BooleanLiteral` (oak-php lexer/token_type.rs:86). -/
abbrev tBooleanLiteral : Nat := 5
/-- `PhpTokenType::NullLiteral` (oak-php lexer/token_type.rs:87). -/
abbrev tNullLiteral : Nat := 6
/-- `PhpTokenType::Identifier` (oak-php lexer/token_type.rs:90). -/
abbrev tIdentifier : Nat := 7
/-- `PhpTokenType::Variable` (oak-php lexer/token_type.rs:91). -/
abbrev tVariable : Nat := 8
/-- `PhpTokenType::Abstract` (oak-php lexer/token_type.rs:92). -/
abbrev tAbstract : Nat := 9
/-- `PhpTokenType::Class` (oak-php lexer/token_type.rs:100). -/
abbrev tClass : Nat := 17
/-- `PhpTokenType::Echo` (oak-php lexer/token_type.rs:107). -/
abbrev tEcho : Nat := 24
/-- `PhpTokenType::Final` (oak-php lexer/token_type.rs:120). -/
abbrev tFinal : Nat := 37
/-- `PhpTokenType::For` (oak-php lexer/token_type.rs:122). -/
abbrev tFor : Nat := 39
/-- `PhpTokenType::Foreach` (oak-php lexer/token_type.rs:123). -/
abbrev tForeach : Nat := 40
/-- `PhpTokenType::Function` (oak-php lexer/token_type.rs:124). -/
abbrev tFunction : Nat := 41
/-- `PhpTokenType::If` (oak-php lexer/token_type.rs:127). -/
abbrev tIf : Nat := 44
/-- `PhpTokenType::Interface` (oak-php lexer/token_type.rs:133). -/
abbrev tInterface : Nat := 50
/-- `PhpTokenType::Namespace` (oak-php lexer/token_type.rs:136). -/
abbrev tNamespace : Nat := 53
/-- `PhpTokenType::Private` (oak-php lexer/token_type.rs:140). -/
abbrev tPrivate : Nat := 57
/-- `PhpTokenType::Protected` (oak-php lexer/token_type.rs:141). -/
abbrev tProtected : Nat := 58
/-- `PhpTokenType::Public` (oak-php lexer/token_type.rs:142). -/
abbrev tPublic : Nat := 59
/-- `PhpTokenType::Return` (oak-php lexer/token_type.rs:145). -/
abbrev tReturn : Nat := 62
/-- `PhpTokenType::Static` (oak-php lexer/token_type.rs:146). -/
abbrev tStatic : Nat := 63
/-- `PhpTokenType::Trait` (oak-php lexer/token_type.rs:149). -/
abbrev tTrait : Nat := 66
/-- `PhpTokenType::Use` (oak-php lexer/token_type.rs:152). -/
abbrev tUse : Nat := 69
/-- `PhpTokenType::While` (oak-php lexer/token_type.rs:154). -/
abbrev tWhile : Nat := 71
/-- `PhpTokenType::Plus` (oak-php lexer/token_type.rs:160). -/
abbrev tPlus : Nat := 75
/-- `PhpTokenType::Minus` (oak-php lexer/token_type.rs:161). -/
abbrev tMinus : Nat := 76
/-- `PhpTokenType::Multiply` (oak-php lexer/token_type.rs:162). -/
abbrev tMultiply : Nat := 77
/-- `PhpTokenType::Divide` (oak-php lexer/token_type.rs:163). -/
abbrev tDivide : Nat := 78
/-- `PhpTokenType::Modulo` (oak-php lexer/token_type.rs:164). -/
abbrev tModulo : Nat := 79
/-- `PhpTokenType::Concat` (oak-php lexer/token_type.rs:166). -/
abbrev tConcat : Nat := 81
/-- `PhpTokenType::Equal` (oak-php lexer/token_type.rs:167). -/
abbrev tEqual : Nat := 82
/-- `PhpTokenType::Identical` (oak-php lexer/token_type.rs:168). -/
abbrev tIdentical : Nat := 83
/-- `PhpTokenType::NotEqual` (oak-php lexer/token_type.rs:169). -/
abbrev tNotEqual : Nat := 84
/-- `PhpTokenType::NotIdentical` (oak-php lexer/token_type.rs:170). -/
abbrev tNotIdentical : Nat := 85
/-- `PhpTokenType::Less` (oak-php lexer/token_type.rs:171). -/
abbrev tLess : Nat := 86
/-- `PhpTokenType::Greater` (oak-php lexer/token_type.rs:172). -/
abbrev tGreater : Nat := 87
/-- `PhpTokenType::LessEqual` (oak-php lexer/token_type.rs:173). -/
abbrev tLessEqual : Nat := 88
/-- `PhpTokenType::GreaterEqual` (oak-php lexer/token_type.rs:174). -/
abbrev tGreaterEqual : Nat := 89
/-- `PhpTokenType::Spaceship` (oak-php lexer/token_type.rs:175). -/
abbrev tSpaceship : Nat := 90
/-- `PhpTokenType::LogicalAnd` (oak-php lexer/token_type.rs:176). -/
abbrev tLogicalAnd : Nat := 91
/-- `PhpTokenType::LogicalOr` (oak-php lexer/token_type.rs:177). -/
abbrev tLogicalOr : Nat := 92
/-- `PhpTokenType::Assign` (oak-php lexer/token_type.rs:186). -/
abbrev tAssign : Nat := 101
/-- `PhpTokenType::PlusAssign` (oak-php lexer/token_type.rs:187). -/
abbrev tPlusAssign : Nat := 102
/-- `PhpTokenType::MinusAssign` (oak-php lexer/token_type.rs:188). -/
abbrev tMinusAssign : Nat := 103
/-- `PhpTokenType::MultiplyAssign` (oak-php lexer/token_type.rs:189). -/
abbrev tMultiplyAssign : Nat := 104
/-- `PhpTokenType::DivideAssign` (oak-php lexer/token_type.rs:190). -/
abbrev tDivideAssign : Nat := 105
/-- `PhpTokenType::ModuloAssign` (oak-php lexer/token_type.rs:191). -/
abbrev tModuloAssign : Nat := 106
/-- `PhpTokenType::PowerAssign` (oak-php lexer/token_type.rs:192). -/
abbrev tPowerAssign : Nat := 107
/-- `PhpTokenType::ConcatAssign` (oak-php lexer/token_type.rs:193). -/
abbrev tConcatAssign : Nat := 108
/-- `PhpTokenType::BitwiseAndAssign` (oak-php lexer/token_type.rs:194). -/
abbrev tBitwiseAndAssign : Nat := 109
/-- `PhpTokenType::BitwiseOrAssign` (oak-php lexer/token_type.rs:195). -/
abbrev tBitwiseOrAssign : Nat := 110
/-- `PhpTokenType::BitwiseXorAssign` (oak-php lexer/token_type.rs:196). -/
abbrev tBitwiseXorAssign : Nat := 111
/-- `PhpTokenType::LeftShiftAssign` (oak-php lexer/token_type.rs:197). -/
abbrev tLeftShiftAssign : Nat := 112
/-- `PhpTokenType::RightShiftAssign` (oak-php lexer/token_type.rs:198). -/
abbrev tRightShiftAssign : Nat := 113
/-- `PhpTokenType::Arrow` (oak-php lexer/token_type.rs:201). -/
abbrev tArrow : Nat := 116
/-- `PhpTokenType::NullCoalesceAssign` (oak-php lexer/token_type.rs:204). -/
abbrev tNullCoalesceAssign : Nat := 119
/-- `PhpTokenType::LeftParen` (oak-php lexer/token_type.rs:208). -/
abbrev tLeftParen : Nat := 121
/-- `PhpTokenType::RightParen` (oak-php lexer/token_type.rs:209). -/
abbrev tRightParen : Nat := 122
/-- `PhpTokenType::LeftBracket` (oak-php lexer/token_type.rs:210). -/
abbrev tLeftBracket : Nat := 123
/-- `PhpTokenType::RightBracket` (oak-php lexer/token_type.rs:211). -/
abbrev tRightBracket : Nat := 124
/-- `PhpTokenType::LeftBrace` (oak-php lexer/token_type.rs:212). -/
abbrev tLeftBrace : Nat := 125
/-- `PhpTokenType::RightBrace` (oak-php lexer/token_type.rs:213). -/
abbrev tRightBrace : Nat := 126
/-- `PhpTokenType::Semicolon` (oak-php lexer/token_type.rs:214). -/
abbrev tSemicolon : Nat := 127
/-- `PhpElementType::Identifier` (oak-php parser/element_type.rs:22). -/
abbrev eIdentifier : Nat := 7
/-- `PhpElementType::Error` (oak-php parser/element_type.rs:163). -/
abbrev eError : Nat := 140
/-- `PhpElementType::Root` (oak-php parser/element_type.rs:166). -/
abbrev eRoot : Nat := 141
/-- `PhpElementType::ClassDef` (oak-php parser/element_type.rs:167). -/
abbrev eClassDef : Nat := 142
/-- `PhpElementType::FunctionDef` (oak-php parser/element_type.rs:168). -/
abbrev eFunctionDef : Nat := 143
/-- `PhpElementType::InterfaceDef` (oak-php parser/element_type.rs:173). -/
abbrev eInterfaceDef : Nat := 148
/-- `PhpElementType::NamespaceDef` (oak-php parser/element_type.rs:174). -/
abbrev eNamespaceDef : Nat := 149
/-- `PhpElementType::UseStatement` (oak-php parser/element_type.rs:175). -/
abbrev eUseStatement : Nat := 150
/-- `PhpElementType::IfStatement` (oak-php parser/element_type.rs:176). -/
abbrev eIfStatement : Nat := 151
/-- `PhpElementType::WhileStatement` (oak-php parser/element_type.rs:177). -/
abbrev eWhileStatement : Nat := 152
/-- `PhpElementType::ForStatement` (oak-php parser/element_type.rs:179). -/
abbrev eForStatement : Nat := 154
/-- `PhpElementType::ForeachStatement` (oak-php parser/element_type.rs:180). -/
abbrev eForeachStatement : Nat := 155
/-- `PhpElementType::ReturnStatement` (oak-php parser/element_type.rs:186). -/
abbrev eReturnStatement : Nat := 161
/-- `PhpElementType::EchoStatement` (oak-php parser/element_type.rs:190). -/
abbrev eEchoStatement : Nat := 165
/-- `PhpElementType::CompoundStatement` (oak-php parser/element_type.rs:194). -/
abbrev eCompoundStatement : Nat := 169
/-- `PhpElementType::Literal` (oak-php parser/element_type.rs:197). -/
abbrev eLiteral : Nat := 170
/-- `PhpElementType::ParenthesizedExpression` (oak-php parser/element_type.rs:198). -/
abbrev eParenthesizedExpression : Nat := 171
/-- `PhpElementType::CallExpression` (oak-php parser/element_type.rs:199). -/
abbrev eCallExpression : Nat := 172
/-- `PhpElementType::ArrayAccessExpression` (oak-php parser/element_type.rs:200). -/
abbrev eArrayAccessExpression : Nat := 173
/-- `PhpElementType::MemberAccessExpression` (oak-php parser/element_type.rs:201). -/
abbrev eMemberAccessExpression : Nat := 174
/-- `PhpElementType::BinaryExpression` (oak-php parser/element_type.rs:202). -/
abbrev eBinaryExpression : Nat := 175

/-- The number of `primary` (oak-php parser/mod.rs:34-57). -/
abbrev pPrimary : Nat := 0
/-- The number of `prefix` (oak-php parser/mod.rs:59-61). -/
abbrev pPrefix : Nat := 1
/-- The number of `parse_statement` (oak-php parser/mod.rs:118-134). -/
abbrev pParseStatement : Nat := 2
/-- The number of `parse_namespace_def` (oak-php parser/mod.rs:136-151). -/
abbrev pParseNamespaceDef : Nat := 3
/-- The number of `parse_use_statement` (oak-php parser/mod.rs:153-160). -/
abbrev pParseUseStatement : Nat := 4
/-- The number of `parse_function_def` (oak-php parser/mod.rs:162-174). -/
abbrev pParseFunctionDef : Nat := 5
/-- The number of `parse_declaration` (oak-php parser/mod.rs:176-212). -/
abbrev pParseDeclaration : Nat := 6
/-- The number of `parse_if_statement` (oak-php parser/mod.rs:214-223). -/
abbrev pParseIfStatement : Nat := 7
/-- The number of `parse_while_statement` (oak-php parser/mod.rs:225-234). -/
abbrev pParseWhileStatement : Nat := 8
/-- The number of `parse_for_statement` (oak-php parser/mod.rs:236-244). -/
abbrev pParseForStatement : Nat := 9
/-- The number of `parse_foreach_statement` (oak-php parser/mod.rs:246-254). -/
abbrev pParseForeachStatement : Nat := 10
/-- The number of `parse_compound_statement` (oak-php parser/mod.rs:256-265). -/
abbrev pParseCompoundStatement : Nat := 11
/-- The number of `parse_return_statement` (oak-php parser/mod.rs:267-274). -/
abbrev pParseReturnStatement : Nat := 12
/-- The number of `parse_echo_statement` (oak-php parser/mod.rs:276-283). -/
abbrev pParseEchoStatement : Nat := 13
/-- The number of `parse_expression_statement` (oak-php parser/mod.rs:285-289). -/
abbrev pParseExpressionStatement : Nat := 14
/-- The precedences expressions are parsed with (oak-php parser/mod.rs:63-114). -/
abbrev levels : List Nat := [0, 1, 3, 4, 5, 11, 12]
/-- The number of `PrattParser::parse` with a precedence (oak-core parser/pratt.rs:237-243): after the other functions. -/
abbrev pPratt (min : Nat) : Nat := 15 + levels.idxOf min

/-- `primary` (oak-php parser/mod.rs:34-57). -/
def primary : Prog :=
  mark (ite (seesAny [tIdentifier, tVariable])
    (block [
      bump,
      close eIdentifier])
    (ite (seesAny [tNumberLiteral, tStringLiteral, tBooleanLiteral, tNullLiteral])
      (block [
        bump,
        close eLiteral])
      (ite (sees tLeftParen)
        (block [
          bump,
          call (pPratt 0),
          expect tRightParen,
          close eParenthesizedExpression])
        (block [
          bump,
          close eError]))))

/-- `prefix` (oak-php parser/mod.rs:59-61). -/
def prefix_ : Prog :=
  call pPrimary

/-- `parse_statement` (oak-php parser/mod.rs:118-134). -/
def parseStatement : Prog :=
  ite (sees tNamespace)
    (call pParseNamespaceDef)
    (ite (sees tUse)
      (call pParseUseStatement)
      (ite (seesAny [tClass, tInterface, tTrait, tAbstract, tFinal, tPublic, tPrivate, tProtected, tStatic])
        (call pParseDeclaration)
        (ite (sees tFunction)
          (call pParseFunctionDef)
          (ite (sees tIf)
            (call pParseIfStatement)
            (ite (sees tWhile)
              (call pParseWhileStatement)
              (ite (sees tFor)
                (call pParseForStatement)
                (ite (sees tForeach)
                  (call pParseForeachStatement)
                  (ite (sees tReturn)
                    (call pParseReturnStatement)
                    (ite (sees tEcho)
                      (call pParseEchoStatement)
                      (ite (sees tLeftBrace)
                        (call pParseCompoundStatement)
                        (call pParseExpressionStatement)))))))))))

/-- `parse_namespace_def` (oak-php parser/mod.rs:136-151). -/
def parseNamespaceDef : Prog :=
  mark (block [
    expect tNamespace,
    loop (and_ more (not_ (seesAny [tSemicolon, tLeftBrace])))
      advance,
    ite (eat tLeftBrace)
      (block [
        loop (and_ more (not_ (sees tRightBrace)))
          (call pParseStatement),
        expect tRightBrace])
      (eat tSemicolon),
    close eNamespaceDef])

/-- `parse_use_statement` (oak-php parser/mod.rs:153-160). -/
def parseUseStatement : Prog :=
  mark (block [
    expect tUse,
    loop (and_ more (not_ (sees tSemicolon)))
      advance,
    eat tSemicolon,
    close eUseStatement])

/-- `parse_function_def` (oak-php parser/mod.rs:162-174). -/
def parseFunctionDef : Prog :=
  mark (block [
    expect tFunction,
    expect tIdentifier,
    expect tLeftParen,
    loop (and_ more (not_ (sees tRightParen)))
      advance,
    expect tRightParen,
    call pParseCompoundStatement,
    close eFunctionDef])

/-- `parse_declaration` (oak-php parser/mod.rs:176-212). -/
def parseDeclaration : Prog :=
  mark (block [
    loop (and_ more (seesAny [tPublic, tPrivate, tProtected, tStatic, tAbstract, tFinal]))
      bump,
    ite (sees tClass)
      (block [
        bump,
        expect tIdentifier,
        loop (and_ more (not_ (sees tLeftBrace)))
          advance,
        call pParseCompoundStatement,
        close eClassDef])
      (ite (sees tInterface)
        (block [
          bump,
          expect tIdentifier,
          call pParseCompoundStatement,
          close eInterfaceDef])
        (ite (sees tFunction)
          (call pParseFunctionDef)
          (block [
            loop (and_ more (not_ (seesAny [tSemicolon, tLeftBrace])))
              advance,
            ite (eat tLeftBrace)
              (block [
                loop (and_ more (not_ (sees tRightBrace)))
                  (call pParseStatement),
                expect tRightBrace])
              (eat tSemicolon)])))])

/-- `parse_if_statement` (oak-php parser/mod.rs:214-223). -/
def parseIfStatement : Prog :=
  mark (block [
    expect tIf,
    expect tLeftParen,
    call (pPratt 0),
    expect tRightParen,
    call pParseStatement,
    close eIfStatement])

/-- `parse_while_statement` (oak-php parser/mod.rs:225-234). -/
def parseWhileStatement : Prog :=
  mark (block [
    expect tWhile,
    expect tLeftParen,
    call (pPratt 0),
    expect tRightParen,
    call pParseStatement,
    close eWhileStatement])

/-- `parse_for_statement` (oak-php parser/mod.rs:236-244). -/
def parseForStatement : Prog :=
  mark (block [
    expect tFor,
    expect tLeftParen,
    expect tRightParen,
    call pParseStatement,
    close eForStatement])

/-- `parse_foreach_statement` (oak-php parser/mod.rs:246-254). -/
def parseForeachStatement : Prog :=
  mark (block [
    expect tForeach,
    expect tLeftParen,
    expect tRightParen,
    call pParseStatement,
    close eForeachStatement])

/-- `parse_compound_statement` (oak-php parser/mod.rs:256-265). -/
def parseCompoundStatement : Prog :=
  mark (block [
    expect tLeftBrace,
    loop (and_ more (not_ (sees tRightBrace)))
      (call pParseStatement),
    expect tRightBrace,
    close eCompoundStatement])

/-- `parse_return_statement` (oak-php parser/mod.rs:267-274). -/
def parseReturnStatement : Prog :=
  mark (block [
    expect tReturn,
    call (pPratt 0),
    eat tSemicolon,
    close eReturnStatement])

/-- `parse_echo_statement` (oak-php parser/mod.rs:276-283). -/
def parseEchoStatement : Prog :=
  mark (block [
    expect tEcho,
    call (pPratt 0),
    eat tSemicolon,
    close eEchoStatement])

/-- `parse_expression_statement` (oak-php parser/mod.rs:285-289). -/
def parseExpressionStatement : Prog :=
  block [
    call (pPratt 0),
    eat tSemicolon]

/-- `infix` (oak-php parser/mod.rs:63-114) with a least precedence. -/
def infix_ (min : Nat) : Prog :=
  ite more
    (ite (seesAny [tAssign, tPlusAssign, tMinusAssign, tMultiplyAssign, tDivideAssign, tModuloAssign, tPowerAssign, tConcatAssign, tBitwiseAndAssign, tBitwiseOrAssign, tBitwiseXorAssign, tLeftShiftAssign, tRightShiftAssign, tNullCoalesceAssign])
      (level min 1
        (mark (block [
          back,
          bump,
          call (pPratt 1),
          close eBinaryExpression])))
      (ite (sees tLogicalOr)
        (level min 2
          (mark (block [
            back,
            bump,
            call (pPratt 3),
            close eBinaryExpression])))
        (ite (sees tLogicalAnd)
          (level min 3
            (mark (block [
              back,
              bump,
              call (pPratt 4),
              close eBinaryExpression])))
          (ite (seesAny [tEqual, tIdentical, tNotEqual, tNotIdentical, tLess, tGreater, tLessEqual, tGreaterEqual, tSpaceship])
            (level min 4
              (mark (block [
                back,
                bump,
                call (pPratt 5),
                close eBinaryExpression])))
            (ite (seesAny [tPlus, tMinus, tConcat])
              (level min 10
                (mark (block [
                  back,
                  bump,
                  call (pPratt 11),
                  close eBinaryExpression])))
              (ite (seesAny [tMultiply, tDivide, tModulo])
                (level min 11
                  (mark (block [
                    back,
                    bump,
                    call (pPratt 12),
                    close eBinaryExpression])))
                (ite (seesAny [tLeftParen, tLeftBracket, tArrow])
                  (level min 15
                    (ite (sees tLeftParen)
                      (block [
                        mark (block [
                          again,
                          expect tLeftParen,
                          loop (and_ more (not_ (sees tRightParen)))
                            advance,
                          expect tRightParen,
                          close eCallExpression])])
                      (ite (sees tLeftBracket)
                        (block [
                          mark (block [
                            again,
                            expect tLeftBracket,
                            loop (and_ more (not_ (sees tRightBracket)))
                              advance,
                            expect tRightBracket,
                            close eArrayAccessExpression])])
                        (block [
                          mark (block [
                            again,
                            expect tArrow,
                            expect tIdentifier,
                            close eMemberAccessExpression])]))))
                  (val false))))))))
    (val false)

/-- `PrattParser::parse` (oak-core parser/pratt.rs:237-243). -/
def pratt (min : Nat) : Prog :=
  block [call pPrefix, loop (infix_ min) (val true)]

/-- `parse` between the checkpoint and the last `finish_at` (oak-php parser/mod.rs:293-304). -/
def main : Prog :=
  loop more
    (ite (catch_ (call pParseStatement))
      (val true)
      advance)

/-- The parser (`parse`, oak-php parser/mod.rs:293-304; `is_ignored`, oak-php lexer/token_type.rs:62-64). -/
def parser : HandParser where
  ign := []
  fromStart := false
  root := eRoot
  main := main
  procs := [primary, prefix_, parseStatement, parseNamespaceDef, parseUseStatement, parseFunctionDef, parseDeclaration, parseIfStatement, parseWhileStatement, parseForStatement, parseForeachStatement, parseCompoundStatement, parseReturnStatement, parseEchoStatement, parseExpressionStatement] ++ levels.map pratt

end Oaks.Hand.Php
