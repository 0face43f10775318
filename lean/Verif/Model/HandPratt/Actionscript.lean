import Verif.Model.Prog

/-
The parser of `oak-actionscript` (examples/oak-actionscript/src/parser) as a program: one definition for every function it calls, in the order of the
source. Kinds are the places of the variants in their enums.
-/
namespace Oaks.Hand.Actionscript
open Prog

/-- `ActionScriptTokenType::Whitespace` (oak-actionscript lexer/token_type.rs:11). -/
abbrev tWhitespace : Nat := 0
/-- `ActionScriptTokenType::Newline` (oak-actionscript lexer/token_type.rs:12). -/
abbrev tNewline : Nat := 1
/-- `ActionScriptTokenType::Comment` (oak-actionscript lexer/token_type.rs:13). -/
abbrev tComment : Nat := 2
/-- `ActionScriptTokenType::Identifier` (oak-actionscript lexer/token_type.rs:14). -/
abbrev tIdentifier : Nat := 3
/-- `ActionScriptTokenType::StringLiteral` (oak-actionscript lexer/token_type.rs:15). -/
abbrev tStringLiteral : Nat := 4
/-- `ActionScriptTokenType::CharLiteral` (oak-actionscript lexer/token_type.rs:16). -/
abbrev tCharLiteral : Nat := 5
/-- `ActionScriptTokenType::NumberLiteral` (oak-actionscript lexer/token_type.rs:17). -/
abbrev tNumberLiteral : Nat := 6
/-- `ActionScriptTokenType::BooleanLiteral` (oak-actionscript lexer/token_type.rs:18). -/
abbrev tBooleanLiteral : Nat := 7
/-- `ActionScriptTokenType::NullLiteral` (oak-actionscript lexer/token_type.rs:19). -/
abbrev tNullLiteral : Nat := 8
/-- `ActionScriptTokenType::Class` (oak-actionscript lexer/token_type.rs:24). -/
abbrev tClass : Nat := 13
/-- `ActionScriptTokenType::Const` (oak-actionscript lexer/token_type.rs:25). -/
abbrev tConst : Nat := 14
/-- `ActionScriptTokenType::Else` (oak-actionscript lexer/token_type.rs:30). -/
abbrev tElse : Nat := 19
/-- `ActionScriptTokenType::Extends` (oak-actionscript lexer/token_type.rs:31). -/
abbrev tExtends : Nat := 20
/-- `ActionScriptTokenType::False` (oak-actionscript lexer/token_type.rs:32). -/
abbrev tFalse : Nat := 21
/-- `ActionScriptTokenType::For` (oak-actionscript lexer/token_type.rs:34). -/
abbrev tFor : Nat := 23
/-- `ActionScriptTokenType::Function` (oak-actionscript lexer/token_type.rs:35). -/
abbrev tFunction : Nat := 24
/-- `ActionScriptTokenType::If` (oak-actionscript lexer/token_type.rs:36). -/
abbrev tIf : Nat := 25
/-- `ActionScriptTokenType::Import` (oak-actionscript lexer/token_type.rs:38). -/
abbrev tImport : Nat := 27
/-- `ActionScriptTokenType::Instanceof` (oak-actionscript lexer/token_type.rs:40). -/
abbrev tInstanceof : Nat := 29
/-- `ActionScriptTokenType::Interface` (oak-actionscript lexer/token_type.rs:41). -/
abbrev tInterface : Nat := 30
/-- `ActionScriptTokenType::Is` (oak-actionscript lexer/token_type.rs:43). -/
abbrev tIs : Nat := 32
/-- `ActionScriptTokenType::Null` (oak-actionscript lexer/token_type.rs:46). -/
abbrev tNull : Nat := 35
/-- `ActionScriptTokenType::Package` (oak-actionscript lexer/token_type.rs:47). -/
abbrev tPackage : Nat := 36
/-- `ActionScriptTokenType::Return` (oak-actionscript lexer/token_type.rs:51). -/
abbrev tReturn : Nat := 40
/-- `ActionScriptTokenType::True` (oak-actionscript lexer/token_type.rs:57). -/
abbrev tTrue : Nat := 46
/-- `ActionScriptTokenType::Var` (oak-actionscript lexer/token_type.rs:61). -/
abbrev tVar : Nat := 50
/-- `ActionScriptTokenType::While` (oak-actionscript lexer/token_type.rs:63). -/
abbrev tWhile : Nat := 52
/-- `ActionScriptTokenType::Plus` (oak-actionscript lexer/token_type.rs:85). -/
abbrev tPlus : Nat := 74
/-- `ActionScriptTokenType::Minus` (oak-actionscript lexer/token_type.rs:86). -/
abbrev tMinus : Nat := 75
/-- `ActionScriptTokenType::Star` (oak-actionscript lexer/token_type.rs:87). -/
abbrev tStar : Nat := 76
/-- `ActionScriptTokenType::Slash` (oak-actionscript lexer/token_type.rs:88). -/
abbrev tSlash : Nat := 77
/-- `ActionScriptTokenType::Percent` (oak-actionscript lexer/token_type.rs:89). -/
abbrev tPercent : Nat := 78
/-- `ActionScriptTokenType::Equal` (oak-actionscript lexer/token_type.rs:90). -/
abbrev tEqual : Nat := 79
/-- `ActionScriptTokenType::EqualEqual` (oak-actionscript lexer/token_type.rs:91). -/
abbrev tEqualEqual : Nat := 80
/-- `ActionScriptTokenType::EqualEqualEqual` (oak-actionscript lexer/token_type.rs:92). -/
abbrev tEqualEqualEqual : Nat := 81
/-- `ActionScriptTokenType::NotEqual` (oak-actionscript lexer/token_type.rs:93). -/
abbrev tNotEqual : Nat := 82
/-- `ActionScriptTokenType::NotEqualEqual` (oak-actionscript lexer/token_type.rs:94). -/
abbrev tNotEqualEqual : Nat := 83
/-- `ActionScriptTokenType::LessThan` (oak-actionscript lexer/token_type.rs:95). -/
abbrev tLessThan : Nat := 84
/-- `ActionScriptTokenType::LessEqual` (oak-actionscript lexer/token_type.rs:96). -/
abbrev tLessEqual : Nat := 85
/-- `ActionScriptTokenType::GreaterThan` (oak-actionscript lexer/token_type.rs:97). -/
abbrev tGreaterThan : Nat := 86
/-- `ActionScriptTokenType::GreaterEqual` (oak-actionscript lexer/token_type.rs:98). -/
abbrev tGreaterEqual : Nat := 87
/-- `ActionScriptTokenType::LogicalAnd` (oak-actionscript lexer/token_type.rs:99). -/
abbrev tLogicalAnd : Nat := 88
/-- `ActionScriptTokenType::LogicalOr` (oak-actionscript lexer/token_type.rs:100). -/
abbrev tLogicalOr : Nat := 89
/-- `ActionScriptTokenType::LogicalNot` (oak-actionscript lexer/token_type.rs:101). -/
abbrev tLogicalNot : Nat := 90
/-- `ActionScriptTokenType::BitwiseAnd` (oak-actionscript lexer/token_type.rs:102). -/
abbrev tBitwiseAnd : Nat := 91
/-- `ActionScriptTokenType::BitwiseOr` (oak-actionscript lexer/token_type.rs:103). -/
abbrev tBitwiseOr : Nat := 92
/-- `ActionScriptTokenType::BitwiseXor` (oak-actionscript lexer/token_type.rs:104). -/
abbrev tBitwiseXor : Nat := 93
/-- `ActionScriptTokenType::BitwiseNot` (oak-actionscript lexer/token_type.rs:105). -/
abbrev tBitwiseNot : Nat := 94
/-- `ActionScriptTokenType::LeftShift` (oak-actionscript lexer/token_type.rs:106). -/
abbrev tLeftShift : Nat := 95
/-- `ActionScriptTokenType::RightShift` (oak-actionscript lexer/token_type.rs:107). -/
abbrev tRightShift : Nat := 96
/-- `ActionScriptTokenType::UnsignedRightShift` (oak-actionscript lexer/token_type.rs:108). -/
abbrev tUnsignedRightShift : Nat := 97
/-- `ActionScriptTokenType::PlusAssign` (oak-actionscript lexer/token_type.rs:111). -/
abbrev tPlusAssign : Nat := 100
/-- `ActionScriptTokenType::MinusAssign` (oak-actionscript lexer/token_type.rs:112). -/
abbrev tMinusAssign : Nat := 101
/-- `ActionScriptTokenType::StarAssign` (oak-actionscript lexer/token_type.rs:113). -/
abbrev tStarAssign : Nat := 102
/-- `ActionScriptTokenType::SlashAssign` (oak-actionscript lexer/token_type.rs:114). -/
abbrev tSlashAssign : Nat := 103
/-- `ActionScriptTokenType::PercentAssign` (oak-actionscript lexer/token_type.rs:115). -/
abbrev tPercentAssign : Nat := 104
/-- `ActionScriptTokenType::LeftShiftAssign` (oak-actionscript lexer/token_type.rs:116). -/
abbrev tLeftShiftAssign : Nat := 105
/-- `ActionScriptTokenType::RightShiftAssign` (oak-actionscript lexer/token_type.rs:117). -/
abbrev tRightShiftAssign : Nat := 106
/-- `ActionScriptTokenType::UnsignedRightShiftAssign` (oak-actionscript lexer/token_type.rs:118). -/
abbrev tUnsignedRightShiftAssign : Nat := 107
/-- `ActionScriptTokenType::BitwiseAndAssign` (oak-actionscript lexer/token_type.rs:119). -/
abbrev tBitwiseAndAssign : Nat := 108
/-- `ActionScriptTokenType::BitwiseOrAssign` (oak-actionscript lexer/token_type.rs:120). -/
abbrev tBitwiseOrAssign : Nat := 109
/-- `ActionScriptTokenType::BitwiseXorAssign` (oak-actionscript lexer/token_type.rs:121). -/
abbrev tBitwiseXorAssign : Nat := 110
/-- `ActionScriptTokenType::Colon` (oak-actionscript lexer/token_type.rs:123). -/
abbrev tColon : Nat := 112
/-- `ActionScriptTokenType::Dot` (oak-actionscript lexer/token_type.rs:124). -/
abbrev tDot : Nat := 113
/-- `ActionScriptTokenType::LeftParen` (oak-actionscript lexer/token_type.rs:126). -/
abbrev tLeftParen : Nat := 115
/-- `ActionScriptTokenType::RightParen` (oak-actionscript lexer/token_type.rs:127). -/
abbrev tRightParen : Nat := 116
/-- `ActionScriptTokenType::LeftBrace` (oak-actionscript lexer/token_type.rs:128). -/
abbrev tLeftBrace : Nat := 117
/-- `ActionScriptTokenType::RightBrace` (oak-actionscript lexer/token_type.rs:129). -/
abbrev tRightBrace : Nat := 118
/-- `ActionScriptTokenType::LeftBracket` (oak-actionscript lexer/token_type.rs:130). -/
abbrev tLeftBracket : Nat := 119
/-- `ActionScriptTokenType::RightBracket` (oak-actionscript lexer/token_type.rs:131). -/
abbrev tRightBracket : Nat := 120
/-- `ActionScriptTokenType::Semicolon` (oak-actionscript lexer/token_type.rs:132). -/
abbrev tSemicolon : Nat := 121
/-- `ActionScriptTokenType::Comma` (oak-actionscript lexer/token_type.rs:133). -/
abbrev tComma : Nat := 122
/-- `ActionScriptElementType::Class` (oak-actionscript parser/element_type.rs:21). -/
abbrev eClass : Nat := 13
/-- `ActionScriptElementType::Function` (oak-actionscript parser/element_type.rs:32). -/
abbrev eFunction : Nat := 24
/-- `ActionScriptElementType::Import` (oak-actionscript parser/element_type.rs:35). -/
abbrev eImport : Nat := 27
/-- `ActionScriptElementType::Interface` (oak-actionscript parser/element_type.rs:38). -/
abbrev eInterface : Nat := 30
/-- `ActionScriptElementType::Package` (oak-actionscript parser/element_type.rs:44). -/
abbrev ePackage : Nat := 36
/-- `ActionScriptElementType::Variable` (oak-actionscript parser/element_type.rs:142). -/
abbrev eVariable : Nat := 134
/-- `ActionScriptElementType::ParameterList` (oak-actionscript parser/element_type.rs:147). -/
abbrev eParameterList : Nat := 139
/-- `ActionScriptElementType::BinaryExpression` (oak-actionscript parser/element_type.rs:158). -/
abbrev eBinaryExpression : Nat := 150
/-- `ActionScriptElementType::UnaryExpression` (oak-actionscript parser/element_type.rs:159). -/
abbrev eUnaryExpression : Nat := 151
/-- `ActionScriptElementType::IfStatement` (oak-actionscript parser/element_type.rs:160). -/
abbrev eIfStatement : Nat := 152
/-- `ActionScriptElementType::ForStatement` (oak-actionscript parser/element_type.rs:161). -/
abbrev eForStatement : Nat := 153
/-- `ActionScriptElementType::WhileStatement` (oak-actionscript parser/element_type.rs:162). -/
abbrev eWhileStatement : Nat := 154
/-- `ActionScriptElementType::ReturnStatement` (oak-actionscript parser/element_type.rs:167). -/
abbrev eReturnStatement : Nat := 159
/-- `ActionScriptElementType::Error` (oak-actionscript parser/element_type.rs:170). -/
abbrev eError : Nat := 162
/-- `ActionScriptElementType::LiteralExpression` (oak-actionscript parser/element_type.rs:171). -/
abbrev eLiteralExpression : Nat := 163
/-- `ActionScriptElementType::IdentifierExpression` (oak-actionscript parser/element_type.rs:172). -/
abbrev eIdentifierExpression : Nat := 164
/-- `ActionScriptElementType::ParenthesizedExpression` (oak-actionscript parser/element_type.rs:173). -/
abbrev eParenthesizedExpression : Nat := 165
/-- `ActionScriptElementType::SourceFile` (oak-actionscript parser/element_type.rs:174). -/
abbrev eSourceFile : Nat := 166
/-- `ActionScriptElementType::BlockExpression` (oak-actionscript parser/element_type.rs:175). -/
abbrev eBlockExpression : Nat := 167
/-- `ActionScriptElementType::CallExpression` (oak-actionscript parser/element_type.rs:181). -/
abbrev eCallExpression : Nat := 173
/-- `ActionScriptElementType::IndexExpression` (oak-actionscript parser/element_type.rs:182). -/
abbrev eIndexExpression : Nat := 174
/-- `ActionScriptElementType::FieldExpression` (oak-actionscript parser/element_type.rs:183). -/
abbrev eFieldExpression : Nat := 175

/-- The number of `primary` (oak-actionscript parser/mod.rs:21-43). -/
abbrev pPrimary : Nat := 0
/-- The number of `prefix` (oak-actionscript parser/mod.rs:45-56). -/
abbrev pPrefix : Nat := 1
/-- The number of `parse_statement` (oak-actionscript parser/parse_top_level.rs:23-43). -/
abbrev pParseStatement : Nat := 2
/-- The number of `parse_function` (oak-actionscript parser/parse_top_level.rs:45-57). -/
abbrev pParseFunction : Nat := 3
/-- The number of `parse_param_list` (oak-actionscript parser/parse_top_level.rs:59-69). -/
abbrev pParseParamList : Nat := 4
/-- The number of `parse_block` (oak-actionscript parser/parse_top_level.rs:71-81). -/
abbrev pParseBlock : Nat := 5
/-- The number of `parse_import_statement` (oak-actionscript parser/parse_top_level.rs:83-92). -/
abbrev pParseImportStatement : Nat := 6
/-- The number of `parse_package_declaration` (oak-actionscript parser/parse_top_level.rs:94-103). -/
abbrev pParsePackageDeclaration : Nat := 7
/-- The number of `parse_class_declaration` (oak-actionscript parser/parse_top_level.rs:105-115). -/
abbrev pParseClassDeclaration : Nat := 8
/-- The number of `parse_interface_declaration` (oak-actionscript parser/parse_top_level.rs:117-124). -/
abbrev pParseInterfaceDeclaration : Nat := 9
/-- The number of `parse_variable_declaration` (oak-actionscript parser/parse_top_level.rs:126-140). -/
abbrev pParseVariableDeclaration : Nat := 10
/-- The number of `parse_if_statement` (oak-actionscript parser/parse_top_level.rs:142-154). -/
abbrev pParseIfStatement : Nat := 11
/-- The number of `parse_while_statement` (oak-actionscript parser/parse_top_level.rs:156-165). -/
abbrev pParseWhileStatement : Nat := 12
/-- The number of `parse_for_statement` (oak-actionscript parser/parse_top_level.rs:167-178). -/
abbrev pParseForStatement : Nat := 13
/-- The number of `parse_return_statement` (oak-actionscript parser/parse_top_level.rs:180-189). -/
abbrev pParseReturnStatement : Nat := 14
/-- The precedences expressions are parsed with (oak-actionscript parser/mod.rs:58-126). -/
abbrev levels : List Nat := [0, 1, 4, 5, 6, 7, 8, 9, 10, 11, 12, 13]
/-- The number of `PrattParser::parse` with a precedence (oak-core parser/pratt.rs:237-243): after the other functions. -/
abbrev pPratt (min : Nat) : Nat := 15 + levels.idxOf min

/-- `primary` (oak-actionscript parser/mod.rs:21-43). -/
def primary : Prog :=
  mark (ite (sees tIdentifier)
    (block [
      bump,
      close eIdentifierExpression])
    (ite (and_ more (seesAny [tStringLiteral, tCharLiteral, tNumberLiteral, tBooleanLiteral, tNullLiteral, tTrue, tFalse, tNull]))
      (block [
        bump,
        close eLiteralExpression])
      (ite (sees tLeftParen)
        (block [
          bump,
          call (pPratt 0),
          expect tRightParen,
          close eParenthesizedExpression])
        (block [
          bump,
          close eError]))))

/-- `prefix` (oak-actionscript parser/mod.rs:45-56). -/
def prefix_ : Prog :=
  ite more
    (ite (seesAny [tMinus, tLogicalNot, tBitwiseNot])
      (mark (block [
        bump,
        call (pPratt 13),
        close eUnaryExpression]))
      (call pPrimary))
    (call pPrimary)

/-- `parse_statement` (oak-actionscript parser/parse_top_level.rs:23-43). -/
def parseStatement : Prog :=
  ite (sees tFunction)
    (call pParseFunction)
    (ite (sees tImport)
      (call pParseImportStatement)
      (ite (sees tPackage)
        (call pParsePackageDeclaration)
        (ite (sees tClass)
          (call pParseClassDeclaration)
          (ite (sees tInterface)
            (call pParseInterfaceDeclaration)
            (ite (seesAny [tVar, tConst])
              (call pParseVariableDeclaration)
              (ite (sees tIf)
                (call pParseIfStatement)
                (ite (sees tWhile)
                  (call pParseWhileStatement)
                  (ite (sees tFor)
                    (call pParseForStatement)
                    (ite (sees tReturn)
                      (call pParseReturnStatement)
                      (ite (sees tLeftBrace)
                        (call pParseBlock)
                        (block [
                          call (pPratt 0),
                          eat tSemicolon])))))))))))

/-- `parse_function` (oak-actionscript parser/parse_top_level.rs:45-57). -/
def parseFunction : Prog :=
  mark (block [
    expect tFunction,
    expect tIdentifier,
    call pParseParamList,
    when_ (eat tColon)
      (expect tIdentifier),
    call pParseBlock,
    close eFunction])

/-- `parse_param_list` (oak-actionscript parser/parse_top_level.rs:59-69). -/
def parseParamList : Prog :=
  mark (block [
    expect tLeftParen,
    loop (and_ more (not_ (sees tRightParen)))
      advance,
    expect tRightParen,
    close eParameterList])

/-- `parse_block` (oak-actionscript parser/parse_top_level.rs:71-81). -/
def parseBlock : Prog :=
  mark (block [
    expect tLeftBrace,
    loop (and_ more (not_ (sees tRightBrace)))
      (call pParseStatement),
    expect tRightBrace,
    close eBlockExpression])

/-- `parse_import_statement` (oak-actionscript parser/parse_top_level.rs:83-92). -/
def parseImportStatement : Prog :=
  mark (block [
    expect tImport,
    loop (and_ (not_ (sees tSemicolon)) more)
      bump,
    eat tSemicolon,
    close eImport])

/-- `parse_package_declaration` (oak-actionscript parser/parse_top_level.rs:94-103). -/
def parsePackageDeclaration : Prog :=
  mark (block [
    expect tPackage,
    when_ (sees tIdentifier)
      bump,
    call pParseBlock,
    close ePackage])

/-- `parse_class_declaration` (oak-actionscript parser/parse_top_level.rs:105-115). -/
def parseClassDeclaration : Prog :=
  mark (block [
    expect tClass,
    expect tIdentifier,
    when_ (eat tExtends)
      (expect tIdentifier),
    call pParseBlock,
    close eClass])

/-- `parse_interface_declaration` (oak-actionscript parser/parse_top_level.rs:117-124). -/
def parseInterfaceDeclaration : Prog :=
  mark (block [
    expect tInterface,
    expect tIdentifier,
    call pParseBlock,
    close eInterface])

/-- `parse_variable_declaration` (oak-actionscript parser/parse_top_level.rs:126-140). -/
def parseVariableDeclaration : Prog :=
  mark (block [
    when_ (or_ (eat tVar) (eat tConst))
      (block [
        expect tIdentifier,
        when_ (eat tColon)
          (expect tIdentifier),
        when_ (eat tEqual)
          (call (pPratt 0)),
        eat tSemicolon]),
    close eVariable])

/-- `parse_if_statement` (oak-actionscript parser/parse_top_level.rs:142-154). -/
def parseIfStatement : Prog :=
  mark (block [
    expect tIf,
    expect tLeftParen,
    call (pPratt 0),
    expect tRightParen,
    call pParseStatement,
    when_ (eat tElse)
      (call pParseStatement),
    close eIfStatement])

/-- `parse_while_statement` (oak-actionscript parser/parse_top_level.rs:156-165). -/
def parseWhileStatement : Prog :=
  mark (block [
    expect tWhile,
    expect tLeftParen,
    call (pPratt 0),
    expect tRightParen,
    call pParseStatement,
    close eWhileStatement])

/-- `parse_for_statement` (oak-actionscript parser/parse_top_level.rs:167-178). -/
def parseForStatement : Prog :=
  mark (block [
    expect tFor,
    expect tLeftParen,
    loop (and_ more (not_ (sees tRightParen)))
      advance,
    expect tRightParen,
    call pParseStatement,
    close eForStatement])

/-- `parse_return_statement` (oak-actionscript parser/parse_top_level.rs:180-189). -/
def parseReturnStatement : Prog :=
  mark (block [
    expect tReturn,
    when_ (not_ (sees tSemicolon))
      (call (pPratt 0)),
    eat tSemicolon,
    close eReturnStatement])

/-- `infix` (oak-actionscript parser/mod.rs:58-126) with a least precedence. -/
def infix_ (min : Nat) : Prog :=
  ite more
    (ite (seesAny [tEqual, tPlusAssign, tMinusAssign, tStarAssign, tSlashAssign, tPercentAssign, tLeftShiftAssign, tRightShiftAssign, tUnsignedRightShiftAssign, tBitwiseAndAssign, tBitwiseOrAssign, tBitwiseXorAssign])
      (level min 1
        (mark (block [
          back,
          bump,
          call (pPratt 1),
          close eBinaryExpression])))
      (ite (sees tLogicalOr)
        (level min 3
          (mark (block [
            back,
            bump,
            call (pPratt 4),
            close eBinaryExpression])))
        (ite (sees tLogicalAnd)
          (level min 4
            (mark (block [
              back,
              bump,
              call (pPratt 5),
              close eBinaryExpression])))
          (ite (seesAny [tEqualEqual, tNotEqual, tEqualEqualEqual, tNotEqualEqual])
            (level min 5
              (mark (block [
                back,
                bump,
                call (pPratt 6),
                close eBinaryExpression])))
            (ite (seesAny [tLessThan, tLessEqual, tGreaterThan, tGreaterEqual, tIs, tInstanceof])
              (level min 6
                (mark (block [
                  back,
                  bump,
                  call (pPratt 7),
                  close eBinaryExpression])))
              (ite (sees tBitwiseOr)
                (level min 7
                  (mark (block [
                    back,
                    bump,
                    call (pPratt 8),
                    close eBinaryExpression])))
                (ite (sees tBitwiseXor)
                  (level min 8
                    (mark (block [
                      back,
                      bump,
                      call (pPratt 9),
                      close eBinaryExpression])))
                  (ite (sees tBitwiseAnd)
                    (level min 9
                      (mark (block [
                        back,
                        bump,
                        call (pPratt 10),
                        close eBinaryExpression])))
                    (ite (seesAny [tLeftShift, tRightShift, tUnsignedRightShift])
                      (level min 10
                        (mark (block [
                          back,
                          bump,
                          call (pPratt 11),
                          close eBinaryExpression])))
                      (ite (seesAny [tPlus, tMinus])
                        (level min 11
                          (mark (block [
                            back,
                            bump,
                            call (pPratt 12),
                            close eBinaryExpression])))
                        (ite (seesAny [tStar, tSlash, tPercent])
                          (level min 12
                            (mark (block [
                              back,
                              bump,
                              call (pPratt 13),
                              close eBinaryExpression])))
                          (ite (seesAny [tLeftParen, tLeftBracket, tDot])
                            (level min 14
                              (ite (sees tLeftParen)
                                (block [
                                  mark (block [
                                    again,
                                    expect tLeftParen,
                                    when_ (not_ (sees tRightParen))
                                      (loop (val true)
                                        (block [
                                          call (pPratt 0),
                                          when_ (not_ (eat tComma))
                                            brk])),
                                    expect tRightParen,
                                    close eCallExpression])])
                                (ite (sees tLeftBracket)
                                  (block [
                                    mark (block [
                                      again,
                                      expect tLeftBracket,
                                      call (pPratt 0),
                                      expect tRightBracket,
                                      close eIndexExpression])])
                                  (block [
                                    mark (block [
                                      again,
                                      expect tDot,
                                      expect tIdentifier,
                                      close eFieldExpression])]))))
                            (val false)))))))))))))
    (val false)

/-- `PrattParser::parse` (oak-core parser/pratt.rs:237-243). -/
def pratt (min : Nat) : Prog :=
  block [call pPrefix, loop (infix_ min) (val true)]

/-- `parse_source_file` between the checkpoint and the last `finish_at` (oak-actionscript parser/parse_top_level.rs:10-21). -/
def main : Prog :=
  loop more
    (block [
      when_ (seesAny [tWhitespace, tNewline, tComment])
        (block [
          advance,
          cont]),
      call pParseStatement])

/-- The parser (`parse_source_file`, oak-actionscript parser/parse_top_level.rs:10-21; `is_ignored`, oak-actionscript lexer/token_type.rs:193-195). -/
def parser : HandParser where
  ign := [tWhitespace, tNewline, tComment]
  fromStart := false
  root := eSourceFile
  main := main
  procs := [primary, prefix_, parseStatement, parseFunction, parseParamList, parseBlock, parseImportStatement, parsePackageDeclaration, parseClassDeclaration, parseInterfaceDeclaration, parseVariableDeclaration, parseIfStatement, parseWhileStatement, parseForStatement, parseReturnStatement] ++ levels.map pratt

end Oaks.Hand.Actionscript
