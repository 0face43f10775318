import Verif.Model.Prog

/-
The parser of `oak-csharp` (examples/oak-csharp/src/parser) as a program: one definition for every function it calls, in the order of the
source. Kinds are the places of the variants in their enums.
-/
namespace Oaks.Hand.Csharp
open Prog

/-- `CSharpTokenType::Identifier` (oak-csharp lexer/token_type.rs:202). -/
abbrev tIdentifier : Nat := 3
/-- `CSharpTokenType::Number` (oak-csharp lexer/token_type.rs:205). -/
abbrev tNumber : Nat := 4
/-- `CSharpTokenType::String` (oak-csharp lexer/token_type.rs:207). -/
abbrev tString : Nat := 5
/-- `CSharpTokenType::NumberLiteral` (oak-csharp lexer/token_type.rs:215). -/
abbrev tNumberLiteral : Nat := 9
/-- `CSharpTokenType::StringLiteral` (oak-csharp lexer/token_type.rs:217). -/
abbrev tStringLiteral : Nat := 10
/-- `CSharpTokenType::Abstract` (oak-csharp lexer/token_type.rs:222). -/
abbrev tAbstract : Nat := 12
/-- `CSharpTokenType::Break` (oak-csharp lexer/token_type.rs:228). -/
abbrev tBreak : Nat := 18
/-- `CSharpTokenType::Class` (oak-csharp lexer/token_type.rs:234). -/
abbrev tClass : Nat := 24
/-- `CSharpTokenType::Continue` (oak-csharp lexer/token_type.rs:236). -/
abbrev tContinue : Nat := 26
/-- `CSharpTokenType::Delegate` (oak-csharp lexer/token_type.rs:239). -/
abbrev tDelegate : Nat := 29
/-- `CSharpTokenType::Else` (oak-csharp lexer/token_type.rs:242). -/
abbrev tElse : Nat := 32
/-- `CSharpTokenType::Enum` (oak-csharp lexer/token_type.rs:243). -/
abbrev tEnum : Nat := 33
/-- `CSharpTokenType::Event` (oak-csharp lexer/token_type.rs:244). -/
abbrev tEvent : Nat := 34
/-- `CSharpTokenType::For` (oak-csharp lexer/token_type.rs:251). -/
abbrev tFor : Nat := 41
/-- `CSharpTokenType::Foreach` (oak-csharp lexer/token_type.rs:252). -/
abbrev tForeach : Nat := 42
/-- `CSharpTokenType::If` (oak-csharp lexer/token_type.rs:254). -/
abbrev tIf : Nat := 44
/-- `CSharpTokenType::Interface` (oak-csharp lexer/token_type.rs:258). -/
abbrev tInterface : Nat := 48
/-- `CSharpTokenType::Internal` (oak-csharp lexer/token_type.rs:259). -/
abbrev tInternal : Nat := 49
/-- `CSharpTokenType::Namespace` (oak-csharp lexer/token_type.rs:263). -/
abbrev tNamespace : Nat := 53
/-- `CSharpTokenType::Override` (oak-csharp lexer/token_type.rs:269). -/
abbrev tOverride : Nat := 59
/-- `CSharpTokenType::Private` (oak-csharp lexer/token_type.rs:271). -/
abbrev tPrivate : Nat := 61
/-- `CSharpTokenType::Protected` (oak-csharp lexer/token_type.rs:272). -/
abbrev tProtected : Nat := 62
/-- `CSharpTokenType::Public` (oak-csharp lexer/token_type.rs:273). -/
abbrev tPublic : Nat := 63
/-- `CSharpTokenType::Readonly` (oak-csharp lexer/token_type.rs:274). -/
abbrev tReadonly : Nat := 64
/-- `CSharpTokenType::Record` (oak-csharp lexer/token_type.rs:275). -/
abbrev tRecord : Nat := 65
/-- `CSharpTokenType::Return` (oak-csharp lexer/token_type.rs:277). -/
abbrev tReturn : Nat := 67
/-- `CSharpTokenType::Static` (oak-csharp lexer/token_type.rs:283). -/
abbrev tStatic : Nat := 73
/-- `CSharpTokenType::Struct` (oak-csharp lexer/token_type.rs:284). -/
abbrev tStruct : Nat := 74
/-- `CSharpTokenType::This` (oak-csharp lexer/token_type.rs:286). -/
abbrev tThis : Nat := 76
/-- `CSharpTokenType::Using` (oak-csharp lexer/token_type.rs:296). -/
abbrev tUsing : Nat := 86
/-- `CSharpTokenType::Virtual` (oak-csharp lexer/token_type.rs:297). -/
abbrev tVirtual : Nat := 87
/-- `CSharpTokenType::While` (oak-csharp lexer/token_type.rs:300). -/
abbrev tWhile : Nat := 90
/-- `CSharpTokenType::AsKeyword` (oak-csharp lexer/token_type.rs:304). -/
abbrev tAsKeyword : Nat := 92
/-- `CSharpTokenType::AsyncKeyword` (oak-csharp lexer/token_type.rs:305). -/
abbrev tAsyncKeyword : Nat := 93
/-- `CSharpTokenType::FalseKeyword` (oak-csharp lexer/token_type.rs:328). -/
abbrev tFalseKeyword : Nat := 116
/-- `CSharpTokenType::IsKeyword` (oak-csharp lexer/token_type.rs:341). -/
abbrev tIsKeyword : Nat := 129
/-- `CSharpTokenType::NullKeyword` (oak-csharp lexer/token_type.rs:346). -/
abbrev tNullKeyword : Nat := 134
/-- `CSharpTokenType::TrueKeyword` (oak-csharp lexer/token_type.rs:369). -/
abbrev tTrueKeyword : Nat := 157
/-- `CSharpTokenType::AddKeyword` (oak-csharp lexer/token_type.rs:384). -/
abbrev tAddKeyword : Nat := 170
/-- `CSharpTokenType::GetKeyword` (oak-csharp lexer/token_type.rs:390). -/
abbrev tGetKeyword : Nat := 176
/-- `CSharpTokenType::RemoveKeyword` (oak-csharp lexer/token_type.rs:398). -/
abbrev tRemoveKeyword : Nat := 184
/-- `CSharpTokenType::SetKeyword` (oak-csharp lexer/token_type.rs:400). -/
abbrev tSetKeyword : Nat := 186
/-- `CSharpTokenType::Plus` (oak-csharp lexer/token_type.rs:407). -/
abbrev tPlus : Nat := 191
/-- `CSharpTokenType::Minus` (oak-csharp lexer/token_type.rs:408). -/
abbrev tMinus : Nat := 192
/-- `CSharpTokenType::Star` (oak-csharp lexer/token_type.rs:409). -/
abbrev tStar : Nat := 193
/-- `CSharpTokenType::Slash` (oak-csharp lexer/token_type.rs:410). -/
abbrev tSlash : Nat := 194
/-- `CSharpTokenType::Percent` (oak-csharp lexer/token_type.rs:411). -/
abbrev tPercent : Nat := 195
/-- `CSharpTokenType::Equal` (oak-csharp lexer/token_type.rs:422). -/
abbrev tEqual : Nat := 206
/-- `CSharpTokenType::NotEqual` (oak-csharp lexer/token_type.rs:423). -/
abbrev tNotEqual : Nat := 207
/-- `CSharpTokenType::Less` (oak-csharp lexer/token_type.rs:424). -/
abbrev tLess : Nat := 208
/-- `CSharpTokenType::LessEqual` (oak-csharp lexer/token_type.rs:425). -/
abbrev tLessEqual : Nat := 209
/-- `CSharpTokenType::Greater` (oak-csharp lexer/token_type.rs:426). -/
abbrev tGreater : Nat := 210
/-- `CSharpTokenType::GreaterEqual` (oak-csharp lexer/token_type.rs:427). -/
abbrev tGreaterEqual : Nat := 211
/-- `CSharpTokenType::LogicalAnd` (oak-csharp lexer/token_type.rs:428). -/
abbrev tLogicalAnd : Nat := 212
/-- `CSharpTokenType::LogicalOr` (oak-csharp lexer/token_type.rs:429). -/
abbrev tLogicalOr : Nat := 213
/-- `CSharpTokenType::Assign` (oak-csharp lexer/token_type.rs:439). -/
abbrev tAssign : Nat := 221
/-- `CSharpTokenType::PlusAssign` (oak-csharp lexer/token_type.rs:440). -/
abbrev tPlusAssign : Nat := 222
/-- `CSharpTokenType::MinusAssign` (oak-csharp lexer/token_type.rs:441). -/
abbrev tMinusAssign : Nat := 223
/-- `CSharpTokenType::StarAssign` (oak-csharp lexer/token_type.rs:442). -/
abbrev tStarAssign : Nat := 224
/-- `CSharpTokenType::SlashAssign` (oak-csharp lexer/token_type.rs:443). -/
abbrev tSlashAssign : Nat := 225
/-- `CSharpTokenType::PercentAssign` (oak-csharp lexer/token_type.rs:444). -/
abbrev tPercentAssign : Nat := 226
/-- `CSharpTokenType::LeftShiftAssign` (oak-csharp lexer/token_type.rs:448). -/
abbrev tLeftShiftAssign : Nat := 230
/-- `CSharpTokenType::RightShiftAssign` (oak-csharp lexer/token_type.rs:449). -/
abbrev tRightShiftAssign : Nat := 231
/-- `CSharpTokenType::QuestionQuestionAssign` (oak-csharp lexer/token_type.rs:450). -/
abbrev tQuestionQuestionAssign : Nat := 232
/-- `CSharpTokenType::AndAssign` (oak-csharp lexer/token_type.rs:451). -/
abbrev tAndAssign : Nat := 233
/-- `CSharpTokenType::OrAssign` (oak-csharp lexer/token_type.rs:452). -/
abbrev tOrAssign : Nat := 234
/-- `CSharpTokenType::XorAssign` (oak-csharp lexer/token_type.rs:453). -/
abbrev tXorAssign : Nat := 235
/-- `CSharpTokenType::LeftParen` (oak-csharp lexer/token_type.rs:456). -/
abbrev tLeftParen : Nat := 236
/-- `CSharpTokenType::RightParen` (oak-csharp lexer/token_type.rs:457). -/
abbrev tRightParen : Nat := 237
/-- `CSharpTokenType::LeftBracket` (oak-csharp lexer/token_type.rs:458). -/
abbrev tLeftBracket : Nat := 238
/-- `CSharpTokenType::RightBracket` (oak-csharp lexer/token_type.rs:459). -/
abbrev tRightBracket : Nat := 239
/-- `CSharpTokenType::LeftBrace` (oak-csharp lexer/token_type.rs:460). -/
abbrev tLeftBrace : Nat := 240
/-- `CSharpTokenType::RightBrace` (oak-csharp lexer/token_type.rs:461). -/
abbrev tRightBrace : Nat := 241
/-- `CSharpTokenType::Semicolon` (oak-csharp lexer/token_type.rs:463). -/
abbrev tSemicolon : Nat := 243
/-- `CSharpTokenType::Dot` (oak-csharp lexer/token_type.rs:466). -/
abbrev tDot : Nat := 246
/-- `CSharpElementType::IfStatement` (oak-csharp parser/element_type.rs:274). -/
abbrev eIfStatement : Nat := 249
/-- `CSharpElementType::WhileStatement` (oak-csharp parser/element_type.rs:275). -/
abbrev eWhileStatement : Nat := 250
/-- `CSharpElementType::ForStatement` (oak-csharp parser/element_type.rs:276). -/
abbrev eForStatement : Nat := 251
/-- `CSharpElementType::Block` (oak-csharp parser/element_type.rs:277). -/
abbrev eBlock : Nat := 252
/-- `CSharpElementType::ReturnStatement` (oak-csharp parser/element_type.rs:278). -/
abbrev eReturnStatement : Nat := 253
/-- `CSharpElementType::MethodDeclaration` (oak-csharp parser/element_type.rs:279). -/
abbrev eMethodDeclaration : Nat := 254
/-- `CSharpElementType::PropertyDeclaration` (oak-csharp parser/element_type.rs:280). -/
abbrev ePropertyDeclaration : Nat := 255
/-- `CSharpElementType::FieldDeclaration` (oak-csharp parser/element_type.rs:281). -/
abbrev eFieldDeclaration : Nat := 256
/-- `CSharpElementType::IndexerDeclaration` (oak-csharp parser/element_type.rs:282). -/
abbrev eIndexerDeclaration : Nat := 257
/-- `CSharpElementType::IdentifierName` (oak-csharp parser/element_type.rs:283). -/
abbrev eIdentifierName : Nat := 258
/-- `CSharpElementType::LiteralExpression` (oak-csharp parser/element_type.rs:284). -/
abbrev eLiteralExpression : Nat := 259
/-- `CSharpElementType::BinaryExpression` (oak-csharp parser/element_type.rs:285). -/
abbrev eBinaryExpression : Nat := 260
/-- `CSharpElementType::InvocationExpression` (oak-csharp parser/element_type.rs:286). -/
abbrev eInvocationExpression : Nat := 261
/-- `CSharpElementType::ElementAccessExpression` (oak-csharp parser/element_type.rs:287). -/
abbrev eElementAccessExpression : Nat := 262
/-- `CSharpElementType::MemberAccessExpression` (oak-csharp parser/element_type.rs:288). -/
abbrev eMemberAccessExpression : Nat := 263
/-- `CSharpElementType::AssignmentExpression` (oak-csharp parser/element_type.rs:289). -/
abbrev eAssignmentExpression : Nat := 264
/-- `CSharpElementType::BreakStatement` (oak-csharp parser/element_type.rs:290). -/
abbrev eBreakStatement : Nat := 265
/-- `CSharpElementType::ContinueStatement` (oak-csharp parser/element_type.rs:291). -/
abbrev eContinueStatement : Nat := 266
/-- `CSharpElementType::ExpressionStatement` (oak-csharp parser/element_type.rs:292). -/
abbrev eExpressionStatement : Nat := 267
/-- `CSharpElementType::ForeachStatement` (oak-csharp parser/element_type.rs:293). -/
abbrev eForeachStatement : Nat := 268
/-- `CSharpElementType::NamespaceDeclaration` (oak-csharp parser/element_type.rs:294). -/
abbrev eNamespaceDeclaration : Nat := 269
/-- `CSharpElementType::UsingDirective` (oak-csharp parser/element_type.rs:295). -/
abbrev eUsingDirective : Nat := 270
/-- `CSharpElementType::ClassDeclaration` (oak-csharp parser/element_type.rs:296). -/
abbrev eClassDeclaration : Nat := 271
/-- `CSharpElementType::InterfaceDeclaration` (oak-csharp parser/element_type.rs:297). -/
abbrev eInterfaceDeclaration : Nat := 272
/-- `CSharpElementType::StructDeclaration` (oak-csharp parser/element_type.rs:298). -/
abbrev eStructDeclaration : Nat := 273
/-- `CSharpElementType::EnumDeclaration` (oak-csharp parser/element_type.rs:299). -/
abbrev eEnumDeclaration : Nat := 274
/-- `CSharpElementType::RecordDeclaration` (oak-csharp parser/element_type.rs:300). -/
abbrev eRecordDeclaration : Nat := 275
/-- `CSharpElementType::DelegateDeclaration` (oak-csharp parser/element_type.rs:301). -/
abbrev eDelegateDeclaration : Nat := 276
/-- `CSharpElementType::EventDeclaration` (oak-csharp parser/element_type.rs:302). -/
abbrev eEventDeclaration : Nat := 277
/-- `CSharpElementType::Root` (oak-csharp parser/element_type.rs:306). -/
abbrev eRoot : Nat := 281

/-- The number of `primary` (oak-csharp parser/mod.rs:20-49). -/
abbrev pPrimary : Nat := 0
/-- The number of `prefix` (oak-csharp parser/mod.rs:51-53). -/
abbrev pPrefix : Nat := 1
/-- The number of `parse_statement` (oak-csharp parser/mod.rs:137-183). -/
abbrev pParseStatement : Nat := 2
/-- The number of `parse_foreach_statement` (oak-csharp parser/mod.rs:185-198). -/
abbrev pParseForeachStatement : Nat := 3
/-- The number of `parse_namespace_declaration` (oak-csharp parser/mod.rs:200-210). -/
abbrev pParseNamespaceDeclaration : Nat := 4
/-- The number of `parse_using_directive` (oak-csharp parser/mod.rs:212-222). -/
abbrev pParseUsingDirective : Nat := 5
/-- The number of `parse_accessor_block` (oak-csharp parser/mod.rs:224-245). -/
abbrev pParseAccessorBlock : Nat := 6
/-- The number of `parse_declaration` (oak-csharp parser/mod.rs:247-391). -/
abbrev pParseDeclaration : Nat := 7
/-- The number of `parse_if_statement` (oak-csharp parser/mod.rs:393-406). -/
abbrev pParseIfStatement : Nat := 8
/-- The number of `parse_while_statement` (oak-csharp parser/mod.rs:408-418). -/
abbrev pParseWhileStatement : Nat := 9
/-- The number of `parse_for_statement` (oak-csharp parser/mod.rs:420-430). -/
abbrev pParseForStatement : Nat := 10
/-- The number of `parse_block` (oak-csharp parser/mod.rs:432-442). -/
abbrev pParseBlock : Nat := 11
/-- The number of `parse_return_statement` (oak-csharp parser/mod.rs:444-454). -/
abbrev pParseReturnStatement : Nat := 12
/-- The precedences expressions are parsed with (oak-csharp parser/mod.rs:55-129). -/
abbrev levels : List Nat := [0, 1, 3, 4, 5, 11, 12]
/-- The number of `PrattParser::parse` with a precedence (oak-core parser/pratt.rs:237-243): after the other functions. -/
abbrev pPratt (min : Nat) : Nat := 13 + levels.idxOf min

/-- `primary` (oak-csharp parser/mod.rs:20-49). -/
def primary : Prog :=
  mark (ite (sees tIdentifier)
    (block [
      bump,
      close eIdentifierName])
    (ite (seesAny [tNumber, tNumberLiteral, tString, tStringLiteral, tTrueKeyword, tFalseKeyword, tNullKeyword])
      (block [
        bump,
        close eLiteralExpression])
      (ite (sees tLeftParen)
        (block [
          bump,
          call (pPratt 0),
          expect tRightParen,
          close eBinaryExpression])
        (block [
          bump,
          close eRoot]))))

/-- `prefix` (oak-csharp parser/mod.rs:51-53). -/
def prefix_ : Prog :=
  call pPrimary

/-- `parse_statement` (oak-csharp parser/mod.rs:137-183). -/
def parseStatement : Prog :=
  ite (sees tNamespace)
    (call pParseNamespaceDeclaration)
    (ite (sees tUsing)
      (call pParseUsingDirective)
      (ite (seesAny [tClass, tStruct, tInterface, tEnum, tRecord, tDelegate, tPublic, tPrivate, tProtected, tInternal, tStatic, tAsyncKeyword, tAbstract, tVirtual, tOverride])
        (call pParseDeclaration)
        (ite (sees tIf)
          (call pParseIfStatement)
          (ite (sees tWhile)
            (call pParseWhileStatement)
            (ite (sees tFor)
              (call pParseForStatement)
              (ite (sees tForeach)
                (call pParseForeachStatement)
                (ite (sees tReturn)
                  (call pParseReturnStatement)
                  (ite (sees tBreak)
                    (mark (block [
                      bump,
                      eat tSemicolon,
                      close eBreakStatement]))
                    (ite (sees tContinue)
                      (mark (block [
                        bump,
                        eat tSemicolon,
                        close eContinueStatement]))
                      (ite (sees tLeftBrace)
                        (call pParseBlock)
                        (mark (block [
                          call (pPratt 0),
                          eat tSemicolon,
                          close eExpressionStatement]))))))))))))

/-- `parse_foreach_statement` (oak-csharp parser/mod.rs:185-198). -/
def parseForeachStatement : Prog :=
  mark (block [
    bump,
    expect tLeftParen,
    loop (and_ more (not_ (sees tRightParen)))
      bump,
    expect tRightParen,
    call pParseStatement,
    close eForeachStatement])

/-- `parse_namespace_declaration` (oak-csharp parser/mod.rs:200-210). -/
def parseNamespaceDeclaration : Prog :=
  mark (block [
    expect tNamespace,
    loop (and_ more (not_ (sees tLeftBrace)))
      bump,
    call pParseBlock,
    close eNamespaceDeclaration])

/-- `parse_using_directive` (oak-csharp parser/mod.rs:212-222). -/
def parseUsingDirective : Prog :=
  mark (block [
    expect tUsing,
    loop (and_ more (not_ (sees tSemicolon)))
      bump,
    eat tSemicolon,
    close eUsingDirective])

/-- `parse_accessor_block` (oak-csharp parser/mod.rs:224-245). -/
def parseAccessorBlock : Prog :=
  block [
    expect tLeftBrace,
    loop (and_ more (not_ (sees tRightBrace)))
      (ite (seesAny [tGetKeyword, tSetKeyword, tAddKeyword, tRemoveKeyword])
        (block [
          bump,
          ite (sees tLeftBrace)
            (call pParseBlock)
            (eat tSemicolon)])
        bump),
    expect tRightBrace]

/-- `parse_declaration` (oak-csharp parser/mod.rs:247-391). -/
def parseDeclaration : Prog :=
  mark (block [
    loop (and_ more (seesAny [tPublic, tPrivate, tProtected, tInternal, tStatic, tReadonly, tAbstract, tVirtual, tOverride, tAsyncKeyword]))
      bump,
    ite (sees tClass)
      (block [
        bump,
        expect tIdentifier,
        loop (and_ more (not_ (sees tLeftBrace)))
          bump,
        call pParseBlock,
        close eClassDeclaration])
      (ite (sees tInterface)
        (block [
          bump,
          expect tIdentifier,
          loop (and_ more (not_ (sees tLeftBrace)))
            bump,
          call pParseBlock,
          close eInterfaceDeclaration])
        (ite (sees tStruct)
          (block [
            bump,
            expect tIdentifier,
            loop (and_ more (not_ (sees tLeftBrace)))
              bump,
            call pParseBlock,
            close eStructDeclaration])
          (ite (sees tEnum)
            (block [
              bump,
              expect tIdentifier,
              call pParseBlock,
              close eEnumDeclaration])
            (ite (sees tRecord)
              (block [
                bump,
                expect tIdentifier,
                loop (and_ (and_ more (not_ (sees tLeftBrace))) (not_ (sees tSemicolon)))
                  bump,
                ite (sees tLeftBrace)
                  (call pParseBlock)
                  (eat tSemicolon),
                close eRecordDeclaration])
              (ite (sees tDelegate)
                (block [
                  bump,
                  loop (and_ more (not_ (sees tSemicolon)))
                    bump,
                  eat tSemicolon,
                  close eDelegateDeclaration])
                (ite (sees tEvent)
                  (block [
                    bump,
                    loop (and_ (and_ more (not_ (sees tSemicolon))) (not_ (sees tLeftBrace)))
                      bump,
                    ite (sees tLeftBrace)
                      (call pParseAccessorBlock)
                      (eat tSemicolon),
                    close eEventDeclaration])
                  (block [
                    bump,
                    loop (and_ (and_ (and_ more (not_ (sees tSemicolon))) (not_ (sees tLeftBrace))) (not_ (sees tLeftParen)))
                      bump,
                    ite (and_ (eat tThis) (sees tLeftBracket))
                      (block [
                        bump,
                        loop (and_ more (not_ (sees tRightBracket)))
                          bump,
                        expect tRightBracket,
                        call pParseAccessorBlock,
                        close eIndexerDeclaration])
                      (block [
                        expect tIdentifier,
                        ite (sees tLeftParen)
                          (block [
                            bump,
                            loop (and_ more (not_ (sees tRightParen)))
                              bump,
                            expect tRightParen,
                            ite (sees tLeftBrace)
                              (call pParseBlock)
                              (eat tSemicolon),
                            close eMethodDeclaration])
                          (ite (sees tLeftBrace)
                            (block [
                              call pParseAccessorBlock,
                              close ePropertyDeclaration])
                            (block [
                              eat tSemicolon,
                              close eFieldDeclaration]))])])))))))])

/-- `parse_if_statement` (oak-csharp parser/mod.rs:393-406). -/
def parseIfStatement : Prog :=
  mark (block [
    bump,
    expect tLeftParen,
    call (pPratt 0),
    expect tRightParen,
    call pParseStatement,
    when_ (eat tElse)
      (call pParseStatement),
    close eIfStatement])

/-- `parse_while_statement` (oak-csharp parser/mod.rs:408-418). -/
def parseWhileStatement : Prog :=
  mark (block [
    bump,
    expect tLeftParen,
    call (pPratt 0),
    expect tRightParen,
    call pParseStatement,
    close eWhileStatement])

/-- `parse_for_statement` (oak-csharp parser/mod.rs:420-430). -/
def parseForStatement : Prog :=
  mark (block [
    bump,
    expect tLeftParen,
    call (pPratt 0),
    expect tRightParen,
    call pParseStatement,
    close eForStatement])

/-- `parse_block` (oak-csharp parser/mod.rs:432-442). -/
def parseBlock : Prog :=
  mark (block [
    expect tLeftBrace,
    loop (and_ more (not_ (sees tRightBrace)))
      (call pParseStatement),
    expect tRightBrace,
    close eBlock])

/-- `parse_return_statement` (oak-csharp parser/mod.rs:444-454). -/
def parseReturnStatement : Prog :=
  mark (block [
    bump,
    when_ (and_ (not_ (sees tSemicolon)) (not_ (sees tRightBrace)))
      (call (pPratt 0)),
    eat tSemicolon,
    close eReturnStatement])

/-- `infix` (oak-csharp parser/mod.rs:55-129) with a least precedence. -/
def infix_ (min : Nat) : Prog :=
  ite more
    (ite (seesAny [tAssign, tPlusAssign, tMinusAssign, tStarAssign, tSlashAssign, tPercentAssign, tAndAssign, tOrAssign, tXorAssign, tLeftShiftAssign, tRightShiftAssign, tQuestionQuestionAssign])
      (level min 1
        (mark (block [
          back,
          bump,
          call (pPratt 1),
          close eAssignmentExpression])))
      (ite (sees tLogicalOr)
        (level min 2
          (mark (block [
            back,
            bump,
            call (pPratt 3),
            close eBinaryExpression])))
        (ite (sees tLogicalAnd)
          (level min 3
            (mark (block [
              back,
              bump,
              call (pPratt 4),
              close eBinaryExpression])))
          (ite (seesAny [tEqual, tNotEqual, tLess, tGreater, tLessEqual, tGreaterEqual, tIsKeyword, tAsKeyword])
            (level min 4
              (mark (block [
                back,
                bump,
                call (pPratt 5),
                close eBinaryExpression])))
            (ite (seesAny [tPlus, tMinus])
              (level min 10
                (mark (block [
                  back,
                  bump,
                  call (pPratt 11),
                  close eBinaryExpression])))
              (ite (seesAny [tStar, tSlash, tPercent])
                (level min 11
                  (mark (block [
                    back,
                    bump,
                    call (pPratt 12),
                    close eBinaryExpression])))
                (ite (seesAny [tLeftParen, tLeftBracket, tDot])
                  (level min 15
                    (ite (sees tLeftParen)
                      (block [
                        mark (block [
                          again,
                          expect tLeftParen,
                          loop (and_ more (not_ (sees tRightParen)))
                            bump,
                          expect tRightParen,
                          close eInvocationExpression])])
                      (ite (sees tLeftBracket)
                        (block [
                          mark (block [
                            again,
                            expect tLeftBracket,
                            loop (and_ more (not_ (sees tRightBracket)))
                              bump,
                            expect tRightBracket,
                            close eElementAccessExpression])])
                        (block [
                          mark (block [
                            again,
                            expect tDot,
                            expect tIdentifier,
                            close eMemberAccessExpression])]))))
                  (val false))))))))
    (val false)

/-- `PrattParser::parse` (oak-core parser/pratt.rs:237-243). -/
def pratt (min : Nat) : Prog :=
  block [call pPrefix, loop (infix_ min) (val true)]

/-- `parse` between the checkpoint and the last `finish_at` (oak-csharp parser/mod.rs:458-467). -/
def main : Prog :=
  loop more
    (call pParseStatement)

/-- The parser (`parse`, oak-csharp parser/mod.rs:458-467; `is_ignored`, oak-csharp lexer/token_type.rs:481-483). -/
def parser : HandParser where
  ign := []
  fromStart := false
  root := eRoot
  main := main
  procs := [primary, prefix_, parseStatement, parseForeachStatement, parseNamespaceDeclaration, parseUsingDirective, parseAccessorBlock, parseDeclaration, parseIfStatement, parseWhileStatement, parseForStatement, parseBlock, parseReturnStatement] ++ levels.map pratt

end Oaks.Hand.Csharp
