import Verif.Model.Prog

/-
The parser of `oak-rust` (examples/oak-rust/src/parser) as a program: one definition for every function it calls, in the order of the
source. Kinds are the places of the variants in their enums.
-/
namespace Oaks.Hand.Rust
open Prog

/-- `RustTokenType::Else` (oak-rust lexer/token_type.rs:23). -/
abbrev tElse : Nat := 5
/-- `RustTokenType::Enum` (oak-rust lexer/token_type.rs:25). -/
abbrev tEnum : Nat := 6
/-- `RustTokenType::False` (oak-rust lexer/token_type.rs:29). -/
abbrev tFalse : Nat := 8
/-- `RustTokenType::Fn` (oak-rust lexer/token_type.rs:31). -/
abbrev tFn : Nat := 9
/-- `RustTokenType::For` (oak-rust lexer/token_type.rs:33). -/
abbrev tFor : Nat := 10
/-- `RustTokenType::If` (oak-rust lexer/token_type.rs:35). -/
abbrev tIf : Nat := 11
/-- `RustTokenType::In` (oak-rust lexer/token_type.rs:39). -/
abbrev tIn : Nat := 13
/-- `RustTokenType::Let` (oak-rust lexer/token_type.rs:41). -/
abbrev tLet : Nat := 14
/-- `RustTokenType::Loop` (oak-rust lexer/token_type.rs:43). -/
abbrev tLoop : Nat := 15
/-- `RustTokenType::Mod` (oak-rust lexer/token_type.rs:47). -/
abbrev tMod : Nat := 17
/-- `RustTokenType::Return` (oak-rust lexer/token_type.rs:57). -/
abbrev tReturn : Nat := 22
/-- `RustTokenType::Struct` (oak-rust lexer/token_type.rs:65). -/
abbrev tStruct : Nat := 26
/-- `RustTokenType::True` (oak-rust lexer/token_type.rs:71). -/
abbrev tTrue : Nat := 29
/-- `RustTokenType::Use` (oak-rust lexer/token_type.rs:77). -/
abbrev tUse : Nat := 32
/-- `RustTokenType::While` (oak-rust lexer/token_type.rs:81). -/
abbrev tWhile : Nat := 34
/-- `RustTokenType::IntegerLiteral` (oak-rust lexer/token_type.rs:119). -/
abbrev tIntegerLiteral : Nat := 53
/-- `RustTokenType::FloatLiteral` (oak-rust lexer/token_type.rs:121). -/
abbrev tFloatLiteral : Nat := 54
/-- `RustTokenType::StringLiteral` (oak-rust lexer/token_type.rs:123). -/
abbrev tStringLiteral : Nat := 55
/-- `RustTokenType::CharLiteral` (oak-rust lexer/token_type.rs:125). -/
abbrev tCharLiteral : Nat := 56
/-- `RustTokenType::ByteLiteral` (oak-rust lexer/token_type.rs:127). -/
abbrev tByteLiteral : Nat := 57
/-- `RustTokenType::ByteStringLiteral` (oak-rust lexer/token_type.rs:129). -/
abbrev tByteStringLiteral : Nat := 58
/-- `RustTokenType::RawStringLiteral` (oak-rust lexer/token_type.rs:131). -/
abbrev tRawStringLiteral : Nat := 59
/-- `RustTokenType::BoolLiteral` (oak-rust lexer/token_type.rs:133). -/
abbrev tBoolLiteral : Nat := 60
/-- `RustTokenType::Identifier` (oak-rust lexer/token_type.rs:135). -/
abbrev tIdentifier : Nat := 61
/-- `RustTokenType::LeftParen` (oak-rust lexer/token_type.rs:139). -/
abbrev tLeftParen : Nat := 63
/-- `RustTokenType::RightParen` (oak-rust lexer/token_type.rs:141). -/
abbrev tRightParen : Nat := 64
/-- `RustTokenType::LeftBrace` (oak-rust lexer/token_type.rs:143). -/
abbrev tLeftBrace : Nat := 65
/-- `RustTokenType::RightBrace` (oak-rust lexer/token_type.rs:145). -/
abbrev tRightBrace : Nat := 66
/-- `RustTokenType::LeftBracket` (oak-rust lexer/token_type.rs:147). -/
abbrev tLeftBracket : Nat := 67
/-- `RustTokenType::RightBracket` (oak-rust lexer/token_type.rs:149). -/
abbrev tRightBracket : Nat := 68
/-- `RustTokenType::Semicolon` (oak-rust lexer/token_type.rs:151). -/
abbrev tSemicolon : Nat := 69
/-- `RustTokenType::Comma` (oak-rust lexer/token_type.rs:153). -/
abbrev tComma : Nat := 70
/-- `RustTokenType::Dot` (oak-rust lexer/token_type.rs:155). -/
abbrev tDot : Nat := 71
/-- `RustTokenType::DotDot` (oak-rust lexer/token_type.rs:157). -/
abbrev tDotDot : Nat := 72
/-- `RustTokenType::DotDotEq` (oak-rust lexer/token_type.rs:161). -/
abbrev tDotDotEq : Nat := 74
/-- `RustTokenType::Plus` (oak-rust lexer/token_type.rs:177). -/
abbrev tPlus : Nat := 82
/-- `RustTokenType::Minus` (oak-rust lexer/token_type.rs:179). -/
abbrev tMinus : Nat := 83
/-- `RustTokenType::Star` (oak-rust lexer/token_type.rs:181). -/
abbrev tStar : Nat := 84
/-- `RustTokenType::Slash` (oak-rust lexer/token_type.rs:183). -/
abbrev tSlash : Nat := 85
/-- `RustTokenType::Percent` (oak-rust lexer/token_type.rs:185). -/
abbrev tPercent : Nat := 86
/-- `RustTokenType::Caret` (oak-rust lexer/token_type.rs:187). -/
abbrev tCaret : Nat := 87
/-- `RustTokenType::Ampersand` (oak-rust lexer/token_type.rs:189). -/
abbrev tAmpersand : Nat := 88
/-- `RustTokenType::Pipe` (oak-rust lexer/token_type.rs:191). -/
abbrev tPipe : Nat := 89
/-- `RustTokenType::Bang` (oak-rust lexer/token_type.rs:195). -/
abbrev tBang : Nat := 91
/-- `RustTokenType::Eq` (oak-rust lexer/token_type.rs:197). -/
abbrev tEq : Nat := 92
/-- `RustTokenType::Lt` (oak-rust lexer/token_type.rs:199). -/
abbrev tLt : Nat := 93
/-- `RustTokenType::Gt` (oak-rust lexer/token_type.rs:201). -/
abbrev tGt : Nat := 94
/-- `RustTokenType::EqEq` (oak-rust lexer/token_type.rs:207). -/
abbrev tEqEq : Nat := 97
/-- `RustTokenType::Ne` (oak-rust lexer/token_type.rs:209). -/
abbrev tNe : Nat := 98
/-- `RustTokenType::Le` (oak-rust lexer/token_type.rs:211). -/
abbrev tLe : Nat := 99
/-- `RustTokenType::Ge` (oak-rust lexer/token_type.rs:213). -/
abbrev tGe : Nat := 100
/-- `RustTokenType::AndAnd` (oak-rust lexer/token_type.rs:219). -/
abbrev tAndAnd : Nat := 103
/-- `RustTokenType::OrOr` (oak-rust lexer/token_type.rs:221). -/
abbrev tOrOr : Nat := 104
/-- `RustTokenType::Shl` (oak-rust lexer/token_type.rs:227). -/
abbrev tShl : Nat := 107
/-- `RustTokenType::Shr` (oak-rust lexer/token_type.rs:229). -/
abbrev tShr : Nat := 108
/-- `RustTokenType::PlusEq` (oak-rust lexer/token_type.rs:231). -/
abbrev tPlusEq : Nat := 109
/-- `RustTokenType::MinusEq` (oak-rust lexer/token_type.rs:233). -/
abbrev tMinusEq : Nat := 110
/-- `RustTokenType::StarEq` (oak-rust lexer/token_type.rs:235). -/
abbrev tStarEq : Nat := 111
/-- `RustTokenType::SlashEq` (oak-rust lexer/token_type.rs:237). -/
abbrev tSlashEq : Nat := 112
/-- `RustTokenType::PercentEq` (oak-rust lexer/token_type.rs:239). -/
abbrev tPercentEq : Nat := 113
/-- `RustTokenType::CaretEq` (oak-rust lexer/token_type.rs:241). -/
abbrev tCaretEq : Nat := 114
/-- `RustTokenType::AndEq` (oak-rust lexer/token_type.rs:243). -/
abbrev tAndEq : Nat := 115
/-- `RustTokenType::OrEq` (oak-rust lexer/token_type.rs:245). -/
abbrev tOrEq : Nat := 116
/-- `RustTokenType::ShlEq` (oak-rust lexer/token_type.rs:247). -/
abbrev tShlEq : Nat := 117
/-- `RustTokenType::ShrEq` (oak-rust lexer/token_type.rs:249). -/
abbrev tShrEq : Nat := 118
/-- `RustTokenType::Arrow` (oak-rust lexer/token_type.rs:277). -/
abbrev tArrow : Nat := 132
/-- `RustTokenType::Newline` (oak-rust lexer/token_type.rs:283). -/
abbrev tNewline : Nat := 135
/-- `RustTokenType::Whitespace` (oak-rust lexer/token_type.rs:285). -/
abbrev tWhitespace : Nat := 136
/-- `RustTokenType::LineComment` (oak-rust lexer/token_type.rs:287). -/
abbrev tLineComment : Nat := 137
/-- `RustTokenType::BlockComment` (oak-rust lexer/token_type.rs:289). -/
abbrev tBlockComment : Nat := 138
/-- `RustElementType::Error` (oak-rust parser/element_type.rs:297). -/
abbrev eError : Nat := 143
/-- `RustElementType::IdentifierExpression` (oak-rust parser/element_type.rs:301). -/
abbrev eIdentifierExpression : Nat := 144
/-- `RustElementType::LiteralExpression` (oak-rust parser/element_type.rs:303). -/
abbrev eLiteralExpression : Nat := 145
/-- `RustElementType::ParenthesizedExpression` (oak-rust parser/element_type.rs:305). -/
abbrev eParenthesizedExpression : Nat := 146
/-- `RustElementType::UnaryExpression` (oak-rust parser/element_type.rs:307). -/
abbrev eUnaryExpression : Nat := 147
/-- `RustElementType::BinaryExpression` (oak-rust parser/element_type.rs:309). -/
abbrev eBinaryExpression : Nat := 148
/-- `RustElementType::CallExpression` (oak-rust parser/element_type.rs:311). -/
abbrev eCallExpression : Nat := 149
/-- `RustElementType::IndexExpression` (oak-rust parser/element_type.rs:313). -/
abbrev eIndexExpression : Nat := 150
/-- `RustElementType::SourceFile` (oak-rust parser/element_type.rs:319). -/
abbrev eSourceFile : Nat := 152
/-- `RustElementType::Function` (oak-rust parser/element_type.rs:321). -/
abbrev eFunction : Nat := 153
/-- `RustElementType::UseItem` (oak-rust parser/element_type.rs:325). -/
abbrev eUseItem : Nat := 155
/-- `RustElementType::ModuleItem` (oak-rust parser/element_type.rs:327). -/
abbrev eModuleItem : Nat := 156
/-- `RustElementType::StructItem` (oak-rust parser/element_type.rs:329). -/
abbrev eStructItem : Nat := 157
/-- `RustElementType::EnumItem` (oak-rust parser/element_type.rs:331). -/
abbrev eEnumItem : Nat := 158
/-- `RustElementType::LetStatement` (oak-rust parser/element_type.rs:333). -/
abbrev eLetStatement : Nat := 159
/-- `RustElementType::IfExpression` (oak-rust parser/element_type.rs:335). -/
abbrev eIfExpression : Nat := 160
/-- `RustElementType::WhileExpression` (oak-rust parser/element_type.rs:337). -/
abbrev eWhileExpression : Nat := 161
/-- `RustElementType::LoopExpression` (oak-rust parser/element_type.rs:339). -/
abbrev eLoopExpression : Nat := 162
/-- `RustElementType::ForExpression` (oak-rust parser/element_type.rs:341). -/
abbrev eForExpression : Nat := 163
/-- `RustElementType::ReturnStatement` (oak-rust parser/element_type.rs:343). -/
abbrev eReturnStatement : Nat := 164
/-- `RustElementType::Block` (oak-rust parser/element_type.rs:345). -/
abbrev eBlock : Nat := 165
/-- `RustElementType::ParameterList` (oak-rust parser/element_type.rs:347). -/
abbrev eParameterList : Nat := 166
/-- `RustElementType::BlockExpression` (oak-rust parser/element_type.rs:349). -/
abbrev eBlockExpression : Nat := 167
/-- `RustElementType::MemberExpression` (oak-rust parser/element_type.rs:367). -/
abbrev eMemberExpression : Nat := 175

/-- The number of `primary` (oak-rust parser/mod.rs:28-50). -/
abbrev pPrimary : Nat := 0
/-- The number of `prefix` (oak-rust parser/mod.rs:52-63). -/
abbrev pPrefix : Nat := 1
/-- The number of `parse_statement` (oak-rust parser/mod.rs:149-190). -/
abbrev pParseStatement : Nat := 2
/-- The number of `parse_function_body` (oak-rust parser/mod.rs:192-194). -/
abbrev pParseFunctionBody : Nat := 3
/-- The number of `parse_use_item_body` (oak-rust parser/mod.rs:196-198). -/
abbrev pParseUseItemBody : Nat := 4
/-- The number of `parse_mod_item_body` (oak-rust parser/mod.rs:200-202). -/
abbrev pParseModItemBody : Nat := 5
/-- The number of `parse_struct_item_body` (oak-rust parser/mod.rs:204-206). -/
abbrev pParseStructItemBody : Nat := 6
/-- The number of `parse_enum_item_body` (oak-rust parser/mod.rs:208-210). -/
abbrev pParseEnumItemBody : Nat := 7
/-- The number of `parse_let_statement_body` (oak-rust parser/mod.rs:212-214). -/
abbrev pParseLetStatementBody : Nat := 8
/-- The number of `parse_if_expression_body` (oak-rust parser/mod.rs:216-218). -/
abbrev pParseIfExpressionBody : Nat := 9
/-- The number of `parse_while_expression_body` (oak-rust parser/mod.rs:220-222). -/
abbrev pParseWhileExpressionBody : Nat := 10
/-- The number of `parse_loop_expression_body` (oak-rust parser/mod.rs:224-226). -/
abbrev pParseLoopExpressionBody : Nat := 11
/-- The number of `parse_for_expression_body` (oak-rust parser/mod.rs:228-230). -/
abbrev pParseForExpressionBody : Nat := 12
/-- The number of `parse_return_statement_body` (oak-rust parser/mod.rs:232-234). -/
abbrev pParseReturnStatementBody : Nat := 13
/-- The number of `parse_block_body` (oak-rust parser/mod.rs:236-238). -/
abbrev pParseBlockBody : Nat := 14
/-- The number of `parse_function` (oak-rust parser/mod.rs:241-255). -/
abbrev pParseFunction : Nat := 15
/-- The number of `parse_param_list` (oak-rust parser/mod.rs:257-267). -/
abbrev pParseParamList : Nat := 16
/-- The number of `parse_block` (oak-rust parser/mod.rs:270-280). -/
abbrev pParseBlock : Nat := 17
/-- The number of `parse_use_item` (oak-rust parser/mod.rs:283-293). -/
abbrev pParseUseItem : Nat := 18
/-- The number of `parse_mod_item` (oak-rust parser/mod.rs:296-308). -/
abbrev pParseModItem : Nat := 19
/-- The number of `parse_struct_item` (oak-rust parser/mod.rs:311-326). -/
abbrev pParseStructItem : Nat := 20
/-- The number of `parse_enum_item` (oak-rust parser/mod.rs:329-336). -/
abbrev pParseEnumItem : Nat := 21
/-- The number of `parse_let_statement` (oak-rust parser/mod.rs:339-349). -/
abbrev pParseLetStatement : Nat := 22
/-- The number of `parse_if_expression` (oak-rust parser/mod.rs:352-362). -/
abbrev pParseIfExpression : Nat := 23
/-- The number of `parse_while_expression` (oak-rust parser/mod.rs:365-372). -/
abbrev pParseWhileExpression : Nat := 24
/-- The number of `parse_loop_expression` (oak-rust parser/mod.rs:375-381). -/
abbrev pParseLoopExpression : Nat := 25
/-- The number of `parse_for_expression` (oak-rust parser/mod.rs:384-393). -/
abbrev pParseForExpression : Nat := 26
/-- The number of `parse_return_statement` (oak-rust parser/mod.rs:396-405). -/
abbrev pParseReturnStatement : Nat := 27
/-- The precedences expressions are parsed with (oak-rust parser/mod.rs:65-123). -/
abbrev levels : List Nat := [0, 1, 3, 4, 5, 6, 7, 8, 9, 10, 11, 12, 13]
/-- The number of `PrattParser::parse` with a precedence (oak-core parser/pratt.rs:237-243): after the other functions. -/
abbrev pPratt (min : Nat) : Nat := 28 + levels.idxOf min

/-- `primary` (oak-rust parser/mod.rs:28-50). -/
def primary : Prog :=
  mark (ite (sees tIdentifier)
    (block [
      bump,
      close eIdentifierExpression])
    (ite (and_ more (seesAny [tIntegerLiteral, tFloatLiteral, tStringLiteral, tCharLiteral, tByteLiteral, tByteStringLiteral, tRawStringLiteral, tBoolLiteral, tTrue, tFalse]))
      (block [
        bump,
        close eLiteralExpression])
      (ite (sees tLeftParen)
        (block [
          bump,
          call (pPratt 0),
          expect tRightParen,
          close eParenthesizedExpression])
        (block [
          bump,
          close eError]))))

/-- `prefix` (oak-rust parser/mod.rs:52-63). -/
def prefix_ : Prog :=
  ite more
    (ite (seesAny [tMinus, tBang, tAmpersand, tStar])
      (mark (block [
        bump,
        call (pPratt 13),
        close eUnaryExpression]))
      (call pPrimary))
    (call pPrimary)

/-- `parse_statement` (oak-rust parser/mod.rs:149-190). -/
def parseStatement : Prog :=
  ite (sees tFn)
    (within eFunction (call pParseFunctionBody))
    (ite (sees tUse)
      (within eUseItem (call pParseUseItemBody))
      (ite (sees tMod)
        (within eModuleItem (call pParseModItemBody))
        (ite (sees tStruct)
          (within eStructItem (call pParseStructItemBody))
          (ite (sees tEnum)
            (within eEnumItem (call pParseEnumItemBody))
            (ite (sees tLet)
              (within eLetStatement (call pParseLetStatementBody))
              (ite (sees tIf)
                (within eIfExpression (call pParseIfExpressionBody))
                (ite (sees tWhile)
                  (within eWhileExpression (call pParseWhileExpressionBody))
                  (ite (sees tLoop)
                    (within eLoopExpression (call pParseLoopExpressionBody))
                    (ite (sees tFor)
                      (within eForExpression (call pParseForExpressionBody))
                      (ite (sees tReturn)
                        (within eReturnStatement (call pParseReturnStatementBody))
                        (ite (sees tLeftBrace)
                          (within eBlock (call pParseBlockBody))
                          (block [
                            call (pPratt 0),
                            eat tSemicolon]))))))))))))

/-- `parse_function_body` (oak-rust parser/mod.rs:192-194). -/
def parseFunctionBody : Prog :=
  call pParseFunction

/-- `parse_use_item_body` (oak-rust parser/mod.rs:196-198). -/
def parseUseItemBody : Prog :=
  call pParseUseItem

/-- `parse_mod_item_body` (oak-rust parser/mod.rs:200-202). -/
def parseModItemBody : Prog :=
  call pParseModItem

/-- `parse_struct_item_body` (oak-rust parser/mod.rs:204-206). -/
def parseStructItemBody : Prog :=
  call pParseStructItem

/-- `parse_enum_item_body` (oak-rust parser/mod.rs:208-210). -/
def parseEnumItemBody : Prog :=
  call pParseEnumItem

/-- `parse_let_statement_body` (oak-rust parser/mod.rs:212-214). -/
def parseLetStatementBody : Prog :=
  call pParseLetStatement

/-- `parse_if_expression_body` (oak-rust parser/mod.rs:216-218). -/
def parseIfExpressionBody : Prog :=
  call pParseIfExpression

/-- `parse_while_expression_body` (oak-rust parser/mod.rs:220-222). -/
def parseWhileExpressionBody : Prog :=
  call pParseWhileExpression

/-- `parse_loop_expression_body` (oak-rust parser/mod.rs:224-226). -/
def parseLoopExpressionBody : Prog :=
  call pParseLoopExpression

/-- `parse_for_expression_body` (oak-rust parser/mod.rs:228-230). -/
def parseForExpressionBody : Prog :=
  call pParseForExpression

/-- `parse_return_statement_body` (oak-rust parser/mod.rs:232-234). -/
def parseReturnStatementBody : Prog :=
  call pParseReturnStatement

/-- `parse_block_body` (oak-rust parser/mod.rs:236-238). -/
def parseBlockBody : Prog :=
  call pParseBlock

/-- `parse_function` (oak-rust parser/mod.rs:241-255). -/
def parseFunction : Prog :=
  mark (block [
    expect tFn,
    expect tIdentifier,
    call pParseParamList,
    when_ (eat tArrow)
      (loop (and_ more (not_ (sees tLeftBrace)))
        advance),
    call pParseBlock,
    close eFunction])

/-- `parse_param_list` (oak-rust parser/mod.rs:257-267). -/
def parseParamList : Prog :=
  mark (block [
    expect tLeftParen,
    loop (and_ more (not_ (sees tRightParen)))
      advance,
    expect tRightParen,
    close eParameterList])

/-- `parse_block` (oak-rust parser/mod.rs:270-280). -/
def parseBlock : Prog :=
  mark (block [
    expect tLeftBrace,
    loop (and_ more (not_ (sees tRightBrace)))
      (call pParseStatement),
    expect tRightBrace,
    close eBlockExpression])

/-- `parse_use_item` (oak-rust parser/mod.rs:283-293). -/
def parseUseItem : Prog :=
  mark (block [
    expect tUse,
    loop (and_ (not_ (sees tSemicolon)) more)
      bump,
    eat tSemicolon,
    close eUseItem])

/-- `parse_mod_item` (oak-rust parser/mod.rs:296-308). -/
def parseModItem : Prog :=
  mark (block [
    bump,
    expect tIdentifier,
    ite (sees tLeftBrace)
      (call pParseBlock)
      (eat tSemicolon),
    close eModuleItem])

/-- `parse_struct_item` (oak-rust parser/mod.rs:311-326). -/
def parseStructItem : Prog :=
  mark (block [
    bump,
    expect tIdentifier,
    loop (and_ (and_ more (not_ (sees tLeftBrace))) (not_ (sees tSemicolon)))
      advance,
    ite (sees tLeftBrace)
      (call pParseBlock)
      (eat tSemicolon),
    close eStructItem])

/-- `parse_enum_item` (oak-rust parser/mod.rs:329-336). -/
def parseEnumItem : Prog :=
  mark (block [
    bump,
    expect tIdentifier,
    call pParseBlock,
    close eEnumItem])

/-- `parse_let_statement` (oak-rust parser/mod.rs:339-349). -/
def parseLetStatement : Prog :=
  mark (block [
    bump,
    expect tIdentifier,
    when_ (eat tEq)
      (call (pPratt 0)),
    eat tSemicolon,
    close eLetStatement])

/-- `parse_if_expression` (oak-rust parser/mod.rs:352-362). -/
def parseIfExpression : Prog :=
  mark (block [
    bump,
    call (pPratt 0),
    call pParseBlock,
    when_ (eat tElse)
      (ite (sees tIf)
        (call pParseIfExpression)
        (call pParseBlock)),
    close eIfExpression])

/-- `parse_while_expression` (oak-rust parser/mod.rs:365-372). -/
def parseWhileExpression : Prog :=
  mark (block [
    bump,
    call (pPratt 0),
    call pParseBlock,
    close eWhileExpression])

/-- `parse_loop_expression` (oak-rust parser/mod.rs:375-381). -/
def parseLoopExpression : Prog :=
  mark (block [
    bump,
    call pParseBlock,
    close eLoopExpression])

/-- `parse_for_expression` (oak-rust parser/mod.rs:384-393). -/
def parseForExpression : Prog :=
  mark (block [
    bump,
    expect tIdentifier,
    expect tIn,
    call (pPratt 0),
    call pParseBlock,
    close eForExpression])

/-- `parse_return_statement` (oak-rust parser/mod.rs:396-405). -/
def parseReturnStatement : Prog :=
  mark (block [
    bump,
    when_ (not_ (sees tSemicolon))
      (call (pPratt 0)),
    eat tSemicolon,
    close eReturnStatement])

/-- `infix` (oak-rust parser/mod.rs:65-123) with a least precedence. -/
def infix_ (min : Nat) : Prog :=
  ite more
    (ite (seesAny [tEq, tPlusEq, tMinusEq, tStarEq, tSlashEq, tPercentEq, tAndEq, tOrEq, tCaretEq, tShlEq, tShrEq])
      (level min 1
        (mark (block [
          back,
          bump,
          call (pPratt 1),
          close eBinaryExpression])))
      (ite (seesAny [tDotDot, tDotDotEq])
        (level min 2
          (mark (block [
            back,
            bump,
            call (pPratt 3),
            close eBinaryExpression])))
        (ite (sees tOrOr)
          (level min 3
            (mark (block [
              back,
              bump,
              call (pPratt 4),
              close eBinaryExpression])))
          (ite (sees tAndAnd)
            (level min 4
              (mark (block [
                back,
                bump,
                call (pPratt 5),
                close eBinaryExpression])))
            (ite (seesAny [tEqEq, tNe])
              (level min 5
                (mark (block [
                  back,
                  bump,
                  call (pPratt 6),
                  close eBinaryExpression])))
              (ite (seesAny [tLt, tLe, tGt, tGe])
                (level min 6
                  (mark (block [
                    back,
                    bump,
                    call (pPratt 7),
                    close eBinaryExpression])))
                (ite (sees tPipe)
                  (level min 7
                    (mark (block [
                      back,
                      bump,
                      call (pPratt 8),
                      close eBinaryExpression])))
                  (ite (sees tCaret)
                    (level min 8
                      (mark (block [
                        back,
                        bump,
                        call (pPratt 9),
                        close eBinaryExpression])))
                    (ite (sees tAmpersand)
                      (level min 9
                        (mark (block [
                          back,
                          bump,
                          call (pPratt 10),
                          close eBinaryExpression])))
                      (ite (seesAny [tShl, tShr])
                        (level min 10
                          (mark (block [
                            back,
                            bump,
                            call (pPratt 11),
                            close eBinaryExpression])))
                        (ite (seesAny [tPlus, tMinus])
                          (level min 11
                            (mark (block [
                              back,
                              bump,
                              call (pPratt 12),
                              close eBinaryExpression])))
                          (ite (seesAny [tStar, tSlash, tPercent])
                            (level min 12
                              (mark (block [
                                back,
                                bump,
                                call (pPratt 13),
                                close eBinaryExpression])))
                            (ite (seesAny [tLeftParen, tLeftBracket, tDot])
                              (level min 14
                                (ite (sees tLeftParen)
                                  (block [
                                    mark (block [
                                      again,
                                      expect tLeftParen,
                                      when_ (not_ (sees tRightParen))
                                        (loop (val true)
                                          (block [
                                            call (pPratt 0),
                                            when_ (not_ (eat tComma))
                                              brk])),
                                      expect tRightParen,
                                      close eCallExpression])])
                                  (ite (sees tLeftBracket)
                                    (block [
                                      mark (block [
                                        again,
                                        expect tLeftBracket,
                                        call (pPratt 0),
                                        expect tRightBracket,
                                        close eIndexExpression])])
                                    (block [
                                      mark (block [
                                        again,
                                        expect tDot,
                                        expect tIdentifier,
                                        close eMemberExpression])]))))
                              (val false))))))))))))))
    (val false)

/-- `PrattParser::parse` (oak-core parser/pratt.rs:237-243). -/
def pratt (min : Nat) : Prog :=
  block [call pPrefix, loop (infix_ min) (val true)]

/-- `parse_source_file` between the checkpoint and the last `finish_at` (oak-rust parser/mod.rs:135-146). -/
def main : Prog :=
  loop more
    (block [
      when_ (seesAny [tWhitespace, tNewline, tLineComment, tBlockComment])
        (block [
          advance,
          cont]),
      call pParseStatement])

/-- The parser (`parse_source_file`, oak-rust parser/mod.rs:135-146; `is_ignored`, oak-rust lexer/token_type.rs:313-315). -/
def parser : HandParser where
  ign := [tWhitespace, tNewline, tLineComment, tBlockComment]
  fromStart := false
  root := eSourceFile
  main := main
  procs := [primary, prefix_, parseStatement, parseFunctionBody, parseUseItemBody, parseModItemBody, parseStructItemBody, parseEnumItemBody, parseLetStatementBody, parseIfExpressionBody, parseWhileExpressionBody, parseLoopExpressionBody, parseForExpressionBody, parseReturnStatementBody, parseBlockBody, parseFunction, parseParamList, parseBlock, parseUseItem, parseModItem, parseStructItem, parseEnumItem, parseLetStatement, parseIfExpression, parseWhileExpression, parseLoopExpression, parseForExpression, parseReturnStatement] ++ levels.map pratt

end Oaks.Hand.Rust
