import Verif.Model.Prog

/-
The parser of `oak-lua` (examples/oak-lua/src/parser) as a program: one definition for every function it calls, in the order of the
source. Kinds are the places of the variants in their enums.
-/
namespace Oaks.Hand.Lua
open Prog

/-- `LuaTokenType::And` (oak-lua lexer/token_type.rs:81). -/
abbrev tAnd : Nat := 1
/-- `LuaTokenType::Break` (oak-lua lexer/token_type.rs:82). -/
abbrev tBreak : Nat := 2
/-- `LuaTokenType::Do` (oak-lua lexer/token_type.rs:83). -/
abbrev tDo : Nat := 3
/-- `LuaTokenType::Else` (oak-lua lexer/token_type.rs:84). -/
abbrev tElse : Nat := 4
/-- `LuaTokenType::Elseif` (oak-lua lexer/token_type.rs:85). -/
abbrev tElseif : Nat := 5
/-- `LuaTokenType::End` (oak-lua lexer/token_type.rs:86). -/
abbrev tEnd : Nat := 6
/-- `LuaTokenType::False` (oak-lua lexer/token_type.rs:87). -/
abbrev tFalse : Nat := 7
/-- `LuaTokenType::For` (oak-lua lexer/token_type.rs:88). -/
abbrev tFor : Nat := 8
/-- `LuaTokenType::Function` (oak-lua lexer/token_type.rs:89). -/
abbrev tFunction : Nat := 9
/-- `LuaTokenType::Goto` (oak-lua lexer/token_type.rs:90). -/
abbrev tGoto : Nat := 10
/-- `LuaTokenType::If` (oak-lua lexer/token_type.rs:91). -/
abbrev tIf : Nat := 11
/-- `LuaTokenType::In` (oak-lua lexer/token_type.rs:92). -/
abbrev tIn : Nat := 12
/-- `LuaTokenType::Local` (oak-lua lexer/token_type.rs:93). -/
abbrev tLocal : Nat := 13
/-- `LuaTokenType::Nil` (oak-lua lexer/token_type.rs:94). -/
abbrev tNil : Nat := 14
/-- `LuaTokenType::Not` (oak-lua lexer/token_type.rs:95). -/
abbrev tNot : Nat := 15
/-- `LuaTokenType::Or` (oak-lua lexer/token_type.rs:96). -/
abbrev tOr : Nat := 16
/-- `LuaTokenType::Repeat` (oak-lua lexer/token_type.rs:97). -/
abbrev tRepeat : Nat := 17
/-- `LuaTokenType::Return` (oak-lua lexer/token_type.rs:98). -/
abbrev tReturn : Nat := 18
/-- `LuaTokenType::Then` (oak-lua lexer/token_type.rs:99). -/
abbrev tThen : Nat := 19
/-- `LuaTokenType::True` (oak-lua lexer/token_type.rs:100). -/
abbrev tTrue : Nat := 20
/-- `LuaTokenType::Until` (oak-lua lexer/token_type.rs:101). -/
abbrev tUntil : Nat := 21
/-- `LuaTokenType::While` (oak-lua lexer/token_type.rs:102). -/
abbrev tWhile : Nat := 22
/-- `LuaTokenType::Identifier` (oak-lua lexer/token_type.rs:105). -/
abbrev tIdentifier : Nat := 23
/-- `LuaTokenType::Number` (oak-lua lexer/token_type.rs:106). -/
abbrev tNumber : Nat := 24
/-- `LuaTokenType::String` (oak-lua lexer/token_type.rs:107). -/
abbrev tString : Nat := 25
/-- `LuaTokenType::Plus` (oak-lua lexer/token_type.rs:110). -/
abbrev tPlus : Nat := 26
/-- `LuaTokenType::Minus` (oak-lua lexer/token_type.rs:111). -/
abbrev tMinus : Nat := 27
/-- `LuaTokenType::Star` (oak-lua lexer/token_type.rs:112). -/
abbrev tStar : Nat := 28
/-- `LuaTokenType::Slash` (oak-lua lexer/token_type.rs:113). -/
abbrev tSlash : Nat := 29
/-- `LuaTokenType::Percent` (oak-lua lexer/token_type.rs:114). -/
abbrev tPercent : Nat := 30
/-- `LuaTokenType::Caret` (oak-lua lexer/token_type.rs:115). -/
abbrev tCaret : Nat := 31
/-- `LuaTokenType::Hash` (oak-lua lexer/token_type.rs:116). -/
abbrev tHash : Nat := 32
/-- `LuaTokenType::Ampersand` (oak-lua lexer/token_type.rs:117). -/
abbrev tAmpersand : Nat := 33
/-- `LuaTokenType::Tilde` (oak-lua lexer/token_type.rs:118). -/
abbrev tTilde : Nat := 34
/-- `LuaTokenType::Pipe` (oak-lua lexer/token_type.rs:119). -/
abbrev tPipe : Nat := 35
/-- `LuaTokenType::LtLt` (oak-lua lexer/token_type.rs:120). -/
abbrev tLtLt : Nat := 36
/-- `LuaTokenType::GtGt` (oak-lua lexer/token_type.rs:121). -/
abbrev tGtGt : Nat := 37
/-- `LuaTokenType::SlashSlash` (oak-lua lexer/token_type.rs:122). -/
abbrev tSlashSlash : Nat := 38
/-- `LuaTokenType::EqEq` (oak-lua lexer/token_type.rs:123). -/
abbrev tEqEq : Nat := 39
/-- `LuaTokenType::TildeEq` (oak-lua lexer/token_type.rs:124). -/
abbrev tTildeEq : Nat := 40
/-- `LuaTokenType::LtEq` (oak-lua lexer/token_type.rs:125). -/
abbrev tLtEq : Nat := 41
/-- `LuaTokenType::GtEq` (oak-lua lexer/token_type.rs:126). -/
abbrev tGtEq : Nat := 42
/-- `LuaTokenType::Lt` (oak-lua lexer/token_type.rs:127). -/
abbrev tLt : Nat := 43
/-- `LuaTokenType::Gt` (oak-lua lexer/token_type.rs:128). -/
abbrev tGt : Nat := 44
/-- `LuaTokenType::Eq` (oak-lua lexer/token_type.rs:129). -/
abbrev tEq : Nat := 45
/-- `LuaTokenType::LeftParen` (oak-lua lexer/token_type.rs:132). -/
abbrev tLeftParen : Nat := 46
/-- `LuaTokenType::RightParen` (oak-lua lexer/token_type.rs:133). -/
abbrev tRightParen : Nat := 47
/-- `LuaTokenType::LeftBrace` (oak-lua lexer/token_type.rs:134). -/
abbrev tLeftBrace : Nat := 48
/-- `LuaTokenType::RightBrace` (oak-lua lexer/token_type.rs:135). -/
abbrev tRightBrace : Nat := 49
/-- `LuaTokenType::LeftBracket` (oak-lua lexer/token_type.rs:136). -/
abbrev tLeftBracket : Nat := 50
/-- `LuaTokenType::RightBracket` (oak-lua lexer/token_type.rs:137). -/
abbrev tRightBracket : Nat := 51
/-- `LuaTokenType::ColonColon` (oak-lua lexer/token_type.rs:138). -/
abbrev tColonColon : Nat := 52
/-- `LuaTokenType::Semicolon` (oak-lua lexer/token_type.rs:139). -/
abbrev tSemicolon : Nat := 53
/-- `LuaTokenType::Colon` (oak-lua lexer/token_type.rs:140). -/
abbrev tColon : Nat := 54
/-- `LuaTokenType::Comma` (oak-lua lexer/token_type.rs:141). -/
abbrev tComma : Nat := 55
/-- `LuaTokenType::Dot` (oak-lua lexer/token_type.rs:142). -/
abbrev tDot : Nat := 56
/-- `LuaTokenType::DotDot` (oak-lua lexer/token_type.rs:143). -/
abbrev tDotDot : Nat := 57
/-- `LuaTokenType::DotDotDot` (oak-lua lexer/token_type.rs:144). -/
abbrev tDotDotDot : Nat := 58
/-- `LuaTokenType::Whitespace` (oak-lua lexer/token_type.rs:147). -/
abbrev tWhitespace : Nat := 59
/-- `LuaTokenType::Newline` (oak-lua lexer/token_type.rs:148). -/
abbrev tNewline : Nat := 60
/-- `LuaTokenType::Comment` (oak-lua lexer/token_type.rs:149). -/
abbrev tComment : Nat := 61
/-- `LuaElementType::Error` (oak-lua parser/element_type.rs:83). -/
abbrev eError : Nat := 63
/-- `LuaElementType::SourceFile` (oak-lua parser/element_type.rs:86). -/
abbrev eSourceFile : Nat := 64
/-- `LuaElementType::FunctionDeclaration` (oak-lua parser/element_type.rs:87). -/
abbrev eFunctionDeclaration : Nat := 65
/-- `LuaElementType::LocalStatement` (oak-lua parser/element_type.rs:91). -/
abbrev eLocalStatement : Nat := 69
/-- `LuaElementType::AssignmentStatement` (oak-lua parser/element_type.rs:92). -/
abbrev eAssignmentStatement : Nat := 70
/-- `LuaElementType::ExpressionStatement` (oak-lua parser/element_type.rs:93). -/
abbrev eExpressionStatement : Nat := 71
/-- `LuaElementType::IfStatement` (oak-lua parser/element_type.rs:94). -/
abbrev eIfStatement : Nat := 72
/-- `LuaElementType::WhileStatement` (oak-lua parser/element_type.rs:95). -/
abbrev eWhileStatement : Nat := 73
/-- `LuaElementType::ForStatement` (oak-lua parser/element_type.rs:96). -/
abbrev eForStatement : Nat := 74
/-- `LuaElementType::RepeatStatement` (oak-lua parser/element_type.rs:97). -/
abbrev eRepeatStatement : Nat := 75
/-- `LuaElementType::DoStatement` (oak-lua parser/element_type.rs:98). -/
abbrev eDoStatement : Nat := 76
/-- `LuaElementType::BreakStatement` (oak-lua parser/element_type.rs:99). -/
abbrev eBreakStatement : Nat := 77
/-- `LuaElementType::ReturnStatement` (oak-lua parser/element_type.rs:100). -/
abbrev eReturnStatement : Nat := 78
/-- `LuaElementType::GotoStatement` (oak-lua parser/element_type.rs:101). -/
abbrev eGotoStatement : Nat := 79
/-- `LuaElementType::LabelStatement` (oak-lua parser/element_type.rs:102). -/
abbrev eLabelStatement : Nat := 80
/-- `LuaElementType::IdentifierExpression` (oak-lua parser/element_type.rs:103). -/
abbrev eIdentifierExpression : Nat := 81
/-- `LuaElementType::LiteralExpression` (oak-lua parser/element_type.rs:104). -/
abbrev eLiteralExpression : Nat := 82
/-- `LuaElementType::ParenthesizedExpression` (oak-lua parser/element_type.rs:107). -/
abbrev eParenthesizedExpression : Nat := 85
/-- `LuaElementType::BinaryExpression` (oak-lua parser/element_type.rs:108). -/
abbrev eBinaryExpression : Nat := 86
/-- `LuaElementType::UnaryExpression` (oak-lua parser/element_type.rs:109). -/
abbrev eUnaryExpression : Nat := 87
/-- `LuaElementType::CallExpression` (oak-lua parser/element_type.rs:110). -/
abbrev eCallExpression : Nat := 88
/-- `LuaElementType::MemberExpression` (oak-lua parser/element_type.rs:111). -/
abbrev eMemberExpression : Nat := 89
/-- `LuaElementType::IndexExpression` (oak-lua parser/element_type.rs:112). -/
abbrev eIndexExpression : Nat := 90
/-- `LuaElementType::TableConstructorExpression` (oak-lua parser/element_type.rs:113). -/
abbrev eTableConstructorExpression : Nat := 91
/-- `LuaElementType::FunctionExpression` (oak-lua parser/element_type.rs:114). -/
abbrev eFunctionExpression : Nat := 92
/-- `LuaElementType::TableField` (oak-lua parser/element_type.rs:116). -/
abbrev eTableField : Nat := 94

/-- The number of `parse_statement` (oak-lua parser/mod.rs:36-71). -/
abbrev pParseStatement : Nat := 0
/-- The number of `parse_local_statement` (oak-lua parser/mod.rs:73-96). -/
abbrev pParseLocalStatement : Nat := 1
/-- The number of `parse_if_statement` (oak-lua parser/mod.rs:98-116). -/
abbrev pParseIfStatement : Nat := 2
/-- The number of `parse_while_statement` (oak-lua parser/mod.rs:118-128). -/
abbrev pParseWhileStatement : Nat := 3
/-- The number of `parse_for_statement` (oak-lua parser/mod.rs:130-158). -/
abbrev pParseForStatement : Nat := 4
/-- The number of `parse_repeat_statement` (oak-lua parser/mod.rs:160-169). -/
abbrev pParseRepeatStatement : Nat := 5
/-- The number of `parse_function_declaration` (oak-lua parser/mod.rs:171-185). -/
abbrev pParseFunctionDeclaration : Nat := 6
/-- The number of `parse_function_body` (oak-lua parser/mod.rs:187-208). -/
abbrev pParseFunctionBody : Nat := 7
/-- The number of `parse_return_statement` (oak-lua parser/mod.rs:210-223). -/
abbrev pParseReturnStatement : Nat := 8
/-- The number of `parse_break_statement` (oak-lua parser/mod.rs:225-231). -/
abbrev pParseBreakStatement : Nat := 9
/-- The number of `parse_do_statement` (oak-lua parser/mod.rs:233-241). -/
abbrev pParseDoStatement : Nat := 10
/-- The number of `parse_goto_statement` (oak-lua parser/mod.rs:243-250). -/
abbrev pParseGotoStatement : Nat := 11
/-- The number of `parse_label_statement` (oak-lua parser/mod.rs:252-260). -/
abbrev pParseLabelStatement : Nat := 12
/-- The number of `parse_block` (oak-lua parser/mod.rs:262-268). -/
abbrev pParseBlock : Nat := 13
/-- The number of `parse_table_constructor` (oak-lua parser/mod.rs:270-297). -/
abbrev pParseTableConstructor : Nat := 14
/-- The number of `primary` (oak-lua parser/mod.rs:301-351). -/
abbrev pPrimary : Nat := 15
/-- The number of `prefix` (oak-lua parser/mod.rs:353-363). -/
abbrev pPrefix : Nat := 16
/-- The precedences expressions are parsed with (oak-lua parser/mod.rs:365-433). -/
abbrev levels : List Nat := [0, 2, 3, 4, 5, 6, 7, 8, 10, 11, 12]
/-- The number of `PrattParser::parse` with a precedence (oak-core parser/pratt.rs:237-243): after the other functions. -/
abbrev pPratt (min : Nat) : Nat := 17 + levels.idxOf min

/-- `parse_statement` (oak-lua parser/mod.rs:36-71). -/
def parseStatement : Prog :=
  ite (sees tLocal)
    (call pParseLocalStatement)
    (ite (sees tIf)
      (call pParseIfStatement)
      (ite (sees tWhile)
        (call pParseWhileStatement)
        (ite (sees tFor)
          (call pParseForStatement)
          (ite (sees tRepeat)
            (call pParseRepeatStatement)
            (ite (sees tFunction)
              (call pParseFunctionDeclaration)
              (ite (sees tReturn)
                (call pParseReturnStatement)
                (ite (sees tBreak)
                  (call pParseBreakStatement)
                  (ite (sees tDo)
                    (call pParseDoStatement)
                    (ite (sees tGoto)
                      (call pParseGotoStatement)
                      (ite (sees tColonColon)
                        (call pParseLabelStatement)
                        (block [
                          mark (block [
                            call (pPratt 0),
                            ite (or_ (sees tComma) (sees tEq))
                              (block [
                                loop (eat tComma)
                                  (call (pPratt 0)),
                                expect tEq,
                                call (pPratt 0),
                                loop (eat tComma)
                                  (call (pPratt 0)),
                                close eAssignmentStatement])
                              (close eExpressionStatement)]),
                          eat tSemicolon])))))))))))

/-- `parse_local_statement` (oak-lua parser/mod.rs:73-96). -/
def parseLocalStatement : Prog :=
  mark (block [
    expect tLocal,
    ite (eat tFunction)
      (block [
        expect tIdentifier,
        call pParseFunctionBody])
      (block [
        expect tIdentifier,
        loop (eat tComma)
          (expect tIdentifier),
        when_ (eat tEq)
          (block [
            call (pPratt 0),
            loop (eat tComma)
              (call (pPratt 0))])]),
    eat tSemicolon,
    close eLocalStatement])

/-- `parse_if_statement` (oak-lua parser/mod.rs:98-116). -/
def parseIfStatement : Prog :=
  mark (block [
    expect tIf,
    call (pPratt 0),
    expect tThen,
    call pParseBlock,
    loop (eat tElseif)
      (block [
        call (pPratt 0),
        expect tThen,
        call pParseBlock]),
    when_ (eat tElse)
      (call pParseBlock),
    expect tEnd,
    close eIfStatement])

/-- `parse_while_statement` (oak-lua parser/mod.rs:118-128). -/
def parseWhileStatement : Prog :=
  mark (block [
    expect tWhile,
    call (pPratt 0),
    expect tDo,
    call pParseBlock,
    expect tEnd,
    close eWhileStatement])

/-- `parse_for_statement` (oak-lua parser/mod.rs:130-158). -/
def parseForStatement : Prog :=
  mark (block [
    expect tFor,
    expect tIdentifier,
    ite (eat tEq)
      (block [
        call (pPratt 0),
        expect tComma,
        call (pPratt 0),
        when_ (eat tComma)
          (call (pPratt 0))])
      (block [
        loop (eat tComma)
          (expect tIdentifier),
        expect tIn,
        call (pPratt 0),
        loop (eat tComma)
          (call (pPratt 0))]),
    expect tDo,
    call pParseBlock,
    expect tEnd,
    close eForStatement])

/-- `parse_repeat_statement` (oak-lua parser/mod.rs:160-169). -/
def parseRepeatStatement : Prog :=
  mark (block [
    expect tRepeat,
    call pParseBlock,
    expect tUntil,
    call (pPratt 0),
    close eRepeatStatement])

/-- `parse_function_declaration` (oak-lua parser/mod.rs:171-185). -/
def parseFunctionDeclaration : Prog :=
  mark (block [
    expect tFunction,
    expect tIdentifier,
    loop (eat tDot)
      (expect tIdentifier),
    when_ (eat tColon)
      (expect tIdentifier),
    call pParseFunctionBody,
    close eFunctionDeclaration])

/-- `parse_function_body` (oak-lua parser/mod.rs:187-208). -/
def parseFunctionBody : Prog :=
  block [
    expect tLeftParen,
    when_ (not_ (sees tRightParen))
      (ite (eat tDotDotDot)
        (val true)
        (block [
          expect tIdentifier,
          loop (eat tComma)
            (block [
              when_ (eat tDotDotDot)
                brk,
              expect tIdentifier])])),
    expect tRightParen,
    call pParseBlock,
    expect tEnd]

/-- `parse_return_statement` (oak-lua parser/mod.rs:210-223). -/
def parseReturnStatement : Prog :=
  mark (block [
    expect tReturn,
    when_ (and_ (and_ (and_ (and_ (not_ (sees tEnd)) (not_ (sees tElse))) (not_ (sees tElseif))) (not_ (sees tUntil))) (not_ (sees tSemicolon)))
      (block [
        call (pPratt 0),
        loop (eat tComma)
          (call (pPratt 0))]),
    eat tSemicolon,
    close eReturnStatement])

/-- `parse_break_statement` (oak-lua parser/mod.rs:225-231). -/
def parseBreakStatement : Prog :=
  mark (block [
    expect tBreak,
    close eBreakStatement])

/-- `parse_do_statement` (oak-lua parser/mod.rs:233-241). -/
def parseDoStatement : Prog :=
  mark (block [
    expect tDo,
    call pParseBlock,
    expect tEnd,
    close eDoStatement])

/-- `parse_goto_statement` (oak-lua parser/mod.rs:243-250). -/
def parseGotoStatement : Prog :=
  mark (block [
    expect tGoto,
    expect tIdentifier,
    close eGotoStatement])

/-- `parse_label_statement` (oak-lua parser/mod.rs:252-260). -/
def parseLabelStatement : Prog :=
  mark (block [
    expect tColonColon,
    expect tIdentifier,
    expect tColonColon,
    close eLabelStatement])

/-- `parse_block` (oak-lua parser/mod.rs:262-268). -/
def parseBlock : Prog :=
  loop (and_ (and_ (and_ (and_ more (not_ (sees tEnd))) (not_ (sees tElse))) (not_ (sees tElseif))) (not_ (sees tUntil)))
    (call pParseStatement)

/-- `parse_table_constructor` (oak-lua parser/mod.rs:270-297). -/
def parseTableConstructor : Prog :=
  block [
    mark (block [
      expect tLeftBrace,
      loop (and_ more (not_ (sees tRightBrace)))
        (block [
          mark (block [
            ite (eat tLeftBracket)
              (block [
                call (pPratt 0),
                expect tRightBracket,
                expect tEq,
                call (pPratt 0)])
              (ite (and_ (sees tIdentifier) (ask (fun v => v.solidAt [tWhitespace, tNewline, tComment] 1 == some tEq)))
                (block [
                  bump,
                  expect tEq,
                  call (pPratt 0)])
                (call (pPratt 0))),
            close eTableField]),
          when_ (and_ (not_ (eat tComma)) (not_ (eat tSemicolon)))
            brk]),
      expect tRightBrace,
      close eTableConstructorExpression])]

/-- `primary` (oak-lua parser/mod.rs:301-351). -/
def primary : Prog :=
  mark (ite (seesAny [tNil, tFalse, tTrue, tNumber, tString, tDotDotDot])
    (block [
      bump,
      close eLiteralExpression])
    (ite (sees tIdentifier)
      (block [
        bump,
        close eIdentifierExpression])
      (ite (sees tFunction)
        (block [
          bump,
          catch_ (call pParseFunctionBody),
          close eFunctionExpression])
        (ite (sees tLeftParen)
          (block [
            bump,
            call (pPratt 0),
            expect tRightParen,
            close eParenthesizedExpression])
          (ite (sees tLeftBrace)
            (call pParseTableConstructor)
            (block [
              record 2,
              when_ more
                (ite (seesAny [tRightParen, tRightBrace, tRightBracket, tComma, tSemicolon, tEnd, tElse, tElseif, tUntil])
                  (val true)
                  bump),
              close eError]))))))

/-- `prefix` (oak-lua parser/mod.rs:353-363). -/
def prefix_ : Prog :=
  ite (seesAny [tMinus, tNot, tHash, tTilde])
    (mark (block [
      bump,
      call (pPratt 11),
      close eUnaryExpression]))
    (call pPrimary)

/-- `infix` (oak-lua parser/mod.rs:365-433) with a least precedence. -/
def infix_ (min : Nat) : Prog :=
  ite more
    (ite (sees tOr)
      (level min 1
        (block [
          bump,
          call (pPratt 2),
          close eBinaryExpression]))
      (ite (sees tAnd)
        (level min 2
          (block [
            bump,
            call (pPratt 3),
            close eBinaryExpression]))
        (ite (seesAny [tLt, tGt, tLtEq, tGtEq, tTildeEq, tEqEq])
          (level min 3
            (block [
              bump,
              call (pPratt 4),
              close eBinaryExpression]))
          (ite (sees tPipe)
            (level min 4
              (block [
                bump,
                call (pPratt 5),
                close eBinaryExpression]))
            (ite (sees tTilde)
              (level min 5
                (block [
                  bump,
                  call (pPratt 6),
                  close eBinaryExpression]))
              (ite (sees tAmpersand)
                (level min 6
                  (block [
                    bump,
                    call (pPratt 7),
                    close eBinaryExpression]))
                (ite (seesAny [tLtLt, tGtGt])
                  (level min 7
                    (block [
                      bump,
                      call (pPratt 8),
                      close eBinaryExpression]))
                  (ite (sees tDotDot)
                    (level min 8
                      (block [
                        bump,
                        call (pPratt 8),
                        close eBinaryExpression]))
                    (ite (seesAny [tPlus, tMinus])
                      (level min 9
                        (block [
                          bump,
                          call (pPratt 10),
                          close eBinaryExpression]))
                      (ite (seesAny [tStar, tSlash, tSlashSlash, tPercent])
                        (level min 10
                          (block [
                            bump,
                            call (pPratt 11),
                            close eBinaryExpression]))
                        (ite (sees tCaret)
                          (level min 12
                            (block [
                              bump,
                              call (pPratt 12),
                              close eBinaryExpression]))
                          (ite (seesAny [tDot, tColon, tLeftParen, tLeftBrace, tString, tLeftBracket])
                            (level min 13
                              (ite (sees tDot)
                                (block [
                                  bump,
                                  expect tIdentifier,
                                  close eMemberExpression])
                                (ite (sees tColon)
                                  (block [
                                    bump,
                                    expect tIdentifier,
                                    close eMemberExpression])
                                  (ite (sees tLeftBracket)
                                    (block [
                                      bump,
                                      call (pPratt 0),
                                      expect tRightBracket,
                                      close eIndexExpression])
                                    (block [
                                      ite (eat tLeftParen)
                                        (block [
                                          when_ (not_ (sees tRightParen))
                                            (block [
                                              call (pPratt 0),
                                              loop (eat tComma)
                                                (call (pPratt 0))]),
                                          expect tRightParen])
                                        (ite (sees tLeftBrace)
                                          (call pParseTableConstructor)
                                          (ite (sees tString)
                                            bump
                                            (record 2))),
                                      close eCallExpression])))))
                            (val false)))))))))))))
    (val false)

/-- `PrattParser::parse` (oak-core parser/pratt.rs:237-243): `left` always begins at the checkpoint. -/
def pratt (min : Nat) : Prog :=
  mark (block [call pPrefix, loop (infix_ min) (val true)])

/-- `parse_root_internal` between the checkpoint and the last `finish_at` (oak-lua parser/mod.rs:25-34). -/
def main : Prog :=
  loop more
    (catch_ (call pParseStatement))

/-- The parser (`parse_root_internal`, oak-lua parser/mod.rs:25-34; `is_ignored`, oak-lua lexer/token_type.rs:11-13). -/
def parser : HandParser where
  ign := [tWhitespace, tNewline, tComment]
  fromStart := false
  root := eSourceFile
  main := main
  procs := [parseStatement, parseLocalStatement, parseIfStatement, parseWhileStatement, parseForStatement, parseRepeatStatement, parseFunctionDeclaration, parseFunctionBody, parseReturnStatement, parseBreakStatement, parseDoStatement, parseGotoStatement, parseLabelStatement, parseBlock, parseTableConstructor, primary, prefix_] ++ levels.map pratt

end Oaks.Hand.Lua
