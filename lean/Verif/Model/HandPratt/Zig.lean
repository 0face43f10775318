import Verif.Model.Prog

/-
The parser of `oak-zig` (examples/oak-zig/src/parser) as a program: one definition for every function it calls, in the order of the
source. Kinds are the places of the variants in their enums.
-/
namespace Oaks.Hand.Zig
open Prog

/-- `ZigTokenType::Whitespace` (oak-zig lexer/token_type.rs:31). -/
abbrev tWhitespace : Nat := 1
/-- `ZigTokenType::Newline` (oak-zig lexer/token_type.rs:32). -/
abbrev tNewline : Nat := 2
/-- `ZigTokenType::Comment` (oak-zig lexer/token_type.rs:33). -/
abbrev tComment : Nat := 3
/-- `ZigTokenType::DocComment` (oak-zig lexer/token_type.rs:34). -/
abbrev tDocComment : Nat := 4
/-- `ZigTokenType::Identifier` (oak-zig lexer/token_type.rs:39). -/
abbrev tIdentifier : Nat := 7
/-- `ZigTokenType::StringLiteral` (oak-zig lexer/token_type.rs:40). -/
abbrev tStringLiteral : Nat := 8
/-- `ZigTokenType::CharLiteral` (oak-zig lexer/token_type.rs:41). -/
abbrev tCharLiteral : Nat := 9
/-- `ZigTokenType::IntegerLiteral` (oak-zig lexer/token_type.rs:42). -/
abbrev tIntegerLiteral : Nat := 10
/-- `ZigTokenType::FloatLiteral` (oak-zig lexer/token_type.rs:43). -/
abbrev tFloatLiteral : Nat := 11
/-- `ZigTokenType::BooleanLiteral` (oak-zig lexer/token_type.rs:44). -/
abbrev tBooleanLiteral : Nat := 12
/-- `ZigTokenType::Const` (oak-zig lexer/token_type.rs:47). -/
abbrev tConst : Nat := 13
/-- `ZigTokenType::Var` (oak-zig lexer/token_type.rs:48). -/
abbrev tVar : Nat := 14
/-- `ZigTokenType::Fn` (oak-zig lexer/token_type.rs:49). -/
abbrev tFn : Nat := 15
/-- `ZigTokenType::If` (oak-zig lexer/token_type.rs:67). -/
abbrev tIf : Nat := 31
/-- `ZigTokenType::Else` (oak-zig lexer/token_type.rs:68). -/
abbrev tElse : Nat := 32
/-- `ZigTokenType::While` (oak-zig lexer/token_type.rs:70). -/
abbrev tWhile : Nat := 34
/-- `ZigTokenType::For` (oak-zig lexer/token_type.rs:71). -/
abbrev tFor : Nat := 35
/-- `ZigTokenType::Return` (oak-zig lexer/token_type.rs:74). -/
abbrev tReturn : Nat := 38
/-- `ZigTokenType::Undefined` (oak-zig lexer/token_type.rs:92). -/
abbrev tUndefined : Nat := 50
/-- `ZigTokenType::Null` (oak-zig lexer/token_type.rs:93). -/
abbrev tNull : Nat := 51
/-- `ZigTokenType::And` (oak-zig lexer/token_type.rs:99). -/
abbrev tAnd : Nat := 55
/-- `ZigTokenType::Or` (oak-zig lexer/token_type.rs:100). -/
abbrev tOr : Nat := 56
/-- `ZigTokenType::Plus` (oak-zig lexer/token_type.rs:139). -/
abbrev tPlus : Nat := 91
/-- `ZigTokenType::Minus` (oak-zig lexer/token_type.rs:140). -/
abbrev tMinus : Nat := 92
/-- `ZigTokenType::Star` (oak-zig lexer/token_type.rs:141). -/
abbrev tStar : Nat := 93
/-- `ZigTokenType::Slash` (oak-zig lexer/token_type.rs:142). -/
abbrev tSlash : Nat := 94
/-- `ZigTokenType::Percent` (oak-zig lexer/token_type.rs:143). -/
abbrev tPercent : Nat := 95
/-- `ZigTokenType::StarStar` (oak-zig lexer/token_type.rs:144). -/
abbrev tStarStar : Nat := 96
/-- `ZigTokenType::PlusPercent` (oak-zig lexer/token_type.rs:145). -/
abbrev tPlusPercent : Nat := 97
/-- `ZigTokenType::MinusPercent` (oak-zig lexer/token_type.rs:146). -/
abbrev tMinusPercent : Nat := 98
/-- `ZigTokenType::StarPercent` (oak-zig lexer/token_type.rs:147). -/
abbrev tStarPercent : Nat := 99
/-- `ZigTokenType::PlusPlus` (oak-zig lexer/token_type.rs:148). -/
abbrev tPlusPlus : Nat := 100
/-- `ZigTokenType::Ampersand` (oak-zig lexer/token_type.rs:152). -/
abbrev tAmpersand : Nat := 102
/-- `ZigTokenType::Tilde` (oak-zig lexer/token_type.rs:155). -/
abbrev tTilde : Nat := 105
/-- `ZigTokenType::Equal` (oak-zig lexer/token_type.rs:160). -/
abbrev tEqual : Nat := 108
/-- `ZigTokenType::NotEqual` (oak-zig lexer/token_type.rs:161). -/
abbrev tNotEqual : Nat := 109
/-- `ZigTokenType::Less` (oak-zig lexer/token_type.rs:162). -/
abbrev tLess : Nat := 110
/-- `ZigTokenType::Greater` (oak-zig lexer/token_type.rs:163). -/
abbrev tGreater : Nat := 111
/-- `ZigTokenType::LessEqual` (oak-zig lexer/token_type.rs:164). -/
abbrev tLessEqual : Nat := 112
/-- `ZigTokenType::GreaterEqual` (oak-zig lexer/token_type.rs:165). -/
abbrev tGreaterEqual : Nat := 113
/-- `ZigTokenType::AndAnd` (oak-zig lexer/token_type.rs:168). -/
abbrev tAndAnd : Nat := 114
/-- `ZigTokenType::OrOr` (oak-zig lexer/token_type.rs:169). -/
abbrev tOrOr : Nat := 115
/-- `ZigTokenType::Assign` (oak-zig lexer/token_type.rs:172). -/
abbrev tAssign : Nat := 116
/-- `ZigTokenType::PlusAssign` (oak-zig lexer/token_type.rs:173). -/
abbrev tPlusAssign : Nat := 117
/-- `ZigTokenType::MinusAssign` (oak-zig lexer/token_type.rs:174). -/
abbrev tMinusAssign : Nat := 118
/-- `ZigTokenType::StarAssign` (oak-zig lexer/token_type.rs:175). -/
abbrev tStarAssign : Nat := 119
/-- `ZigTokenType::SlashAssign` (oak-zig lexer/token_type.rs:176). -/
abbrev tSlashAssign : Nat := 120
/-- `ZigTokenType::PercentAssign` (oak-zig lexer/token_type.rs:177). -/
abbrev tPercentAssign : Nat := 121
/-- `ZigTokenType::AmpersandAssign` (oak-zig lexer/token_type.rs:178). -/
abbrev tAmpersandAssign : Nat := 122
/-- `ZigTokenType::PipeAssign` (oak-zig lexer/token_type.rs:179). -/
abbrev tPipeAssign : Nat := 123
/-- `ZigTokenType::CaretAssign` (oak-zig lexer/token_type.rs:180). -/
abbrev tCaretAssign : Nat := 124
/-- `ZigTokenType::LessLessAssign` (oak-zig lexer/token_type.rs:181). -/
abbrev tLessLessAssign : Nat := 125
/-- `ZigTokenType::GreaterGreaterAssign` (oak-zig lexer/token_type.rs:182). -/
abbrev tGreaterGreaterAssign : Nat := 126
/-- `ZigTokenType::LeftParen` (oak-zig lexer/token_type.rs:185). -/
abbrev tLeftParen : Nat := 127
/-- `ZigTokenType::RightParen` (oak-zig lexer/token_type.rs:186). -/
abbrev tRightParen : Nat := 128
/-- `ZigTokenType::LeftBrace` (oak-zig lexer/token_type.rs:187). -/
abbrev tLeftBrace : Nat := 129
/-- `ZigTokenType::RightBrace` (oak-zig lexer/token_type.rs:188). -/
abbrev tRightBrace : Nat := 130
/-- `ZigTokenType::LeftBracket` (oak-zig lexer/token_type.rs:189). -/
abbrev tLeftBracket : Nat := 131
/-- `ZigTokenType::RightBracket` (oak-zig lexer/token_type.rs:190). -/
abbrev tRightBracket : Nat := 132
/-- `ZigTokenType::Semicolon` (oak-zig lexer/token_type.rs:191). -/
abbrev tSemicolon : Nat := 133
/-- `ZigTokenType::Comma` (oak-zig lexer/token_type.rs:192). -/
abbrev tComma : Nat := 134
/-- `ZigTokenType::Dot` (oak-zig lexer/token_type.rs:193). -/
abbrev tDot : Nat := 135
/-- `ZigTokenType::Colon` (oak-zig lexer/token_type.rs:198). -/
abbrev tColon : Nat := 140
/-- `ZigTokenType::Exclamation` (oak-zig lexer/token_type.rs:200). -/
abbrev tExclamation : Nat := 142
/-- `ZigTokenType::OrElse` (oak-zig lexer/token_type.rs:205). -/
abbrev tOrElse : Nat := 145
/-- `ZigTokenType::CatchKeyword` (oak-zig lexer/token_type.rs:206). -/
abbrev tCatchKeyword : Nat := 146
/-- `ZigTokenType::TryKeyword` (oak-zig lexer/token_type.rs:207). -/
abbrev tTryKeyword : Nat := 147
/-- `ZigTokenType::AwaitKeyword` (oak-zig lexer/token_type.rs:208). -/
abbrev tAwaitKeyword : Nat := 148
/-- `ZigElementType::Root` (oak-zig parser/element_type.rs:8). -/
abbrev eRoot : Nat := 0
/-- `ZigElementType::Error` (oak-zig parser/element_type.rs:14). -/
abbrev eError : Nat := 5
/-- `ZigElementType::Identifier` (oak-zig parser/element_type.rs:18). -/
abbrev eIdentifier : Nat := 7
/-- `ZigElementType::Literal` (oak-zig parser/element_type.rs:24). -/
abbrev eLiteral : Nat := 13
/-- `ZigElementType::FnDeclaration` (oak-zig parser/element_type.rs:201). -/
abbrev eFnDeclaration : Nat := 162
/-- `ZigElementType::VarDeclaration` (oak-zig parser/element_type.rs:202). -/
abbrev eVarDeclaration : Nat := 163
/-- `ZigElementType::IfStatement` (oak-zig parser/element_type.rs:206). -/
abbrev eIfStatement : Nat := 167
/-- `ZigElementType::WhileStatement` (oak-zig parser/element_type.rs:207). -/
abbrev eWhileStatement : Nat := 168
/-- `ZigElementType::ForStatement` (oak-zig parser/element_type.rs:208). -/
abbrev eForStatement : Nat := 169
/-- `ZigElementType::ReturnStatement` (oak-zig parser/element_type.rs:209). -/
abbrev eReturnStatement : Nat := 170
/-- `ZigElementType::Block` (oak-zig parser/element_type.rs:210). -/
abbrev eBlock : Nat := 171
/-- `ZigElementType::BinaryExpr` (oak-zig parser/element_type.rs:211). -/
abbrev eBinaryExpr : Nat := 172
/-- `ZigElementType::UnaryExpr` (oak-zig parser/element_type.rs:212). -/
abbrev eUnaryExpr : Nat := 173

/-- The number of `primary` (oak-zig parser/mod.rs:30-52). -/
abbrev pPrimary : Nat := 0
/-- The number of `prefix` (oak-zig parser/mod.rs:54-67). -/
abbrev pPrefix : Nat := 1
/-- The number of `parse_statement` (oak-zig parser/mod.rs:150-165). -/
abbrev pParseStatement : Nat := 2
/-- The number of `parse_function_declaration` (oak-zig parser/mod.rs:167-182). -/
abbrev pParseFunctionDeclaration : Nat := 3
/-- The number of `parse_variable_declaration` (oak-zig parser/mod.rs:184-199). -/
abbrev pParseVariableDeclaration : Nat := 4
/-- The number of `parse_if_statement` (oak-zig parser/mod.rs:201-213). -/
abbrev pParseIfStatement : Nat := 5
/-- The number of `parse_while_statement` (oak-zig parser/mod.rs:215-224). -/
abbrev pParseWhileStatement : Nat := 6
/-- The number of `parse_for_statement` (oak-zig parser/mod.rs:226-235). -/
abbrev pParseForStatement : Nat := 7
/-- The number of `parse_return_statement` (oak-zig parser/mod.rs:237-246). -/
abbrev pParseReturnStatement : Nat := 8
/-- The number of `parse_block` (oak-zig parser/mod.rs:248-257). -/
abbrev pParseBlock : Nat := 9
/-- The precedences expressions are parsed with (oak-zig parser/mod.rs:69-129). -/
abbrev levels : List Nat := [0, 1, 3, 4, 5, 6, 7, 12]
/-- The number of `PrattParser::parse` with a precedence (oak-core parser/pratt.rs:237-243): after the other functions. -/
abbrev pPratt (min : Nat) : Nat := 10 + levels.idxOf min

/-- `primary` (oak-zig parser/mod.rs:30-52). -/
def primary : Prog :=
  mark (ite (sees tIdentifier)
    (block [
      bump,
      close eIdentifier])
    (ite (seesAny [tIntegerLiteral, tFloatLiteral, tStringLiteral, tCharLiteral, tBooleanLiteral, tNull, tUndefined])
      (block [
        bump,
        close eLiteral])
      (ite (sees tLeftParen)
        (block [
          bump,
          call (pPratt 0),
          expect tRightParen,
          close eRoot])
        (block [
          bump,
          close eError]))))

/-- `prefix` (oak-zig parser/mod.rs:54-67). -/
def prefix_ : Prog :=
  ite more
    (ite (seesAny [tMinus, tTilde, tExclamation, tAmpersand, tTryKeyword, tAwaitKeyword])
      (mark (block [
        bump,
        call (pPratt 12),
        close eUnaryExpr]))
      (call pPrimary))
    (call pPrimary)

/-- `parse_statement` (oak-zig parser/mod.rs:150-165). -/
def parseStatement : Prog :=
  ite (sees tFn)
    (call pParseFunctionDeclaration)
    (ite (seesAny [tConst, tVar])
      (call pParseVariableDeclaration)
      (ite (sees tIf)
        (call pParseIfStatement)
        (ite (sees tWhile)
          (call pParseWhileStatement)
          (ite (sees tFor)
            (call pParseForStatement)
            (ite (sees tReturn)
              (call pParseReturnStatement)
              (ite (sees tLeftBrace)
                (call pParseBlock)
                (block [
                  call (pPratt 0),
                  eat tSemicolon])))))))

/-- `parse_function_declaration` (oak-zig parser/mod.rs:167-182). -/
def parseFunctionDeclaration : Prog :=
  mark (block [
    expect tFn,
    expect tIdentifier,
    expect tLeftParen,
    loop (and_ more (not_ (sees tRightParen)))
      advance,
    expect tRightParen,
    loop (and_ more (not_ (sees tLeftBrace)))
      bump,
    call pParseBlock,
    close eFnDeclaration])

/-- `parse_variable_declaration` (oak-zig parser/mod.rs:184-199). -/
def parseVariableDeclaration : Prog :=
  mark (block [
    bump,
    expect tIdentifier,
    when_ (eat tColon)
      (loop (and_ (and_ more (not_ (sees tAssign))) (not_ (sees tSemicolon)))
        bump),
    when_ (eat tAssign)
      (call (pPratt 0)),
    eat tSemicolon,
    close eVarDeclaration])

/-- `parse_if_statement` (oak-zig parser/mod.rs:201-213). -/
def parseIfStatement : Prog :=
  mark (block [
    expect tIf,
    expect tLeftParen,
    call (pPratt 0),
    expect tRightParen,
    call pParseStatement,
    when_ (eat tElse)
      (call pParseStatement),
    close eIfStatement])

/-- `parse_while_statement` (oak-zig parser/mod.rs:215-224). -/
def parseWhileStatement : Prog :=
  mark (block [
    expect tWhile,
    expect tLeftParen,
    call (pPratt 0),
    expect tRightParen,
    call pParseStatement,
    close eWhileStatement])

/-- `parse_for_statement` (oak-zig parser/mod.rs:226-235). -/
def parseForStatement : Prog :=
  mark (block [
    expect tFor,
    expect tLeftParen,
    call (pPratt 0),
    expect tRightParen,
    call pParseStatement,
    close eForStatement])

/-- `parse_return_statement` (oak-zig parser/mod.rs:237-246). -/
def parseReturnStatement : Prog :=
  mark (block [
    expect tReturn,
    when_ (not_ (sees tSemicolon))
      (call (pPratt 0)),
    eat tSemicolon,
    close eReturnStatement])

/-- `parse_block` (oak-zig parser/mod.rs:248-257). -/
def parseBlock : Prog :=
  mark (block [
    expect tLeftBrace,
    loop (and_ more (not_ (sees tRightBrace)))
      (call pParseStatement),
    expect tRightBrace,
    close eBlock])

/-- `infix` (oak-zig parser/mod.rs:69-129) with a least precedence. -/
def infix_ (min : Nat) : Prog :=
  ite more
    (ite (seesAny [tAssign, tPlusAssign, tMinusAssign, tStarAssign, tSlashAssign, tPercentAssign, tAmpersandAssign, tPipeAssign, tCaretAssign, tLessLessAssign, tGreaterGreaterAssign])
      (level min 1
        (mark (block [
          back,
          bump,
          call (pPratt 1),
          close eBinaryExpr])))
      (ite (seesAny [tOr, tOrOr])
        (level min 2
          (mark (block [
            back,
            bump,
            call (pPratt 3),
            close eBinaryExpr])))
        (ite (seesAny [tAnd, tAndAnd])
          (level min 3
            (mark (block [
              back,
              bump,
              call (pPratt 4),
              close eBinaryExpr])))
          (ite (seesAny [tEqual, tNotEqual, tLess, tGreater, tLessEqual, tGreaterEqual])
            (level min 4
              (mark (block [
                back,
                bump,
                call (pPratt 5),
                close eBinaryExpr])))
            (ite (seesAny [tPlus, tMinus, tPlusPercent, tMinusPercent, tPlusPlus])
              (level min 5
                (mark (block [
                  back,
                  bump,
                  call (pPratt 6),
                  close eBinaryExpr])))
              (ite (seesAny [tStar, tSlash, tPercent, tStarPercent, tStarStar])
                (level min 6
                  (mark (block [
                    back,
                    bump,
                    call (pPratt 7),
                    close eBinaryExpr])))
                (ite (seesAny [tCatchKeyword, tOrElse])
                  (level min 7
                    (mark (block [
                      back,
                      bump,
                      call (pPratt 7),
                      close eBinaryExpr])))
                  (ite (seesAny [tDot, tLeftParen, tLeftBracket])
                    (level min 10
                      (ite (sees tDot)
                        (block [
                          mark (block [
                            again,
                            bump,
                            expect tIdentifier,
                            close eRoot])])
                        (ite (sees tLeftParen)
                          (block [
                            mark (block [
                              again,
                              bump,
                              loop (and_ more (not_ (sees tRightParen)))
                                (block [
                                  call (pPratt 0),
                                  when_ (not_ (eat tComma))
                                    brk]),
                              expect tRightParen,
                              close eRoot])])
                          (block [
                            mark (block [
                              again,
                              bump,
                              call (pPratt 0),
                              expect tRightBracket,
                              close eRoot])]))))
                    (val false)))))))))
    (val false)

/-- `PrattParser::parse` (oak-core parser/pratt.rs:237-243). -/
def pratt (min : Nat) : Prog :=
  block [call pPrefix, loop (infix_ min) (val true)]

/-- `parse_root_internal` between the checkpoint and the last `finish_at` (oak-zig parser/mod.rs:140-148). -/
def main : Prog :=
  loop more
    (call pParseStatement)

/-- The parser (`parse_root_internal`, oak-zig parser/mod.rs:140-148; `is_ignored`, oak-zig lexer/token_type.rs:11-13). -/
def parser : HandParser where
  ign := [tWhitespace, tNewline, tComment, tDocComment]
  fromStart := false
  root := eRoot
  main := main
  procs := [primary, prefix_, parseStatement, parseFunctionDeclaration, parseVariableDeclaration, parseIfStatement, parseWhileStatement, parseForStatement, parseReturnStatement, parseBlock] ++ levels.map pratt

end Oaks.Hand.Zig
