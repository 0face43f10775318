import Verif.Model.Prog

/-
The parser of `oak-mojo` (examples/oak-mojo/src/parser) as a program: one definition for every function it calls, in the order of the
source. Kinds are the places of the variants in their enums.
-/
namespace Oaks.Hand.Mojo
open Prog

/-- `MojoTokenType::Fn` (oak-mojo lexer/token_type.rs:9). -/
abbrev tFn : Nat := 0
/-- `MojoTokenType::Var` (oak-mojo lexer/token_type.rs:11). -/
abbrev tVar : Nat := 2
/-- `MojoTokenType::Let` (oak-mojo lexer/token_type.rs:12). -/
abbrev tLet : Nat := 3
/-- `MojoTokenType::If` (oak-mojo lexer/token_type.rs:13). -/
abbrev tIf : Nat := 4
/-- `MojoTokenType::Else` (oak-mojo lexer/token_type.rs:14). -/
abbrev tElse : Nat := 5
/-- `MojoTokenType::While` (oak-mojo lexer/token_type.rs:15). -/
abbrev tWhile : Nat := 6
/-- `MojoTokenType::Return` (oak-mojo lexer/token_type.rs:18). -/
abbrev tReturn : Nat := 9
/-- `MojoTokenType::Identifier` (oak-mojo lexer/token_type.rs:28). -/
abbrev tIdentifier : Nat := 17
/-- `MojoTokenType::Integer` (oak-mojo lexer/token_type.rs:29). -/
abbrev tInteger : Nat := 18
/-- `MojoTokenType::Float` (oak-mojo lexer/token_type.rs:30). -/
abbrev tFloat : Nat := 19
/-- `MojoTokenType::String` (oak-mojo lexer/token_type.rs:31). -/
abbrev tString : Nat := 20
/-- `MojoTokenType::Plus` (oak-mojo lexer/token_type.rs:34). -/
abbrev tPlus : Nat := 21
/-- `MojoTokenType::Minus` (oak-mojo lexer/token_type.rs:35). -/
abbrev tMinus : Nat := 22
/-- `MojoTokenType::Star` (oak-mojo lexer/token_type.rs:36). -/
abbrev tStar : Nat := 23
/-- `MojoTokenType::Slash` (oak-mojo lexer/token_type.rs:37). -/
abbrev tSlash : Nat := 24
/-- `MojoTokenType::Percent` (oak-mojo lexer/token_type.rs:38). -/
abbrev tPercent : Nat := 25
/-- `MojoTokenType::Equal` (oak-mojo lexer/token_type.rs:39). -/
abbrev tEqual : Nat := 26
/-- `MojoTokenType::EqualEqual` (oak-mojo lexer/token_type.rs:40). -/
abbrev tEqualEqual : Nat := 27
/-- `MojoTokenType::NotEqual` (oak-mojo lexer/token_type.rs:41). -/
abbrev tNotEqual : Nat := 28
/-- `MojoTokenType::Less` (oak-mojo lexer/token_type.rs:42). -/
abbrev tLess : Nat := 29
/-- `MojoTokenType::LessEqual` (oak-mojo lexer/token_type.rs:43). -/
abbrev tLessEqual : Nat := 30
/-- `MojoTokenType::Greater` (oak-mojo lexer/token_type.rs:44). -/
abbrev tGreater : Nat := 31
/-- `MojoTokenType::GreaterEqual` (oak-mojo lexer/token_type.rs:45). -/
abbrev tGreaterEqual : Nat := 32
/-- `MojoTokenType::LeftParen` (oak-mojo lexer/token_type.rs:49). -/
abbrev tLeftParen : Nat := 36
/-- `MojoTokenType::RightParen` (oak-mojo lexer/token_type.rs:50). -/
abbrev tRightParen : Nat := 37
/-- `MojoTokenType::Colon` (oak-mojo lexer/token_type.rs:57). -/
abbrev tColon : Nat := 44
/-- `MojoTokenType::Arrow` (oak-mojo lexer/token_type.rs:59). -/
abbrev tArrow : Nat := 46
/-- `MojoTokenType::Whitespace` (oak-mojo lexer/token_type.rs:62). -/
abbrev tWhitespace : Nat := 47
/-- `MojoTokenType::Newline` (oak-mojo lexer/token_type.rs:63). -/
abbrev tNewline : Nat := 48
/-- `MojoTokenType::Comment` (oak-mojo lexer/token_type.rs:64). -/
abbrev tComment : Nat := 49
/-- `MojoTokenType::Indent` (oak-mojo lexer/token_type.rs:65). -/
abbrev tIndent : Nat := 50
/-- `MojoTokenType::Dedent` (oak-mojo lexer/token_type.rs:66). -/
abbrev tDedent : Nat := 51
/-- `MojoTokenType::EndOfStream` (oak-mojo lexer/token_type.rs:69). -/
abbrev tEndOfStream : Nat := 52
/-- `MojoElementType::FunctionDef` (oak-mojo parser/element_type.rs:65). -/
abbrev eFunctionDef : Nat := 53
/-- `MojoElementType::VariableDecl` (oak-mojo parser/element_type.rs:67). -/
abbrev eVariableDecl : Nat := 55
/-- `MojoElementType::IfStatement` (oak-mojo parser/element_type.rs:69). -/
abbrev eIfStatement : Nat := 57
/-- `MojoElementType::WhileStatement` (oak-mojo parser/element_type.rs:70). -/
abbrev eWhileStatement : Nat := 58
/-- `MojoElementType::ReturnStatement` (oak-mojo parser/element_type.rs:72). -/
abbrev eReturnStatement : Nat := 60
/-- `MojoElementType::ExpressionStatement` (oak-mojo parser/element_type.rs:73). -/
abbrev eExpressionStatement : Nat := 61
/-- `MojoElementType::BinaryExpr` (oak-mojo parser/element_type.rs:76). -/
abbrev eBinaryExpr : Nat := 62
/-- `MojoElementType::LiteralExpr` (oak-mojo parser/element_type.rs:79). -/
abbrev eLiteralExpr : Nat := 65
/-- `MojoElementType::IdentifierExpr` (oak-mojo parser/element_type.rs:80). -/
abbrev eIdentifierExpr : Nat := 66
/-- `MojoElementType::Block` (oak-mojo parser/element_type.rs:87). -/
abbrev eBlock : Nat := 71
/-- `MojoElementType::Root` (oak-mojo parser/element_type.rs:90). -/
abbrev eRoot : Nat := 72
/-- `MojoElementType::Grouping` (oak-mojo parser/element_type.rs:91). -/
abbrev eGrouping : Nat := 73
/-- `MojoElementType::Error` (oak-mojo parser/element_type.rs:92). -/
abbrev eError : Nat := 74

/-- The number of `skip_trivia` (oak-mojo parser/mod.rs:53-63). -/
abbrev pSkipTrivia : Nat := 0
/-- The number of `parse_statement` (oak-mojo parser/mod.rs:65-85). -/
abbrev pParseStatement : Nat := 1
/-- The number of `parse_function_def` (oak-mojo parser/mod.rs:87-105). -/
abbrev pParseFunctionDef : Nat := 2
/-- The number of `parse_variable_decl` (oak-mojo parser/mod.rs:107-130). -/
abbrev pParseVariableDecl : Nat := 3
/-- The number of `parse_if_stmt` (oak-mojo parser/mod.rs:132-153). -/
abbrev pParseIfStmt : Nat := 4
/-- The number of `parse_while_stmt` (oak-mojo parser/mod.rs:155-164). -/
abbrev pParseWhileStmt : Nat := 5
/-- The number of `parse_return_stmt` (oak-mojo parser/mod.rs:166-176). -/
abbrev pParseReturnStmt : Nat := 6
/-- The number of `parse_expression_stmt` (oak-mojo parser/mod.rs:178-184). -/
abbrev pParseExpressionStmt : Nat := 7
/-- The number of `parse_block` (oak-mojo parser/mod.rs:186-207). -/
abbrev pParseBlock : Nat := 8
/-- The number of `parse_expression(0)` (oak-mojo parser/mod.rs:209-211). -/
abbrev pParseExpression0 : Nat := 9
/-- The number of `parse_expression(11)` (oak-mojo parser/mod.rs:209-211). -/
abbrev pParseExpression11 : Nat := 10
/-- The number of `parse_expression(21)` (oak-mojo parser/mod.rs:209-211). -/
abbrev pParseExpression21 : Nat := 11
/-- The number of `parse_expression(6)` (oak-mojo parser/mod.rs:209-211). -/
abbrev pParseExpression6 : Nat := 12
/-- The number of `primary` (oak-mojo parser/mod.rs:215-236). -/
abbrev pPrimary : Nat := 13
/-- The number of `prefix` (oak-mojo parser/mod.rs:238-240). -/
abbrev pPrefix : Nat := 14
/-- The precedences expressions are parsed with (oak-mojo parser/mod.rs:242-261). -/
abbrev levels : List Nat := [0, 6, 11, 21]
/-- The number of `PrattParser::parse` with a precedence (oak-core parser/pratt.rs:237-243): after the other functions. -/
abbrev pPratt (min : Nat) : Nat := 15 + levels.idxOf min

/-- `skip_trivia` (oak-mojo parser/mod.rs:53-63). -/
def skipTrivia : Prog :=
  loop more
    (block [
      when_ more
        (when_ (or_ (sees tWhitespace) (sees tComment))
          (block [
            bump,
            cont])),
      brk])

/-- `parse_statement` (oak-mojo parser/mod.rs:65-85). -/
def parseStatement : Prog :=
  block [
    call pSkipTrivia,
    ite (sees tFn)
      (call pParseFunctionDef)
      (ite (or_ (sees tVar) (sees tLet))
        (call pParseVariableDecl)
        (ite (sees tIf)
          (call pParseIfStmt)
          (ite (sees tWhile)
            (call pParseWhileStmt)
            (ite (sees tReturn)
              (call pParseReturnStmt)
              (call pParseExpressionStmt)))))]

/-- `parse_function_def` (oak-mojo parser/mod.rs:87-105). -/
def parseFunctionDef : Prog :=
  within eFunctionDef (block [
    need tFn,
    call pSkipTrivia,
    need tIdentifier,
    call pSkipTrivia,
    need tLeftParen,
    need tRightParen,
    call pSkipTrivia,
    when_ (eat tArrow)
      (block [
        call pSkipTrivia,
        need tIdentifier,
        call pSkipTrivia]),
    need tColon,
    call pParseBlock])

/-- `parse_variable_decl` (oak-mojo parser/mod.rs:107-130). -/
def parseVariableDecl : Prog :=
  within eVariableDecl (block [
    ite (sees tVar)
      bump
      (need tLet),
    call pSkipTrivia,
    need tIdentifier,
    call pSkipTrivia,
    when_ (eat tColon)
      (block [
        call pSkipTrivia,
        need tIdentifier,
        call pSkipTrivia]),
    when_ (eat tEqual)
      (block [
        call pSkipTrivia,
        call pParseExpression0]),
    eat tNewline])

/-- `parse_if_stmt` (oak-mojo parser/mod.rs:132-153). -/
def parseIfStmt : Prog :=
  within eIfStatement (block [
    need tIf,
    call pSkipTrivia,
    call pParseExpression0,
    call pSkipTrivia,
    need tColon,
    call pParseBlock,
    call pSkipTrivia,
    when_ (eat tElse)
      (block [
        call pSkipTrivia,
        ite (sees tIf)
          (call pParseIfStmt)
          (block [
            need tColon,
            call pParseBlock])])])

/-- `parse_while_stmt` (oak-mojo parser/mod.rs:155-164). -/
def parseWhileStmt : Prog :=
  within eWhileStatement (block [
    need tWhile,
    call pSkipTrivia,
    call pParseExpression0,
    call pSkipTrivia,
    need tColon,
    call pParseBlock])

/-- `parse_return_stmt` (oak-mojo parser/mod.rs:166-176). -/
def parseReturnStmt : Prog :=
  within eReturnStatement (block [
    need tReturn,
    call pSkipTrivia,
    when_ (and_ (not_ (sees tNewline)) (not_ (sees tEndOfStream)))
      (call pParseExpression0),
    eat tNewline])

/-- `parse_expression_stmt` (oak-mojo parser/mod.rs:178-184). -/
def parseExpressionStmt : Prog :=
  within eExpressionStatement (block [
    call pParseExpression0,
    eat tNewline])

/-- `parse_block` (oak-mojo parser/mod.rs:186-207). -/
def parseBlock : Prog :=
  within eBlock (block [
    call pSkipTrivia,
    need tNewline,
    loop (eat tNewline)
      (call pSkipTrivia),
    need tIndent,
    loop (and_ more (not_ (sees tDedent)))
      (block [
        call pSkipTrivia,
        when_ (eat tNewline)
          cont,
        call pParseStatement]),
    need tDedent])

/-- `parse_expression(0)` (oak-mojo parser/mod.rs:209-211). -/
def parseExpression0 : Prog :=
  call (pPratt 0)

/-- `parse_expression(11)` (oak-mojo parser/mod.rs:209-211). -/
def parseExpression11 : Prog :=
  call (pPratt 11)

/-- `parse_expression(21)` (oak-mojo parser/mod.rs:209-211). -/
def parseExpression21 : Prog :=
  call (pPratt 21)

/-- `parse_expression(6)` (oak-mojo parser/mod.rs:209-211). -/
def parseExpression6 : Prog :=
  call (pPratt 6)

/-- `primary` (oak-mojo parser/mod.rs:215-236). -/
def primary : Prog :=
  block [
    call pSkipTrivia,
    mark (ite (sees tIdentifier)
      (block [
        bump,
        close eIdentifierExpr])
      (ite (or_ (or_ (sees tInteger) (sees tFloat)) (sees tString))
        (block [
          bump,
          close eLiteralExpr])
        (ite (sees tLeftParen)
          (block [
            bump,
            call pParseExpression0,
            expect tRightParen,
            close eGrouping])
          (block [
            bump,
            close eError]))))]

/-- `prefix` (oak-mojo parser/mod.rs:238-240). -/
def prefix_ : Prog :=
  call pPrimary

/-- `infix` (oak-mojo parser/mod.rs:242-261) with a least precedence. -/
def infix_ (min : Nat) : Prog :=
  block [
    call pSkipTrivia,
    ite more
      (ite (seesAny [tPlus, tMinus])
        (level min 10
          (block [
            bump,
            call pParseExpression11,
            close eBinaryExpr]))
        (ite (seesAny [tStar, tSlash, tPercent])
          (level min 20
            (block [
              bump,
              call pParseExpression21,
              close eBinaryExpr]))
          (ite (seesAny [tEqualEqual, tNotEqual, tLess, tLessEqual, tGreater, tGreaterEqual])
            (level min 5
              (block [
                bump,
                call pParseExpression6,
                close eBinaryExpr]))
            (val false))))
      (val false)]

/-- `PrattParser::parse` (oak-core parser/pratt.rs:237-243): `left` always begins at the checkpoint. -/
def pratt (min : Nat) : Prog :=
  mark (block [call pPrefix, loop (infix_ min) (val true)])

/-- `parse_root` between the checkpoint and the last `finish_at` (oak-mojo parser/mod.rs:37-51). -/
def main : Prog :=
  loop more
    (block [
      call pSkipTrivia,
      when_ (not_ more)
        brk,
      when_ (sees tNewline)
        (block [
          bump,
          cont]),
      call pParseStatement])

/-- The parser (`parse_root`, oak-mojo parser/mod.rs:37-51; `is_ignored`, oak-mojo lexer/token_type.rs:129-129, oak-core language/mod.rs:298-300). -/
def parser : HandParser where
  ign := [tWhitespace, tNewline, tComment, tIndent, tDedent]
  fromStart := false
  root := eRoot
  main := main
  procs := [skipTrivia, parseStatement, parseFunctionDef, parseVariableDecl, parseIfStmt, parseWhileStmt, parseReturnStmt, parseExpressionStmt, parseBlock, parseExpression0, parseExpression11, parseExpression21, parseExpression6, primary, prefix_] ++ levels.map pratt

end Oaks.Hand.Mojo
