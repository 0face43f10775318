import Verif.Model.Prog

/-
The parser of `oak-ruby` (examples/oak-ruby/src/parser) as a program: one definition for every function it calls, in the order of the
source. Kinds are the places of the variants in their enums.
-/
namespace Oaks.Hand.Ruby
open Prog

/-- `RubyTokenType::Identifier` (oak-ruby lexer/token_type.rs:12). -/
abbrev tIdentifier : Nat := 0
/-- `RubyTokenType::GlobalVariable` (oak-ruby lexer/token_type.rs:13). -/
abbrev tGlobalVariable : Nat := 1
/-- `RubyTokenType::InstanceVariable` (oak-ruby lexer/token_type.rs:14). -/
abbrev tInstanceVariable : Nat := 2
/-- `RubyTokenType::ClassVariable` (oak-ruby lexer/token_type.rs:15). -/
abbrev tClassVariable : Nat := 3
/-- `RubyTokenType::Constant` (oak-ruby lexer/token_type.rs:16). -/
abbrev tConstant : Nat := 4
/-- `RubyTokenType::IntegerLiteral` (oak-ruby lexer/token_type.rs:17). -/
abbrev tIntegerLiteral : Nat := 5
/-- `RubyTokenType::FloatLiteral` (oak-ruby lexer/token_type.rs:18). -/
abbrev tFloatLiteral : Nat := 6
/-- `RubyTokenType::StringLiteral` (oak-ruby lexer/token_type.rs:19). -/
abbrev tStringLiteral : Nat := 7
/-- `RubyTokenType::If` (oak-ruby lexer/token_type.rs:24). -/
abbrev tIf : Nat := 11
/-- `RubyTokenType::Elsif` (oak-ruby lexer/token_type.rs:26). -/
abbrev tElsif : Nat := 13
/-- `RubyTokenType::Else` (oak-ruby lexer/token_type.rs:27). -/
abbrev tElse : Nat := 14
/-- `RubyTokenType::While` (oak-ruby lexer/token_type.rs:32). -/
abbrev tWhile : Nat := 19
/-- `RubyTokenType::Return` (oak-ruby lexer/token_type.rs:38). -/
abbrev tReturn : Nat := 25
/-- `RubyTokenType::Def` (oak-ruby lexer/token_type.rs:40). -/
abbrev tDef : Nat := 27
/-- `RubyTokenType::Class` (oak-ruby lexer/token_type.rs:41). -/
abbrev tClass : Nat := 28
/-- `RubyTokenType::Module` (oak-ruby lexer/token_type.rs:42). -/
abbrev tModule : Nat := 29
/-- `RubyTokenType::End` (oak-ruby lexer/token_type.rs:43). -/
abbrev tEnd : Nat := 30
/-- `RubyTokenType::Rescue` (oak-ruby lexer/token_type.rs:47). -/
abbrev tRescue : Nat := 34
/-- `RubyTokenType::Ensure` (oak-ruby lexer/token_type.rs:48). -/
abbrev tEnsure : Nat := 35
/-- `RubyTokenType::Not` (oak-ruby lexer/token_type.rs:57). -/
abbrev tNot : Nat := 44
/-- `RubyTokenType::True` (oak-ruby lexer/token_type.rs:59). -/
abbrev tTrue : Nat := 46
/-- `RubyTokenType::False` (oak-ruby lexer/token_type.rs:60). -/
abbrev tFalse : Nat := 47
/-- `RubyTokenType::Nil` (oak-ruby lexer/token_type.rs:61). -/
abbrev tNil : Nat := 48
/-- `RubyTokenType::Self_` (oak-ruby lexer/token_type.rs:63). -/
abbrev tSelf_ : Nat := 50
/-- `RubyTokenType::Plus` (oak-ruby lexer/token_type.rs:69). -/
abbrev tPlus : Nat := 55
/-- `RubyTokenType::Minus` (oak-ruby lexer/token_type.rs:70). -/
abbrev tMinus : Nat := 56
/-- `RubyTokenType::Multiply` (oak-ruby lexer/token_type.rs:71). -/
abbrev tMultiply : Nat := 57
/-- `RubyTokenType::Divide` (oak-ruby lexer/token_type.rs:72). -/
abbrev tDivide : Nat := 58
/-- `RubyTokenType::Modulo` (oak-ruby lexer/token_type.rs:73). -/
abbrev tModulo : Nat := 59
/-- `RubyTokenType::Power` (oak-ruby lexer/token_type.rs:74). -/
abbrev tPower : Nat := 60
/-- `RubyTokenType::EqualEqual` (oak-ruby lexer/token_type.rs:75). -/
abbrev tEqualEqual : Nat := 61
/-- `RubyTokenType::NotEqual` (oak-ruby lexer/token_type.rs:76). -/
abbrev tNotEqual : Nat := 62
/-- `RubyTokenType::Less` (oak-ruby lexer/token_type.rs:77). -/
abbrev tLess : Nat := 63
/-- `RubyTokenType::Greater` (oak-ruby lexer/token_type.rs:78). -/
abbrev tGreater : Nat := 64
/-- `RubyTokenType::LessEqual` (oak-ruby lexer/token_type.rs:79). -/
abbrev tLessEqual : Nat := 65
/-- `RubyTokenType::GreaterEqual` (oak-ruby lexer/token_type.rs:80). -/
abbrev tGreaterEqual : Nat := 66
/-- `RubyTokenType::Tilde` (oak-ruby lexer/token_type.rs:94). -/
abbrev tTilde : Nat := 80
/-- `RubyTokenType::AndAnd` (oak-ruby lexer/token_type.rs:102). -/
abbrev tAndAnd : Nat := 88
/-- `RubyTokenType::OrOr` (oak-ruby lexer/token_type.rs:103). -/
abbrev tOrOr : Nat := 89
/-- `RubyTokenType::LeftParen` (oak-ruby lexer/token_type.rs:112). -/
abbrev tLeftParen : Nat := 97
/-- `RubyTokenType::RightParen` (oak-ruby lexer/token_type.rs:113). -/
abbrev tRightParen : Nat := 98
/-- `RubyTokenType::Semicolon` (oak-ruby lexer/token_type.rs:120). -/
abbrev tSemicolon : Nat := 105
/-- `RubyTokenType::Whitespace` (oak-ruby lexer/token_type.rs:126). -/
abbrev tWhitespace : Nat := 110
/-- `RubyTokenType::Newline` (oak-ruby lexer/token_type.rs:127). -/
abbrev tNewline : Nat := 111
/-- `RubyTokenType::Comment` (oak-ruby lexer/token_type.rs:128). -/
abbrev tComment : Nat := 112
/-- `RubyElementType::Identifier` (oak-ruby parser/element_type.rs:10). -/
abbrev eIdentifier : Nat := 0
/-- `RubyElementType::Root` (oak-ruby parser/element_type.rs:129). -/
abbrev eRoot : Nat := 115
/-- `RubyElementType::BinaryExpression` (oak-ruby parser/element_type.rs:130). -/
abbrev eBinaryExpression : Nat := 116
/-- `RubyElementType::UnaryExpression` (oak-ruby parser/element_type.rs:131). -/
abbrev eUnaryExpression : Nat := 117
/-- `RubyElementType::LiteralExpression` (oak-ruby parser/element_type.rs:132). -/
abbrev eLiteralExpression : Nat := 118
/-- `RubyElementType::ParenExpression` (oak-ruby parser/element_type.rs:133). -/
abbrev eParenExpression : Nat := 119
/-- `RubyElementType::MethodDefinition` (oak-ruby parser/element_type.rs:135). -/
abbrev eMethodDefinition : Nat := 121
/-- `RubyElementType::ClassDefinition` (oak-ruby parser/element_type.rs:136). -/
abbrev eClassDefinition : Nat := 122
/-- `RubyElementType::ModuleDefinition` (oak-ruby parser/element_type.rs:137). -/
abbrev eModuleDefinition : Nat := 123
/-- `RubyElementType::IfStatement` (oak-ruby parser/element_type.rs:138). -/
abbrev eIfStatement : Nat := 124
/-- `RubyElementType::WhileStatement` (oak-ruby parser/element_type.rs:139). -/
abbrev eWhileStatement : Nat := 125
/-- `RubyElementType::ReturnStatement` (oak-ruby parser/element_type.rs:140). -/
abbrev eReturnStatement : Nat := 126
/-- `RubyElementType::Error` (oak-ruby parser/element_type.rs:146). -/
abbrev eError : Nat := 132

/-- The number of `parse_statement` (oak-ruby parser/mod.rs:40-56). -/
abbrev pParseStatement : Nat := 0
/-- The number of `parse_method_def` (oak-ruby parser/mod.rs:58-72). -/
abbrev pParseMethodDef : Nat := 1
/-- The number of `parse_body` (oak-ruby parser/mod.rs:74-81). -/
abbrev pParseBody : Nat := 2
/-- The number of `parse_class_def` (oak-ruby parser/mod.rs:83-91). -/
abbrev pParseClassDef : Nat := 3
/-- The number of `parse_module_def` (oak-ruby parser/mod.rs:93-101). -/
abbrev pParseModuleDef : Nat := 4
/-- The number of `parse_if_stmt` (oak-ruby parser/mod.rs:103-111). -/
abbrev pParseIfStmt : Nat := 5
/-- The number of `parse_while_stmt` (oak-ruby parser/mod.rs:113-121). -/
abbrev pParseWhileStmt : Nat := 6
/-- The number of `parse_return_stmt` (oak-ruby parser/mod.rs:123-130). -/
abbrev pParseReturnStmt : Nat := 7
/-- The number of `primary` (oak-ruby parser/mod.rs:134-157). -/
abbrev pPrimary : Nat := 8
/-- The number of `prefix` (oak-ruby parser/mod.rs:159-168). -/
abbrev pPrefix : Nat := 9
/-- The precedences expressions are parsed with (oak-ruby parser/mod.rs:170-189). -/
abbrev levels : List Nat := [0, 2, 3, 6, 11, 13, 21, 30]
/-- The number of `PrattParser::parse` with a precedence (oak-core parser/pratt.rs:237-243): after the other functions. -/
abbrev pPratt (min : Nat) : Nat := 10 + levels.idxOf min

/-- `parse_statement` (oak-ruby parser/mod.rs:40-56). -/
def parseStatement : Prog :=
  ite (sees tDef)
    (call pParseMethodDef)
    (ite (sees tClass)
      (call pParseClassDef)
      (ite (sees tModule)
        (call pParseModuleDef)
        (ite (sees tIf)
          (call pParseIfStmt)
          (ite (sees tWhile)
            (call pParseWhileStmt)
            (ite (sees tReturn)
              (call pParseReturnStmt)
              (block [
                call (pPratt 0),
                eat tSemicolon,
                eat tNewline]))))))

/-- `parse_method_def` (oak-ruby parser/mod.rs:58-72). -/
def parseMethodDef : Prog :=
  mark (block [
    bump,
    expect tIdentifier,
    when_ (eat tLeftParen)
      (block [
        loop (and_ more (not_ (sees tRightParen)))
          advance,
        expect tRightParen]),
    call pParseBody,
    close eMethodDefinition])

/-- `parse_body` (oak-ruby parser/mod.rs:74-81). -/
def parseBody : Prog :=
  block [
    loop (and_ (and_ (and_ (and_ (and_ more (not_ (sees tEnd))) (not_ (sees tElse))) (not_ (sees tElsif))) (not_ (sees tRescue))) (not_ (sees tEnsure)))
      (call pParseStatement),
    eat tEnd]

/-- `parse_class_def` (oak-ruby parser/mod.rs:83-91). -/
def parseClassDef : Prog :=
  mark (block [
    bump,
    expect tConstant,
    call pParseBody,
    close eClassDefinition])

/-- `parse_module_def` (oak-ruby parser/mod.rs:93-101). -/
def parseModuleDef : Prog :=
  mark (block [
    bump,
    expect tConstant,
    call pParseBody,
    close eModuleDefinition])

/-- `parse_if_stmt` (oak-ruby parser/mod.rs:103-111). -/
def parseIfStmt : Prog :=
  mark (block [
    bump,
    call (pPratt 0),
    call pParseBody,
    close eIfStatement])

/-- `parse_while_stmt` (oak-ruby parser/mod.rs:113-121). -/
def parseWhileStmt : Prog :=
  mark (block [
    bump,
    call (pPratt 0),
    call pParseBody,
    close eWhileStatement])

/-- `parse_return_stmt` (oak-ruby parser/mod.rs:123-130). -/
def parseReturnStmt : Prog :=
  mark (block [
    bump,
    call (pPratt 0),
    close eReturnStatement])

/-- `primary` (oak-ruby parser/mod.rs:134-157). -/
def primary : Prog :=
  mark (ite (seesAny [tIdentifier, tConstant, tGlobalVariable, tInstanceVariable, tClassVariable])
    (block [
      bump,
      close eIdentifier])
    (ite (seesAny [tIntegerLiteral, tFloatLiteral, tStringLiteral, tTrue, tFalse, tNil, tSelf_])
      (block [
        bump,
        close eLiteralExpression])
      (ite (sees tLeftParen)
        (block [
          bump,
          call (pPratt 0),
          expect tRightParen,
          close eParenExpression])
        (block [
          bump,
          close eError]))))

/-- `prefix` (oak-ruby parser/mod.rs:159-168). -/
def prefix_ : Prog :=
  ite (sees tPlus)
    (block [
      bump,
      mark (block [
        expect tPlus,
        call (pPratt 13),
        close eUnaryExpression])])
    (ite (sees tMinus)
      (block [
        bump,
        mark (block [
          expect tMinus,
          call (pPratt 13),
          close eUnaryExpression])])
      (ite (sees tNot)
        (block [
          bump,
          mark (block [
            expect tNot,
            call (pPratt 13),
            close eUnaryExpression])])
        (ite (sees tTilde)
          (block [
            bump,
            mark (block [
              expect tTilde,
              call (pPratt 13),
              close eUnaryExpression])])
          (call pPrimary))))

/-- `infix` (oak-ruby parser/mod.rs:170-189) with a least precedence. -/
def infix_ (min : Nat) : Prog :=
  ite more
    (ite (sees tPower)
      (level min 30
        (block [
          bump,
          call (pPratt 30),
          close eBinaryExpression]))
      (ite (seesAny [tMultiply, tDivide, tModulo])
        (level min 20
          (block [
            bump,
            call (pPratt 21),
            close eBinaryExpression]))
        (ite (seesAny [tPlus, tMinus])
          (level min 10
            (block [
              bump,
              call (pPratt 11),
              close eBinaryExpression]))
          (ite (seesAny [tEqualEqual, tNotEqual, tLess, tGreater, tLessEqual, tGreaterEqual])
            (level min 5
              (block [
                bump,
                call (pPratt 6),
                close eBinaryExpression]))
            (ite (sees tAndAnd)
              (level min 2
                (block [
                  bump,
                  call (pPratt 3),
                  close eBinaryExpression]))
              (ite (sees tOrOr)
                (level min 1
                  (block [
                    bump,
                    call (pPratt 2),
                    close eBinaryExpression]))
                (val false)))))))
    (val false)

/-- `PrattParser::parse` (oak-core parser/pratt.rs:237-243): `left` always begins at the checkpoint. -/
def pratt (min : Nat) : Prog :=
  mark (block [call pPrefix, loop (infix_ min) (val true)])

/-- `parse_root_internal` between the checkpoint and the last `finish_at` (oak-ruby parser/mod.rs:28-38). -/
def main : Prog :=
  loop more
    (block [
      when_ (seesAny [tWhitespace, tNewline, tComment])
        (block [
          bump,
          cont]),
      catch_ (call pParseStatement)])

/-- The parser (`parse_root_internal`, oak-ruby parser/mod.rs:28-38; `is_ignored`, oak-ruby lexer/token_type.rs:153-155). -/
def parser : HandParser where
  ign := [tWhitespace, tNewline, tComment]
  fromStart := false
  root := eRoot
  main := main
  procs := [parseStatement, parseMethodDef, parseBody, parseClassDef, parseModuleDef, parseIfStmt, parseWhileStmt, parseReturnStmt, primary, prefix_] ++ levels.map pratt

end Oaks.Hand.Ruby
