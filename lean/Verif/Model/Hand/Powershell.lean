import Verif.Model.Prog

/-
The parser of `oak-powershell` (examples/oak-powershell/src/parser) as a program: one definition for every function it calls, in the order of the
source. Kinds are the places of the variants in their enums.
-/
namespace Oaks.Hand.Powershell
open Prog

/-- `PowerShellTokenType::Whitespace` (oak-powershell lexer/token_type.rs:12). -/
abbrev tWhitespace : Nat := 0
/-- `PowerShellTokenType::Newline` (oak-powershell lexer/token_type.rs:13). -/
abbrev tNewline : Nat := 1
/-- `PowerShellTokenType::Comment` (oak-powershell lexer/token_type.rs:14). -/
abbrev tComment : Nat := 2
/-- `PowerShellTokenType::Class` (oak-powershell lexer/token_type.rs:20). -/
abbrev tClass : Nat := 6
/-- `PowerShellTokenType::Function` (oak-powershell lexer/token_type.rs:35). -/
abbrev tFunction : Nat := 21
/-- `PowerShellTokenType::If` (oak-powershell lexer/token_type.rs:36). -/
abbrev tIf : Nat := 22
/-- `PowerShellTokenType::LeftParen` (oak-powershell lexer/token_type.rs:88). -/
abbrev tLeftParen : Nat := 70
/-- `PowerShellTokenType::RightParen` (oak-powershell lexer/token_type.rs:89). -/
abbrev tRightParen : Nat := 71
/-- `PowerShellTokenType::LeftBrace` (oak-powershell lexer/token_type.rs:90). -/
abbrev tLeftBrace : Nat := 72
/-- `PowerShellTokenType::RightBrace` (oak-powershell lexer/token_type.rs:91). -/
abbrev tRightBrace : Nat := 73
/-- `PowerShellTokenType::Semicolon` (oak-powershell lexer/token_type.rs:94). -/
abbrev tSemicolon : Nat := 76
/-- `PowerShellTokenType::Identifier` (oak-powershell lexer/token_type.rs:119). -/
abbrev tIdentifier : Nat := 97
/-- `PowerShellElementType::Root` (oak-powershell parser/element_type.rs:123). -/
abbrev eRoot : Nat := 101
/-- `PowerShellElementType::FunctionDef` (oak-powershell parser/element_type.rs:124). -/
abbrev eFunctionDef : Nat := 102
/-- `PowerShellElementType::ClassDef` (oak-powershell parser/element_type.rs:125). -/
abbrev eClassDef : Nat := 103
/-- `PowerShellElementType::IfStatement` (oak-powershell parser/element_type.rs:126). -/
abbrev eIfStatement : Nat := 104
/-- `PowerShellElementType::ExpressionStatement` (oak-powershell parser/element_type.rs:139). -/
abbrev eExpressionStatement : Nat := 117

/-- The number of `parse_program` (oak-powershell parser/mod.rs:19-34). -/
abbrev pParseProgram : Nat := 0
/-- The number of `parse_function` (oak-powershell parser/mod.rs:36-44). -/
abbrev pParseFunction : Nat := 1
/-- The number of `parse_class` (oak-powershell parser/mod.rs:46-54). -/
abbrev pParseClass : Nat := 2
/-- The number of `parse_if` (oak-powershell parser/mod.rs:56-66). -/
abbrev pParseIf : Nat := 3
/-- The number of `parse_block` (oak-powershell parser/mod.rs:68-74). -/
abbrev pParseBlock : Nat := 4
/-- The number of `parse_statement` (oak-powershell parser/mod.rs:76-85). -/
abbrev pParseStatement : Nat := 5

/-- `parse_program` (oak-powershell parser/mod.rs:19-34). -/
def parseProgram : Prog :=
  loop more
    (ite (sees tFunction)
      (call pParseFunction)
      (ite (sees tClass)
        (call pParseClass)
        (ite (sees tIf)
          (call pParseIf)
          (call pParseStatement))))

/-- `parse_function` (oak-powershell parser/mod.rs:36-44). -/
def parseFunction : Prog :=
  mark (block [
    expect tFunction,
    expect tIdentifier,
    when_ (sees tLeftBrace)
      (call pParseBlock),
    close eFunctionDef])

/-- `parse_class` (oak-powershell parser/mod.rs:46-54). -/
def parseClass : Prog :=
  mark (block [
    expect tClass,
    expect tIdentifier,
    when_ (sees tLeftBrace)
      (call pParseBlock),
    close eClassDef])

/-- `parse_if` (oak-powershell parser/mod.rs:56-66). -/
def parseIf : Prog :=
  mark (block [
    expect tIf,
    expect tLeftParen,
    loop (and_ (not_ (sees tRightParen)) more)
      bump,
    expect tRightParen,
    call pParseBlock,
    close eIfStatement])

/-- `parse_block` (oak-powershell parser/mod.rs:68-74). -/
def parseBlock : Prog :=
  block [
    expect tLeftBrace,
    loop (and_ (not_ (sees tRightBrace)) more)
      (call pParseStatement),
    expect tRightBrace]

/-- `parse_statement` (oak-powershell parser/mod.rs:76-85). -/
def parseStatement : Prog :=
  mark (block [
    loop (and_ (and_ (not_ (sees tSemicolon)) (not_ (sees tNewline))) more)
      bump,
    when_ (or_ (sees tSemicolon) (sees tNewline))
      bump,
    close eExpressionStatement])

/-- `parse` between the checkpoint and the last `finish_at` (oak-powershell parser/mod.rs:89-96). -/
def main : Prog :=
  call pParseProgram

/-- The parser (`parse`, oak-powershell parser/mod.rs:89-96; `is_ignored`, oak-powershell lexer/token_type.rs:154-156). -/
def parser : HandParser where
  ign := [tWhitespace, tComment]
  fromStart := false
  root := eRoot
  main := main
  procs := [parseProgram, parseFunction, parseClass, parseIf, parseBlock, parseStatement]

end Oaks.Hand.Powershell
