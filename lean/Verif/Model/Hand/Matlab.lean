import Verif.Model.Prog

/-
The parser of `oak-matlab` (examples/oak-matlab/src/parser) as a program: one definition for every function it calls, in the order of the
source. Kinds are the places of the variants in their enums.
-/
namespace Oaks.Hand.Matlab
open Prog

/-- `MatlabTokenType::Function` (oak-matlab lexer/token_type.rs:49). -/
abbrev tFunction : Nat := 8
/-- `MatlabTokenType::If` (oak-matlab lexer/token_type.rs:51). -/
abbrev tIf : Nat := 10
/-- `MatlabTokenType::Semicolon` (oak-matlab lexer/token_type.rs:108). -/
abbrev tSemicolon : Nat := 57
/-- `MatlabElementType::Script` (oak-matlab parser/element_type.rs:100). -/
abbrev eScript : Nat := 68
/-- `MatlabElementType::FunctionDef` (oak-matlab parser/element_type.rs:101). -/
abbrev eFunctionDef : Nat := 69
/-- `MatlabElementType::Expression` (oak-matlab parser/element_type.rs:104). -/
abbrev eExpression : Nat := 72
/-- `MatlabElementType::Statement` (oak-matlab parser/element_type.rs:105). -/
abbrev eStatement : Nat := 73

/-- The number of `parse_statement` (oak-matlab parser/mod.rs:45-60). -/
abbrev pParseStatement : Nat := 0
/-- The number of `parse_function_def` (oak-matlab parser/mod.rs:62-67). -/
abbrev pParseFunctionDef : Nat := 1
/-- The number of `parse_if_statement` (oak-matlab parser/mod.rs:69-73). -/
abbrev pParseIfStatement : Nat := 2
/-- The number of `parse_expression` (oak-matlab parser/mod.rs:75-79). -/
abbrev pParseExpression : Nat := 3

/-- `parse_statement` (oak-matlab parser/mod.rs:45-60). -/
def parseStatement : Prog :=
  mark (block [
    ite (sees tFunction)
      (call pParseFunctionDef)
      (ite (sees tIf)
        (call pParseIfStatement)
        (block [
          call pParseExpression,
          when_ (sees tSemicolon)
            bump])),
    close eStatement])

/-- `parse_function_def` (oak-matlab parser/mod.rs:62-67). -/
def parseFunctionDef : Prog :=
  mark (block [
    bump,
    close eFunctionDef])

/-- `parse_if_statement` (oak-matlab parser/mod.rs:69-73). -/
def parseIfStatement : Prog :=
  block [
    bump,
    call pParseExpression]

/-- `parse_expression` (oak-matlab parser/mod.rs:75-79). -/
def parseExpression : Prog :=
  mark (block [
    bump,
    close eExpression])

/-- `parse_root_internal` between the checkpoint and the last `finish_at` (oak-matlab parser/mod.rs:35-43). -/
def main : Prog :=
  loop more
    (call pParseStatement)

/-- The parser (`parse_root_internal`, oak-matlab parser/mod.rs:35-43; `is_ignored`, oak-matlab lexer/token_type.rs:21-23). -/
def parser : HandParser where
  ign := []
  fromStart := false
  root := eScript
  main := main
  procs := [parseStatement, parseFunctionDef, parseIfStatement, parseExpression]

end Oaks.Hand.Matlab
