import Verif.Model.Prog

/-
The parser of `oak-ocaml` (examples/oak-ocaml/src/parser) as a program: one definition for every function it calls, in the order of the
source. Kinds are the places of the variants in their enums.
-/
namespace Oaks.Hand.Ocaml
open Prog

/-- `OCamlTokenType::Whitespace` (oak-ocaml lexer/token_type.rs:126). -/
abbrev tWhitespace : Nat := 0
/-- `OCamlTokenType::Newline` (oak-ocaml lexer/token_type.rs:127). -/
abbrev tNewline : Nat := 1
/-- `OCamlTokenType::Comment` (oak-ocaml lexer/token_type.rs:128). -/
abbrev tComment : Nat := 2
/-- `OCamlTokenType::Let` (oak-ocaml lexer/token_type.rs:155). -/
abbrev tLet : Nat := 27
/-- `OCamlTokenType::Module` (oak-ocaml lexer/token_type.rs:158). -/
abbrev tModule : Nat := 30
/-- `OCamlTokenType::Rec` (oak-ocaml lexer/token_type.rs:166). -/
abbrev tRec : Nat := 38
/-- `OCamlTokenType::Type` (oak-ocaml lexer/token_type.rs:173). -/
abbrev tType : Nat := 45
/-- `OCamlTokenType::Equal` (oak-ocaml lexer/token_type.rs:193). -/
abbrev tEqual : Nat := 61
/-- `OCamlTokenType::Semicolon` (oak-ocaml lexer/token_type.rs:210). -/
abbrev tSemicolon : Nat := 78
/-- `OCamlElementType::Root` (oak-ocaml parser/element_type.rs:8). -/
abbrev eRoot : Nat := 0
/-- `OCamlElementType::ModuleDef` (oak-ocaml parser/element_type.rs:9). -/
abbrev eModuleDef : Nat := 1
/-- `OCamlElementType::LetBinding` (oak-ocaml parser/element_type.rs:10). -/
abbrev eLetBinding : Nat := 2
/-- `OCamlElementType::TypeDefinition` (oak-ocaml parser/element_type.rs:13). -/
abbrev eTypeDefinition : Nat := 5
/-- `OCamlElementType::Expression` (oak-ocaml parser/element_type.rs:14). -/
abbrev eExpression : Nat := 6

/-- The number of `parse_item` (oak-ocaml parser/mod.rs:23-31). -/
abbrev pParseItem : Nat := 0
/-- The number of `parse_let_binding` (oak-ocaml parser/mod.rs:33-48). -/
abbrev pParseLetBinding : Nat := 1
/-- The number of `parse_module_def` (oak-ocaml parser/mod.rs:50-63). -/
abbrev pParseModuleDef : Nat := 2
/-- The number of `parse_type_definition` (oak-ocaml parser/mod.rs:65-72). -/
abbrev pParseTypeDefinition : Nat := 3
/-- The number of `parse_expression` (oak-ocaml parser/mod.rs:74-86). -/
abbrev pParseExpression : Nat := 4

/-- `parse_item` (oak-ocaml parser/mod.rs:23-31). -/
def parseItem : Prog :=
  ite (sees tLet)
    (call pParseLetBinding)
    (ite (sees tModule)
      (call pParseModuleDef)
      (ite (sees tType)
        (call pParseTypeDefinition)
        (call pParseExpression)))

/-- `parse_let_binding` (oak-ocaml parser/mod.rs:33-48). -/
def parseLetBinding : Prog :=
  mark (block [
    bump,
    when_ (sees tRec)
      bump,
    loop (and_ (and_ more (not_ (sees tEqual))) (not_ (sees tSemicolon)))
      bump,
    when_ (sees tEqual)
      (block [
        bump,
        call pParseExpression]),
    close eLetBinding])

/-- `parse_module_def` (oak-ocaml parser/mod.rs:50-63). -/
def parseModuleDef : Prog :=
  mark (block [
    bump,
    loop (and_ (and_ more (not_ (sees tEqual))) (not_ (sees tSemicolon)))
      bump,
    when_ (sees tEqual)
      (block [
        bump,
        loop (and_ more (not_ (sees tSemicolon)))
          bump]),
    close eModuleDef])

/-- `parse_type_definition` (oak-ocaml parser/mod.rs:65-72). -/
def parseTypeDefinition : Prog :=
  mark (block [
    bump,
    loop (and_ more (not_ (sees tSemicolon)))
      bump,
    close eTypeDefinition])

/-- `parse_expression` (oak-ocaml parser/mod.rs:74-86). -/
def parseExpression : Prog :=
  mark (block [
    loop (and_ more (not_ (sees tSemicolon)))
      bump,
    when_ (sees tSemicolon)
      (block [
        bump,
        when_ (sees tSemicolon)
          bump]),
    close eExpression])

/-- `parse_root_internal` between the checkpoint and the last `finish_at` (oak-ocaml parser/mod.rs:88-96). -/
def main : Prog :=
  loop more
    (call pParseItem)

/-- The parser (`parse_root_internal`, oak-ocaml parser/mod.rs:88-96; `is_ignored`, oak-ocaml lexer/token_type.rs:11-13). -/
def parser : HandParser where
  ign := [tWhitespace, tNewline, tComment]
  fromStart := false
  root := eRoot
  main := main
  procs := [parseItem, parseLetBinding, parseModuleDef, parseTypeDefinition, parseExpression]

end Oaks.Hand.Ocaml
