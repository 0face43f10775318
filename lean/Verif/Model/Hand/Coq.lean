import Verif.Model.Prog

/-
The parser of `oak-coq` (examples/oak-coq/src/parser) as a program: one definition for every function it calls, in the order of the
source. Kinds are the places of the variants in their enums.
-/
namespace Oaks.Hand.Coq
open Prog

/-- `CoqTokenType::Identifier` (oak-coq lexer/token_type.rs:32). -/
abbrev tIdentifier : Nat := 5
/-- `CoqTokenType::Theorem` (oak-coq lexer/token_type.rs:35). -/
abbrev tTheorem : Nat := 6
/-- `CoqTokenType::Lemma` (oak-coq lexer/token_type.rs:36). -/
abbrev tLemma : Nat := 7
/-- `CoqTokenType::Definition` (oak-coq lexer/token_type.rs:41). -/
abbrev tDefinition : Nat := 12
/-- `CoqTokenType::Proof` (oak-coq lexer/token_type.rs:56). -/
abbrev tProof : Nat := 27
/-- `CoqTokenType::Qed` (oak-coq lexer/token_type.rs:57). -/
abbrev tQed : Nat := 28
/-- `CoqTokenType::Admitted` (oak-coq lexer/token_type.rs:59). -/
abbrev tAdmitted : Nat := 30
/-- `CoqTokenType::Colon` (oak-coq lexer/token_type.rs:130). -/
abbrev tColon : Nat := 98
/-- `CoqTokenType::Semicolon` (oak-coq lexer/token_type.rs:131). -/
abbrev tSemicolon : Nat := 99
/-- `CoqTokenType::Dot` (oak-coq lexer/token_type.rs:133). -/
abbrev tDot : Nat := 101
/-- `CoqTokenType::Eof` (oak-coq lexer/token_type.rs:177). -/
abbrev tEof : Nat := 142
/-- `CoqElementType::Root` (oak-coq parser/element_type.rs:152). -/
abbrev eRoot : Nat := 137
/-- `CoqElementType::Declaration` (oak-coq parser/element_type.rs:153). -/
abbrev eDeclaration : Nat := 138
/-- `CoqElementType::Statement` (oak-coq parser/element_type.rs:154). -/
abbrev eStatement : Nat := 139
/-- `CoqElementType::Expression` (oak-coq parser/element_type.rs:155). -/
abbrev eExpression : Nat := 140

/-- The number of `parse_declaration` (oak-coq parser/parse_top_level.rs:29-45). -/
abbrev pParseDeclaration : Nat := 0
/-- The number of `parse_proof` (oak-coq parser/parse_top_level.rs:47-71). -/
abbrev pParseProof : Nat := 1
/-- The number of `parse_term` (oak-coq parser/parse_top_level.rs:73-80). -/
abbrev pParseTerm : Nat := 2

/-- `parse_declaration` (oak-coq parser/parse_top_level.rs:29-45). -/
def parseDeclaration : Prog :=
  mark (block [
    bump,
    need tIdentifier,
    when_ (sees tColon)
      (block [
        need tColon,
        call pParseTerm]),
    when_ (sees tDot)
      (need tDot),
    close eDeclaration])

/-- `parse_proof` (oak-coq parser/parse_top_level.rs:47-71). -/
def parseProof : Prog :=
  mark (block [
    need tProof,
    when_ (sees tDot)
      (need tDot),
    loop (and_ (and_ more (not_ (sees tQed))) (not_ (sees tAdmitted)))
      bump,
    ite (sees tQed)
      (need tQed)
      (need tAdmitted),
    when_ (sees tDot)
      (need tDot),
    close eStatement])

/-- `parse_term` (oak-coq parser/parse_top_level.rs:73-80). -/
def parseTerm : Prog :=
  mark (block [
    loop (and_ (and_ more (not_ (sees tDot))) (not_ (sees tSemicolon)))
      bump,
    close eExpression])

/-- `parse_root_internal` between the checkpoint and the last `finish_at` (oak-coq parser/parse_top_level.rs:11-27). -/
def main : Prog :=
  loop (and_ more (not_ (sees tEof)))
    (ite (or_ (or_ (sees tTheorem) (sees tLemma)) (sees tDefinition))
      (call pParseDeclaration)
      (ite (sees tProof)
        (call pParseProof)
        bump))

/-- The parser (`parse_root_internal`, oak-coq parser/parse_top_level.rs:11-27; `is_ignored`, oak-coq lexer/token_type.rs:11-13). -/
def parser : HandParser where
  ign := []
  fromStart := false
  root := eRoot
  main := main
  procs := [parseDeclaration, parseProof, parseTerm]

end Oaks.Hand.Coq
