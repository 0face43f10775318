import Verif.Model.Prog

/-
The parser of `oak-prolog` (examples/oak-prolog/src/parser) as a program: one definition for every function it calls, in the order of the
source. Kinds are the places of the variants in their enums.
-/
namespace Oaks.Hand.Prolog
open Prog

/-- `PrologTokenType::Dot` (oak-prolog lexer/token_type.rs:81). -/
abbrev tDot : Nat := 39
/-- `PrologTokenType::ColonMinus` (oak-prolog lexer/token_type.rs:87). -/
abbrev tColonMinus : Nat := 45
/-- `PrologTokenType::QuestionMinus` (oak-prolog lexer/token_type.rs:88). -/
abbrev tQuestionMinus : Nat := 46
/-- `PrologElementType::Clause` (oak-prolog parser/element_type.rs:65). -/
abbrev eClause : Nat := 48
/-- `PrologElementType::Query` (oak-prolog parser/element_type.rs:68). -/
abbrev eQuery : Nat := 51
/-- `PrologElementType::Directive` (oak-prolog parser/element_type.rs:69). -/
abbrev eDirective : Nat := 52
/-- `PrologElementType::Root` (oak-prolog parser/element_type.rs:74). -/
abbrev eRoot : Nat := 55

/-- The number of `parse_directive` (oak-prolog parser/mod.rs:23-31). -/
abbrev pParseDirective : Nat := 0
/-- The number of `parse_query` (oak-prolog parser/mod.rs:33-41). -/
abbrev pParseQuery : Nat := 1
/-- The number of `parse_clause` (oak-prolog parser/mod.rs:43-50). -/
abbrev pParseClause : Nat := 2

/-- `parse_directive` (oak-prolog parser/mod.rs:23-31). -/
def parseDirective : Prog :=
  mark (block [
    expect tColonMinus,
    loop (and_ (not_ (sees tDot)) more)
      bump,
    expect tDot,
    close eDirective])

/-- `parse_query` (oak-prolog parser/mod.rs:33-41). -/
def parseQuery : Prog :=
  mark (block [
    expect tQuestionMinus,
    loop (and_ (not_ (sees tDot)) more)
      bump,
    expect tDot,
    close eQuery])

/-- `parse_clause` (oak-prolog parser/mod.rs:43-50). -/
def parseClause : Prog :=
  mark (block [
    loop (and_ (not_ (sees tDot)) more)
      bump,
    expect tDot,
    close eClause])

/-- `parse_root_internal` between the checkpoint and the last `finish_at` (oak-prolog parser/mod.rs:52-66). -/
def main : Prog :=
  loop more
    (ite (sees tColonMinus)
      (call pParseDirective)
      (ite (sees tQuestionMinus)
        (call pParseQuery)
        (call pParseClause)))

/-- The parser (`parse_root_internal`, oak-prolog parser/mod.rs:52-66; `is_ignored`, oak-prolog lexer/token_type.rs:21-23). -/
def parser : HandParser where
  ign := []
  fromStart := false
  root := eRoot
  main := main
  procs := [parseDirective, parseQuery, parseClause]

end Oaks.Hand.Prolog
