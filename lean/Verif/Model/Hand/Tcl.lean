import Verif.Model.Prog

/-
The parser of `oak-tcl` (examples/oak-tcl/src/parser) as a program: one definition for every function it calls, in the order of the
source. Kinds are the places of the variants in their enums.
-/
namespace Oaks.Hand.Tcl
open Prog

/-- `TclTokenType::Identifier` (oak-tcl lexer/token_type.rs:38). -/
abbrev tIdentifier : Nat := 9
/-- `TclTokenType::LeftBracket` (oak-tcl lexer/token_type.rs:78). -/
abbrev tLeftBracket : Nat := 43
/-- `TclTokenType::RightBracket` (oak-tcl lexer/token_type.rs:79). -/
abbrev tRightBracket : Nat := 44
/-- `TclTokenType::Semicolon` (oak-tcl lexer/token_type.rs:82). -/
abbrev tSemicolon : Nat := 47
/-- `TclTokenType::Dollar` (oak-tcl lexer/token_type.rs:84). -/
abbrev tDollar : Nat := 49
/-- `TclTokenType::Whitespace` (oak-tcl lexer/token_type.rs:87). -/
abbrev tWhitespace : Nat := 50
/-- `TclTokenType::Newline` (oak-tcl lexer/token_type.rs:88). -/
abbrev tNewline : Nat := 51
/-- `TclTokenType::Comment` (oak-tcl lexer/token_type.rs:89). -/
abbrev tComment : Nat := 52
/-- `TclElementType::Root` (oak-tcl parser/element_type.rs:10). -/
abbrev eRoot : Nat := 0
/-- `TclElementType::Command` (oak-tcl parser/element_type.rs:11). -/
abbrev eCommand : Nat := 1
/-- `TclElementType::SimpleWord` (oak-tcl parser/element_type.rs:13). -/
abbrev eSimpleWord : Nat := 3
/-- `TclElementType::VariableWord` (oak-tcl parser/element_type.rs:14). -/
abbrev eVariableWord : Nat := 4
/-- `TclElementType::ScriptWord` (oak-tcl parser/element_type.rs:15). -/
abbrev eScriptWord : Nat := 5

/-- The number of `parse_command` (oak-tcl parser/parse_top_level.rs:34-52). -/
abbrev pParseCommand : Nat := 0
/-- The number of `parse_word` (oak-tcl parser/parse_top_level.rs:54-89). -/
abbrev pParseWord : Nat := 1

/-- `parse_command` (oak-tcl parser/parse_top_level.rs:34-52). -/
def parseCommand : Prog :=
  mark (block [
    loop (and_ (and_ more (not_ (sees tNewline))) (not_ (sees tSemicolon)))
      (block [
        when_ (sees tWhitespace)
          (block [
            bump,
            cont]),
        when_ (sees tComment)
          brk,
        call pParseWord]),
    close eCommand])

/-- `parse_word` (oak-tcl parser/parse_top_level.rs:54-89); both arms of the last `match` are `SimpleWord`. -/
def parseWord : Prog :=
  mark (ite (sees tDollar)
    (block [
      bump,
      need tIdentifier,
      close eVariableWord])
    (ite (sees tLeftBracket)
      (block [
        bump,
        loop (and_ more (not_ (sees tRightBracket)))
          (block [
            when_ (or_ (or_ (sees tNewline) (sees tSemicolon)) (sees tWhitespace))
              (block [
                bump,
                cont]),
            call pParseCommand]),
        need tRightBracket,
        close eScriptWord])
      (block [
        bump,
        close eSimpleWord])))

/-- `parse_root_internal` between the checkpoint and the last `finish_at` (oak-tcl parser/parse_top_level.rs:9-32). -/
def main : Prog :=
  loop more
    (block [
      when_ (or_ (sees tNewline) (sees tSemicolon))
        (block [
          bump,
          cont]),
      when_ (sees tWhitespace)
        (block [
          bump,
          cont]),
      when_ (sees tComment)
        (block [
          bump,
          cont]),
      call pParseCommand])

/-- The parser (`parse_root_internal`, oak-tcl parser/parse_top_level.rs:9-32; `is_ignored`, oak-tcl lexer/token_type.rs:11-13). -/
def parser : HandParser where
  ign := []
  fromStart := false
  root := eRoot
  main := main
  procs := [parseCommand, parseWord]

end Oaks.Hand.Tcl
