import Verif.Model.Prog

/-
The parser of `oak-bash` (examples/oak-bash/src/parser) as a program: one definition for every function it calls, in the order of the
source. Kinds are the places of the variants in their enums.
-/
namespace Oaks.Hand.Bash
open Prog

/-- `BashTokenType::Whitespace` (oak-bash lexer/token_type.rs:11). -/
abbrev tWhitespace : Nat := 0
/-- `BashTokenType::Newline` (oak-bash lexer/token_type.rs:13). -/
abbrev tNewline : Nat := 1
/-- `BashTokenType::Comment` (oak-bash lexer/token_type.rs:15). -/
abbrev tComment : Nat := 2
/-- `BashTokenType::Keyword` (oak-bash lexer/token_type.rs:25). -/
abbrev tKeyword : Nat := 7
/-- `BashTokenType::Delimiter` (oak-bash lexer/token_type.rs:29). -/
abbrev tDelimiter : Nat := 9
/-- `BashTokenType::Eof` (oak-bash lexer/token_type.rs:45). -/
abbrev tEof : Nat := 17
/-- `BashElementType::Root` (oak-bash parser/element_type.rs:13). -/
abbrev eRoot : Nat := 1
/-- `BashElementType::CommandStatement` (oak-bash parser/element_type.rs:15). -/
abbrev eCommandStatement : Nat := 2

/-- The number of `parse_statement` (oak-bash parser/mod.rs:27-42). -/
abbrev pParseStatement : Nat := 0
/-- The number of `parse_command` (oak-bash parser/mod.rs:44-51). -/
abbrev pParseCommand : Nat := 1

/-- `parse_statement` (oak-bash parser/mod.rs:27-42). -/
def parseStatement : Prog :=
  ite (sees tKeyword)
    (mark (block [
      bump,
      loop (and_ (and_ more (not_ (sees tNewline))) (not_ (sees tDelimiter)))
        bump,
      close eCommandStatement]))
    (call pParseCommand)

/-- `parse_command` (oak-bash parser/mod.rs:44-51). -/
def parseCommand : Prog :=
  mark (block [
    loop (and_ (and_ more (not_ (sees tNewline))) (not_ (sees tDelimiter)))
      bump,
    close eCommandStatement])

/-- `parse` between the checkpoint and the last `finish_at` (oak-bash parser/mod.rs:55-71). -/
def main : Prog :=
  loop (and_ more (not_ (sees tEof)))
    (ite (or_ (sees tNewline) (sees tDelimiter))
      bump
      (catch_ (call pParseStatement)))

/-- The parser (`parse`, oak-bash parser/mod.rs:55-71; `is_ignored`, oak-bash lexer/token_type.rs:52-54). -/
def parser : HandParser where
  ign := [tWhitespace, tNewline, tComment]
  fromStart := false
  root := eRoot
  main := main
  procs := [parseStatement, parseCommand]

end Oaks.Hand.Bash
