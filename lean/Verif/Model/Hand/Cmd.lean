import Verif.Model.Prog

/-
The parser of `oak-cmd` (examples/oak-cmd/src/parser) as a program: one definition for every function it calls, in the order of the
source. Kinds are the places of the variants in their enums.
-/
namespace Oaks.Hand.Cmd
open Prog

/-- `CmdTokenType::Whitespace` (oak-cmd lexer/token_type.rs:11). -/
abbrev tWhitespace : Nat := 0
/-- `CmdTokenType::Newline` (oak-cmd lexer/token_type.rs:13). -/
abbrev tNewline : Nat := 1
/-- `CmdTokenType::Comment` (oak-cmd lexer/token_type.rs:15). -/
abbrev tComment : Nat := 2
/-- `CmdTokenType::Eof` (oak-cmd lexer/token_type.rs:39). -/
abbrev tEof : Nat := 14
/-- `CmdElementType::Root` (oak-cmd parser/element_type.rs:13). -/
abbrev eRoot : Nat := 1


/-- `parse` between the checkpoint and the last `finish_at` (oak-cmd parser/mod.rs:29-38). -/
def main : Prog :=
  loop (and_ more (not_ (sees tEof)))
    bump

/-- The parser (`parse`, oak-cmd parser/mod.rs:29-38; `is_ignored`, oak-cmd lexer/token_type.rs:50-56, oak-core language/mod.rs:298-300). -/
def parser : HandParser where
  ign := [tWhitespace, tNewline, tComment]
  fromStart := false
  root := eRoot
  main := main
  procs := []

end Oaks.Hand.Cmd
