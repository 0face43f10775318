import Verif.Model.Prog

/-
The parser of `oak-bat` (examples/oak-bat/src/parser) as a program: one definition for every function it calls, in the order of the
source. Kinds are the places of the variants in their enums.
-/
namespace Oaks.Hand.Bat
open Prog

/-- `BatTokenType::Whitespace` (oak-bat lexer/token_type.rs:11). -/
abbrev tWhitespace : Nat := 0
/-- `BatTokenType::Newline` (oak-bat lexer/token_type.rs:13). -/
abbrev tNewline : Nat := 1
/-- `BatTokenType::Comment` (oak-bat lexer/token_type.rs:15). -/
abbrev tComment : Nat := 2
/-- `BatTokenType::Eof` (oak-bat lexer/token_type.rs:39). -/
abbrev tEof : Nat := 14
/-- `BatElementType::Root` (oak-bat parser/element_type.rs:13). -/
abbrev eRoot : Nat := 1


/-- `parse` between the checkpoint and the last `finish_at` (oak-bat parser/mod.rs:29-38). -/
def main : Prog :=
  loop (and_ more (not_ (sees tEof)))
    bump

/-- The parser (`parse`, oak-bat parser/mod.rs:29-38; `is_ignored`, oak-bat lexer/token_type.rs:50-56, oak-core language/mod.rs:298-300). -/
def parser : HandParser where
  ign := [tWhitespace, tNewline, tComment]
  fromStart := false
  root := eRoot
  main := main
  procs := []

end Oaks.Hand.Bat
