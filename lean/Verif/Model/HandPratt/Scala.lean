import Verif.Model.Prog

/-
The parser of `oak-scala` (examples/oak-scala/src/parser) as a program: one definition for every function it calls, in the order of the
source. Kinds are the places of the variants in their enums.
-/
namespace Oaks.Hand.Scala
open Prog

/-- `ScalaTokenType::Whitespace` (oak-scala lexer/token_type.rs:14). -/
abbrev tWhitespace : Nat := 1
/-- `ScalaTokenType::Newline` (oak-scala lexer/token_type.rs:15). -/
abbrev tNewline : Nat := 2
/-- `ScalaTokenType::Comment` (oak-scala lexer/token_type.rs:16). -/
abbrev tComment : Nat := 3
/-- `ScalaElementType::SourceFile` (oak-scala parser/element_type.rs:9). -/
abbrev eSourceFile : Nat := 0


/-- `parse_root_internal` between the checkpoint and the last `finish_at` (oak-scala parser/mod.rs:26-34). -/
def main : Prog :=
  loop more
    advance

/-- The parser (`parse_root_internal`, oak-scala parser/mod.rs:26-34; `is_ignored`, oak-scala lexer/token_type.rs:134-136). -/
def parser : HandParser where
  ign := [tWhitespace, tNewline, tComment]
  fromStart := false
  root := eSourceFile
  main := main
  procs := []

end Oaks.Hand.Scala
