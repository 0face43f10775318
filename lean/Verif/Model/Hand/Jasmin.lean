import Verif.Model.Prog

/-
The parser of `oak-jasmin` (examples/oak-jasmin/src/parser) as a program: one definition for every function it calls, in the order of the
source. Kinds are the places of the variants in their enums.
-/
namespace Oaks.Hand.Jasmin
open Prog

/-- `JasminElementType::Root` (oak-jasmin parser/element_type.rs:8). -/
abbrev eRoot : Nat := 0


/-- `parse_root_internal` between the checkpoint and the last `finish_at` (oak-jasmin parser/parse_root.rs:9-15). -/
def main : Prog :=
  loop more
    bump

/-- The parser (`parse_root_internal`, oak-jasmin parser/parse_root.rs:9-15; `is_ignored`, oak-jasmin lexer/token_type.rs:11-13). -/
def parser : HandParser where
  ign := []
  fromStart := false
  root := eRoot
  main := main
  procs := []

end Oaks.Hand.Jasmin
