import Verif.Model.Prog

/-
The parser of `oak-perl` (examples/oak-perl/src/parser) as a program: one definition for every function it calls, in the order of the
source. Kinds are the places of the variants in their enums.
-/
namespace Oaks.Hand.Perl
open Prog

/-- `PerlTokenType::Whitespace` (oak-perl lexer/token_type.rs:235). -/
abbrev tWhitespace : Nat := 0
/-- `PerlTokenType::Newline` (oak-perl lexer/token_type.rs:237). -/
abbrev tNewline : Nat := 1
/-- `PerlTokenType::Comment` (oak-perl lexer/token_type.rs:240). -/
abbrev tComment : Nat := 2
/-- `PerlElementType::Root` (oak-perl parser/element_type.rs:8). -/
abbrev eRoot : Nat := 0

/-- The number of `parse_statement` (oak-perl parser/mod.rs:27-35). -/
abbrev pParseStatement : Nat := 0

/-- `parse_statement` (oak-perl parser/mod.rs:27-35); `Err` is `false`: its only caller breaks off. -/
def parseStatement : Prog :=
  ite more
    bump
    (val false)

/-- `parse_root_internal` between the checkpoint and the last `finish_at` (oak-perl parser/parse_top_level.rs:9-17); `Err` of `parse_statement` is `false`. -/
def main : Prog :=
  loop more
    (when_ (not_ (call pParseStatement))
      brk)

/-- The parser (`parse_root_internal`, oak-perl parser/parse_top_level.rs:9-17; `is_ignored`, oak-perl lexer/token_type.rs:54-55, oak-core language/mod.rs:298-300). -/
def parser : HandParser where
  ign := [tWhitespace, tNewline, tComment]
  fromStart := false
  root := eRoot
  main := main
  procs := [parseStatement]

end Oaks.Hand.Perl
