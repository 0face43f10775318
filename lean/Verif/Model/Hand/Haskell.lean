import Verif.Model.Prog

/-
The parser of `oak-haskell` (examples/oak-haskell/src/parser) as a program: one definition for every function it calls, in the order of the
source. Kinds are the places of the variants in their enums.
-/
namespace Oaks.Hand.Haskell
open Prog

/-- `HaskellTokenType::Whitespace` (oak-haskell lexer/token_type.rs:10). -/
abbrev tWhitespace : Nat := 0
/-- `HaskellTokenType::Newline` (oak-haskell lexer/token_type.rs:11). -/
abbrev tNewline : Nat := 1
/-- `HaskellTokenType::Comment` (oak-haskell lexer/token_type.rs:12). -/
abbrev tComment : Nat := 2
/-- `HaskellElementType::Root` (oak-haskell parser/element_type.rs:92). -/
abbrev eRoot : Nat := 84

/-- The number of `parse_item` (oak-haskell parser/parse_top_level.rs:21-25). -/
abbrev pParseItem : Nat := 0

/-- `parse_item` (oak-haskell parser/parse_top_level.rs:21-25). -/
def parseItem : Prog :=
  bump

/-- `parse_root_internal` between the checkpoint and the last `finish_at` (oak-haskell parser/parse_top_level.rs:11-19). -/
def main : Prog :=
  loop more
    (call pParseItem)

/-- The parser (`parse_root_internal`, oak-haskell parser/parse_top_level.rs:11-19; `is_ignored`, oak-haskell lexer/token_type.rs:196-202, oak-core language/mod.rs:298-300). -/
def parser : HandParser where
  ign := [tWhitespace, tNewline, tComment]
  fromStart := false
  root := eRoot
  main := main
  procs := [parseItem]

end Oaks.Hand.Haskell
