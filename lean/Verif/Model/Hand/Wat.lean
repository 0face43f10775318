import Verif.Model.Prog

/-
The parser of `oak-wat` (examples/oak-wat/src/parser) as a program: one definition for every function it calls, in the order of the
source. Kinds are the places of the variants in their enums.
-/
namespace Oaks.Hand.Wat
open Prog

/-- `WatTokenType::ModuleKw` (oak-wat lexer/token_type.rs:41). -/
abbrev tModuleKw : Nat := 10
/-- `WatTokenType::LeftParen` (oak-wat lexer/token_type.rs:229). -/
abbrev tLeftParen : Nat := 174
/-- `WatTokenType::RightParen` (oak-wat lexer/token_type.rs:230). -/
abbrev tRightParen : Nat := 175
/-- `WatElementType::Root` (oak-wat parser/element_type.rs:243). -/
abbrev eRoot : Nat := 203
/-- `WatElementType::Module` (oak-wat parser/element_type.rs:245). -/
abbrev eModule : Nat := 205
/-- `WatElementType::Item` (oak-wat parser/element_type.rs:246). -/
abbrev eItem : Nat := 206

/-- The number of `parse_item` (oak-wat parser/parse_top_level.rs:19-39). -/
abbrev pParseItem : Nat := 0

/-- `parse_item` (oak-wat parser/parse_top_level.rs:19-39). -/
def parseItem : Prog :=
  block [
    mark (block [
      expect tLeftParen,
      ite (sees tModuleKw)
        (block [
          expect tModuleKw,
          loop (and_ more (not_ (sees tRightParen)))
            (ite (sees tLeftParen)
              (call pParseItem)
              bump),
          expect tRightParen,
          close eModule])
        (block [
          loop (and_ more (not_ (sees tRightParen)))
            bump,
          expect tRightParen,
          close eItem])])]

/-- `parse_root_internal` between the checkpoint and the last `finish_at` (oak-wat parser/parse_top_level.rs:9-17). -/
def main : Prog :=
  block [
    bump,
    loop more
      (ite (sees tLeftParen)
        (call pParseItem)
        bump)]

/-- The parser (`parse_root_internal`, oak-wat parser/parse_top_level.rs:9-17; `is_ignored`, oak-wat lexer/token_type.rs:11-13). -/
def parser : HandParser where
  ign := []
  fromStart := false
  root := eRoot
  main := main
  procs := [parseItem]

end Oaks.Hand.Wat
