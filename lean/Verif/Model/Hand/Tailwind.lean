import Verif.Model.Prog

/-
The parser of `oak-tailwind` (examples/oak-tailwind/src/parser) as a program: one definition for every function it calls, in the order of the
source. Kinds are the places of the variants in their enums.
-/
namespace Oaks.Hand.Tailwind
open Prog

/-- `TailwindTokenType::Comment` (oak-tailwind lexer/token_type.rs:18). -/
abbrev tComment : Nat := 8
/-- `TailwindTokenType::DoubleLeftBrace` (oak-tailwind lexer/token_type.rs:34). -/
abbrev tDoubleLeftBrace : Nat := 24
/-- `TailwindTokenType::DoubleRightBrace` (oak-tailwind lexer/token_type.rs:35). -/
abbrev tDoubleRightBrace : Nat := 25
/-- `TailwindTokenType::LeftBracePercent` (oak-tailwind lexer/token_type.rs:36). -/
abbrev tLeftBracePercent : Nat := 26
/-- `TailwindTokenType::PercentRightBrace` (oak-tailwind lexer/token_type.rs:37). -/
abbrev tPercentRightBrace : Nat := 27
/-- `TailwindTokenType::Whitespace` (oak-tailwind lexer/token_type.rs:58). -/
abbrev tWhitespace : Nat := 48
/-- `TailwindElementType::Root` (oak-tailwind parser/element_type.rs:8). -/
abbrev eRoot : Nat := 0
/-- `TailwindElementType::Variable` (oak-tailwind parser/element_type.rs:12). -/
abbrev eVariable : Nat := 4
/-- `TailwindElementType::Tag` (oak-tailwind parser/element_type.rs:15). -/
abbrev eTag : Nat := 7

/-- The number of `parse_variable` (oak-tailwind parser/parse_top_level.rs:29-40). -/
abbrev pParseVariable : Nat := 0
/-- The number of `parse_tag` (oak-tailwind parser/parse_top_level.rs:43-54). -/
abbrev pParseTag : Nat := 1

/-- `parse_variable` (oak-tailwind parser/parse_top_level.rs:29-40). -/
def parseVariable : Prog :=
  mark (block [
    need tDoubleLeftBrace,
    loop (and_ more (not_ (sees tDoubleRightBrace)))
      advance,
    need tDoubleRightBrace,
    close eVariable])

/-- `parse_tag` (oak-tailwind parser/parse_top_level.rs:43-54). -/
def parseTag : Prog :=
  mark (block [
    need tLeftBracePercent,
    loop (and_ more (not_ (sees tPercentRightBrace)))
      advance,
    need tPercentRightBrace,
    close eTag])

/-- `parse_root_internal` between the checkpoint and the last `finish_at` (oak-tailwind parser/parse_top_level.rs:10-26). -/
def main : Prog :=
  loop more
    (ite (sees tDoubleLeftBrace)
      (call pParseVariable)
      (ite (sees tLeftBracePercent)
        (call pParseTag)
        advance))

/-- The parser (`parse_root_internal`, oak-tailwind parser/parse_top_level.rs:10-26; `is_ignored`, oak-tailwind lexer/token_type.rs:125-127). -/
def parser : HandParser where
  ign := [tWhitespace, tComment]
  fromStart := false
  root := eRoot
  main := main
  procs := [parseVariable, parseTag]

end Oaks.Hand.Tailwind
