import Verif.Model.Prog

/-
The parser of `oak-vhdl` (examples/oak-vhdl/src/parser) as a program: one definition for every function it calls, in the order of the
source. Kinds are the places of the variants in their enums.
-/
namespace Oaks.Hand.Vhdl
open Prog

/-- `VhdlTokenType::Whitespace` (oak-vhdl lexer/token_type.rs:13). -/
abbrev tWhitespace : Nat := 2
/-- `VhdlTokenType::Comment` (oak-vhdl lexer/token_type.rs:14). -/
abbrev tComment : Nat := 3
/-- `VhdlTokenType::Identifier` (oak-vhdl lexer/token_type.rs:15). -/
abbrev tIdentifier : Nat := 4
/-- `VhdlTokenType::EntityKw` (oak-vhdl lexer/token_type.rs:26). -/
abbrev tEntityKw : Nat := 11
/-- `VhdlTokenType::ArchitectureKw` (oak-vhdl lexer/token_type.rs:27). -/
abbrev tArchitectureKw : Nat := 12
/-- `VhdlTokenType::EndKw` (oak-vhdl lexer/token_type.rs:29). -/
abbrev tEndKw : Nat := 14
/-- `VhdlTokenType::LibraryKw` (oak-vhdl lexer/token_type.rs:38). -/
abbrev tLibraryKw : Nat := 23
/-- `VhdlTokenType::UseKw` (oak-vhdl lexer/token_type.rs:39). -/
abbrev tUseKw : Nat := 24
/-- `VhdlTokenType::PackageKw` (oak-vhdl lexer/token_type.rs:40). -/
abbrev tPackageKw : Nat := 25
/-- `VhdlTokenType::BodyKw` (oak-vhdl lexer/token_type.rs:41). -/
abbrev tBodyKw : Nat := 26
/-- `VhdlTokenType::IsKw` (oak-vhdl lexer/token_type.rs:76). -/
abbrev tIsKw : Nat := 61
/-- `VhdlTokenType::OfKw` (oak-vhdl lexer/token_type.rs:77). -/
abbrev tOfKw : Nat := 62
/-- `VhdlTokenType::Semicolon` (oak-vhdl lexer/token_type.rs:147). -/
abbrev tSemicolon : Nat := 124
/-- `VhdlElementType::Root` (oak-vhdl parser/element_type.rs:148). -/
abbrev eRoot : Nat := 137
/-- `VhdlElementType::EntityDeclaration` (oak-vhdl parser/element_type.rs:149). -/
abbrev eEntityDeclaration : Nat := 138
/-- `VhdlElementType::ArchitectureBody` (oak-vhdl parser/element_type.rs:150). -/
abbrev eArchitectureBody : Nat := 139
/-- `VhdlElementType::PackageDeclaration` (oak-vhdl parser/element_type.rs:151). -/
abbrev ePackageDeclaration : Nat := 140
/-- `VhdlElementType::PackageBody` (oak-vhdl parser/element_type.rs:152). -/
abbrev ePackageBody : Nat := 141
/-- `VhdlElementType::LibraryClause` (oak-vhdl parser/element_type.rs:154). -/
abbrev eLibraryClause : Nat := 143
/-- `VhdlElementType::UseClause` (oak-vhdl parser/element_type.rs:155). -/
abbrev eUseClause : Nat := 144

/-- The number of `parse_library_clause` (oak-vhdl parser/parse_top_level.rs:35-43). -/
abbrev pParseLibraryClause : Nat := 0
/-- The number of `parse_use_clause` (oak-vhdl parser/parse_top_level.rs:45-53). -/
abbrev pParseUseClause : Nat := 1
/-- The number of `parse_entity_declaration` (oak-vhdl parser/parse_top_level.rs:55-73). -/
abbrev pParseEntityDeclaration : Nat := 2
/-- The number of `parse_architecture_body` (oak-vhdl parser/parse_top_level.rs:75-95). -/
abbrev pParseArchitectureBody : Nat := 3
/-- The number of `parse_package_declaration` (oak-vhdl parser/parse_top_level.rs:97-133). -/
abbrev pParsePackageDeclaration : Nat := 4

/-- `parse_library_clause` (oak-vhdl parser/parse_top_level.rs:35-43). -/
def parseLibraryClause : Prog :=
  mark (block [
    expect tLibraryKw,
    loop (and_ more (not_ (sees tSemicolon)))
      advance,
    eat tSemicolon,
    close eLibraryClause])

/-- `parse_use_clause` (oak-vhdl parser/parse_top_level.rs:45-53). -/
def parseUseClause : Prog :=
  mark (block [
    expect tUseKw,
    loop (and_ more (not_ (sees tSemicolon)))
      advance,
    eat tSemicolon,
    close eUseClause])

/-- `parse_entity_declaration` (oak-vhdl parser/parse_top_level.rs:55-73). -/
def parseEntityDeclaration : Prog :=
  mark (block [
    expect tEntityKw,
    expect tIdentifier,
    expect tIsKw,
    loop more
      (block [
        when_ (sees tEndKw)
          (block [
            advance,
            eat tEntityKw,
            eat tIdentifier,
            eat tSemicolon,
            brk]),
        advance]),
    close eEntityDeclaration])

/-- `parse_architecture_body` (oak-vhdl parser/parse_top_level.rs:75-95). -/
def parseArchitectureBody : Prog :=
  mark (block [
    expect tArchitectureKw,
    expect tIdentifier,
    expect tOfKw,
    expect tIdentifier,
    expect tIsKw,
    loop more
      (block [
        when_ (sees tEndKw)
          (block [
            advance,
            eat tArchitectureKw,
            eat tIdentifier,
            eat tSemicolon,
            brk]),
        advance]),
    close eArchitectureBody])

/-- `parse_package_declaration` (oak-vhdl parser/parse_top_level.rs:97-133). -/
def parsePackageDeclaration : Prog :=
  block [
    mark (block [
      expect tPackageKw,
      ite (eat tBodyKw)
        (block [
          expect tIdentifier,
          expect tIsKw,
          loop more
            (block [
              when_ (sees tEndKw)
                (block [
                  advance,
                  eat tPackageKw,
                  eat tBodyKw,
                  eat tIdentifier,
                  eat tSemicolon,
                  brk]),
              advance]),
          close ePackageBody])
        (block [
          expect tIdentifier,
          expect tIsKw,
          loop more
            (block [
              when_ (sees tEndKw)
                (block [
                  advance,
                  eat tPackageKw,
                  eat tIdentifier,
                  eat tSemicolon,
                  brk]),
              advance]),
          close ePackageDeclaration])])]

/-- `parse_root_internal` between the checkpoint and the last `finish_at` (oak-vhdl parser/parse_top_level.rs:8-33). -/
def main : Prog :=
  loop more
    (ite (sees tLibraryKw)
      (call pParseLibraryClause)
      (ite (sees tUseKw)
        (call pParseUseClause)
        (ite (sees tEntityKw)
          (call pParseEntityDeclaration)
          (ite (sees tArchitectureKw)
            (call pParseArchitectureBody)
            (ite (sees tPackageKw)
              (call pParsePackageDeclaration)
              advance)))))

/-- The parser (`parse_root_internal`, oak-vhdl parser/parse_top_level.rs:8-33; `is_ignored`, oak-vhdl lexer/token_type.rs:168-169, oak-core language/mod.rs:298-300). -/
def parser : HandParser where
  ign := [tWhitespace, tComment]
  fromStart := false
  root := eRoot
  main := main
  procs := [parseLibraryClause, parseUseClause, parseEntityDeclaration, parseArchitectureBody, parsePackageDeclaration]

end Oaks.Hand.Vhdl
