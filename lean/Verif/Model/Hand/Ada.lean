import Verif.Model.Prog

/-
The parser of `oak-ada` (examples/oak-ada/src/parser) as a program: one definition for every function it calls, in the order of the
source. Kinds are the places of the variants in their enums.
-/
namespace Oaks.Hand.Ada
open Prog

/-- `AdaTokenType::Whitespace` (oak-ada lexer/token_type.rs:9). -/
abbrev tWhitespace : Nat := 0
/-- `AdaTokenType::Newline` (oak-ada lexer/token_type.rs:10). -/
abbrev tNewline : Nat := 1
/-- `AdaTokenType::Comment` (oak-ada lexer/token_type.rs:11). -/
abbrev tComment : Nat := 2
/-- `AdaTokenType::Identifier` (oak-ada lexer/token_type.rs:16). -/
abbrev tIdentifier : Nat := 6
/-- `AdaTokenType::Body` (oak-ada lexer/token_type.rs:29). -/
abbrev tBody : Nat := 18
/-- `AdaTokenType::End` (oak-ada lexer/token_type.rs:39). -/
abbrev tEnd : Nat := 28
/-- `AdaTokenType::Function` (oak-ada lexer/token_type.rs:44). -/
abbrev tFunction : Nat := 33
/-- `AdaTokenType::Is` (oak-ada lexer/token_type.rs:50). -/
abbrev tIs : Nat := 39
/-- `AdaTokenType::Package` (oak-ada lexer/token_type.rs:62). -/
abbrev tPackage : Nat := 51
/-- `AdaTokenType::Pragma` (oak-ada lexer/token_type.rs:63). -/
abbrev tPragma : Nat := 52
/-- `AdaTokenType::Procedure` (oak-ada lexer/token_type.rs:65). -/
abbrev tProcedure : Nat := 54
/-- `AdaTokenType::Return` (oak-ada lexer/token_type.rs:73). -/
abbrev tReturn : Nat := 62
/-- `AdaTokenType::With` (oak-ada lexer/token_type.rs:89). -/
abbrev tWith : Nat := 78
/-- `AdaTokenType::Dot` (oak-ada lexer/token_type.rs:107). -/
abbrev tDot : Nat := 94
/-- `AdaTokenType::Semicolon` (oak-ada lexer/token_type.rs:111). -/
abbrev tSemicolon : Nat := 98
/-- `AdaTokenType::LeftParen` (oak-ada lexer/token_type.rs:116). -/
abbrev tLeftParen : Nat := 103
/-- `AdaTokenType::RightParen` (oak-ada lexer/token_type.rs:117). -/
abbrev tRightParen : Nat := 104
/-- `AdaTokenType::Eof` (oak-ada lexer/token_type.rs:128). -/
abbrev tEof : Nat := 114
/-- `AdaElementType::Root` (oak-ada parser/element_type.rs:15). -/
abbrev eRoot : Nat := 0
/-- `AdaElementType::ContextClause` (oak-ada parser/element_type.rs:19). -/
abbrev eContextClause : Nat := 2
/-- `AdaElementType::Pragma` (oak-ada parser/element_type.rs:21). -/
abbrev ePragma : Nat := 3
/-- `AdaElementType::SubprogramDeclaration` (oak-ada parser/element_type.rs:23). -/
abbrev eSubprogramDeclaration : Nat := 4
/-- `AdaElementType::PackageDeclaration` (oak-ada parser/element_type.rs:25). -/
abbrev ePackageDeclaration : Nat := 5

/-- The number of `parse_context_clause` (oak-ada parser/mod.rs:24-41). -/
abbrev pParseContextClause : Nat := 0
/-- The number of `parse_package_declaration` (oak-ada parser/mod.rs:43-71). -/
abbrev pParsePackageDeclaration : Nat := 1
/-- The number of `parse_subprogram_declaration` (oak-ada parser/mod.rs:73-113). -/
abbrev pParseSubprogramDeclaration : Nat := 2
/-- The number of `parse_pragma` (oak-ada parser/mod.rs:115-131). -/
abbrev pParsePragma : Nat := 3

/-- `parse_context_clause` (oak-ada parser/mod.rs:24-41). -/
def parseContextClause : Prog :=
  mark (block [
    expect tWith,
    loop (sees tIdentifier)
      (block [
        advance,
        ite (sees tDot)
          advance
          brk]),
    expect tSemicolon,
    close eContextClause])

/-- `parse_package_declaration` (oak-ada parser/mod.rs:43-71). -/
def parsePackageDeclaration : Prog :=
  mark (block [
    expect tPackage,
    when_ (sees tBody)
      advance,
    expect tIdentifier,
    expect tIs,
    loop (and_ more (not_ (sees tEnd)))
      (ite (or_ (sees tProcedure) (sees tFunction))
        (call pParseSubprogramDeclaration)
        advance),
    expect tEnd,
    when_ (sees tIdentifier)
      advance,
    expect tSemicolon,
    close ePackageDeclaration])

/-- `parse_subprogram_declaration` (oak-ada parser/mod.rs:73-113). -/
def parseSubprogramDeclaration : Prog :=
  mark (block [
    ite (sees tProcedure)
      advance
      (expect tFunction),
    expect tIdentifier,
    when_ (sees tLeftParen)
      (block [
        advance,
        loop (and_ more (not_ (sees tRightParen)))
          advance,
        expect tRightParen]),
    when_ (sees tReturn)
      (block [
        advance,
        expect tIdentifier]),
    when_ (sees tIs)
      (block [
        advance,
        loop (and_ more (not_ (sees tEnd)))
          advance,
        expect tEnd,
        when_ (sees tIdentifier)
          advance]),
    expect tSemicolon,
    close eSubprogramDeclaration])

/-- `parse_pragma` (oak-ada parser/mod.rs:115-131). -/
def parsePragma : Prog :=
  mark (block [
    expect tPragma,
    expect tIdentifier,
    when_ (sees tLeftParen)
      (block [
        advance,
        loop (and_ more (not_ (sees tRightParen)))
          advance,
        expect tRightParen]),
    expect tSemicolon,
    close ePragma])

/-- `parse` between the checkpoint and the last `finish_at` (oak-ada parser/mod.rs:135-160). -/
def main : Prog :=
  loop (and_ more (not_ (sees tEof)))
    (ite (sees tWith)
      (call pParseContextClause)
      (ite (sees tPackage)
        (call pParsePackageDeclaration)
        (ite (or_ (sees tProcedure) (sees tFunction))
          (call pParseSubprogramDeclaration)
          (ite (sees tPragma)
            (call pParsePragma)
            bump))))

/-- The parser (`parse`, oak-ada parser/mod.rs:135-160; `is_ignored`, oak-ada lexer/token_type.rs:228-234, oak-core language/mod.rs:298-300). -/
def parser : HandParser where
  ign := [tWhitespace, tNewline, tComment]
  fromStart := false
  root := eRoot
  main := main
  procs := [parseContextClause, parsePackageDeclaration, parseSubprogramDeclaration, parsePragma]

end Oaks.Hand.Ada
