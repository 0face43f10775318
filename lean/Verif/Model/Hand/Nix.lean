import Verif.Model.Prog

/-
The parser of `oak-nix` (examples/oak-nix/src/parser) as a program: one definition for every function it calls, in the order of the
source. Kinds are the places of the variants in their enums.
-/
namespace Oaks.Hand.Nix
open Prog

/-- `NixTokenType::Whitespace` (oak-nix lexer/token_type.rs:75). -/
abbrev tWhitespace : Nat := 0
/-- `NixTokenType::Newline` (oak-nix lexer/token_type.rs:76). -/
abbrev tNewline : Nat := 1
/-- `NixTokenType::Comment` (oak-nix lexer/token_type.rs:77). -/
abbrev tComment : Nat := 2
/-- `NixTokenType::Identifier` (oak-nix lexer/token_type.rs:84). -/
abbrev tIdentifier : Nat := 9
/-- `NixTokenType::Let` (oak-nix lexer/token_type.rs:87). -/
abbrev tLet : Nat := 10
/-- `NixTokenType::In` (oak-nix lexer/token_type.rs:88). -/
abbrev tIn : Nat := 11
/-- `NixTokenType::If` (oak-nix lexer/token_type.rs:89). -/
abbrev tIf : Nat := 12
/-- `NixTokenType::Then` (oak-nix lexer/token_type.rs:90). -/
abbrev tThen : Nat := 13
/-- `NixTokenType::Else` (oak-nix lexer/token_type.rs:91). -/
abbrev tElse : Nat := 14
/-- `NixTokenType::Assign` (oak-nix lexer/token_type.rs:118). -/
abbrev tAssign : Nat := 39
/-- `NixTokenType::LeftBrace` (oak-nix lexer/token_type.rs:124). -/
abbrev tLeftBrace : Nat := 43
/-- `NixTokenType::RightBrace` (oak-nix lexer/token_type.rs:125). -/
abbrev tRightBrace : Nat := 44
/-- `NixTokenType::LeftBracket` (oak-nix lexer/token_type.rs:126). -/
abbrev tLeftBracket : Nat := 45
/-- `NixTokenType::RightBracket` (oak-nix lexer/token_type.rs:127). -/
abbrev tRightBracket : Nat := 46
/-- `NixTokenType::Semicolon` (oak-nix lexer/token_type.rs:128). -/
abbrev tSemicolon : Nat := 47
/-- `NixTokenType::Colon` (oak-nix lexer/token_type.rs:129). -/
abbrev tColon : Nat := 48
/-- `NixElementType::Root` (oak-nix parser/element_type.rs:71). -/
abbrev eRoot : Nat := 54
/-- `NixElementType::Set` (oak-nix parser/element_type.rs:72). -/
abbrev eSet : Nat := 55
/-- `NixElementType::List` (oak-nix parser/element_type.rs:73). -/
abbrev eList : Nat := 56
/-- `NixElementType::LetIn` (oak-nix parser/element_type.rs:75). -/
abbrev eLetIn : Nat := 58
/-- `NixElementType::IfThenElse` (oak-nix parser/element_type.rs:76). -/
abbrev eIfThenElse : Nat := 59
/-- `NixElementType::Binding` (oak-nix parser/element_type.rs:78). -/
abbrev eBinding : Nat := 61

/-- The number of `parse_expr` (oak-nix parser/mod.rs:23-39). -/
abbrev pParseExpr : Nat := 0
/-- The number of `parse_set` (oak-nix parser/mod.rs:41-49). -/
abbrev pParseSet : Nat := 1
/-- The number of `parse_list` (oak-nix parser/mod.rs:51-59). -/
abbrev pParseList : Nat := 2
/-- The number of `parse_let_in` (oak-nix parser/mod.rs:61-72). -/
abbrev pParseLetIn : Nat := 3
/-- The number of `parse_if_then_else` (oak-nix parser/mod.rs:74-87). -/
abbrev pParseIfThenElse : Nat := 4
/-- The number of `parse_binding` (oak-nix parser/mod.rs:89-98). -/
abbrev pParseBinding : Nat := 5

/-- `parse_expr` (oak-nix parser/mod.rs:23-39). -/
def parseExpr : Prog :=
  ite (sees tLeftBrace)
    (call pParseSet)
    (ite (sees tLeftBracket)
      (call pParseList)
      (ite (sees tLet)
        (call pParseLetIn)
        (ite (sees tIf)
          (call pParseIfThenElse)
          (ite (sees tIdentifier)
            (block [
              bump,
              when_ (sees tColon)
                (block [
                  bump,
                  call pParseExpr])])
            bump))))

/-- `parse_set` (oak-nix parser/mod.rs:41-49). -/
def parseSet : Prog :=
  mark (block [
    expect tLeftBrace,
    loop (and_ more (not_ (sees tRightBrace)))
      (call pParseBinding),
    expect tRightBrace,
    close eSet])

/-- `parse_list` (oak-nix parser/mod.rs:51-59). -/
def parseList : Prog :=
  mark (block [
    expect tLeftBracket,
    loop (and_ more (not_ (sees tRightBracket)))
      (call pParseExpr),
    expect tRightBracket,
    close eList])

/-- `parse_let_in` (oak-nix parser/mod.rs:61-72). -/
def parseLetIn : Prog :=
  mark (block [
    expect tLet,
    loop (and_ more (not_ (sees tIn)))
      (call pParseBinding),
    when_ (sees tIn)
      (block [
        bump,
        call pParseExpr]),
    close eLetIn])

/-- `parse_if_then_else` (oak-nix parser/mod.rs:74-87). -/
def parseIfThenElse : Prog :=
  mark (block [
    expect tIf,
    call pParseExpr,
    when_ (sees tThen)
      (block [
        bump,
        call pParseExpr]),
    when_ (sees tElse)
      (block [
        bump,
        call pParseExpr]),
    close eIfThenElse])

/-- `parse_binding` (oak-nix parser/mod.rs:89-98). -/
def parseBinding : Prog :=
  mark (block [
    expect tIdentifier,
    when_ (sees tAssign)
      (block [
        bump,
        call pParseExpr,
        expect tSemicolon]),
    close eBinding])

/-- `parse` between the checkpoint and the last `finish_at` (oak-nix parser/mod.rs:102-113). -/
def main : Prog :=
  loop more
    (call pParseExpr)

/-- The parser (`parse`, oak-nix parser/mod.rs:102-113; `is_ignored`, oak-nix lexer/token_type.rs:53-55). -/
def parser : HandParser where
  ign := [tWhitespace, tNewline, tComment]
  fromStart := false
  root := eRoot
  main := main
  procs := [parseExpr, parseSet, parseList, parseLetIn, parseIfThenElse, parseBinding]

end Oaks.Hand.Nix
