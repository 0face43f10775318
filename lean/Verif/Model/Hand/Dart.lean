import Verif.Model.Prog

/-
The parser of `oak-dart` (examples/oak-dart/src/parser) as a program: one definition for every function it calls, in the order of the
source. Kinds are the places of the variants in their enums.
-/
namespace Oaks.Hand.Dart
open Prog

/-- `DartTokenType::Whitespace` (oak-dart lexer/token_type.rs:18). -/
abbrev tWhitespace : Nat := 4
/-- `DartTokenType::Newline` (oak-dart lexer/token_type.rs:20). -/
abbrev tNewline : Nat := 5
/-- `DartTokenType::Identifier` (oak-dart lexer/token_type.rs:22). -/
abbrev tIdentifier : Nat := 6
/-- `DartTokenType::Class` (oak-dart lexer/token_type.rs:50). -/
abbrev tClass : Nat := 20
/-- `DartTokenType::Dynamic` (oak-dart lexer/token_type.rs:64). -/
abbrev tDynamic : Nat := 27
/-- `DartTokenType::Int` (oak-dart lexer/token_type.rs:104). -/
abbrev tInt : Nat := 47
/-- `DartTokenType::Void` (oak-dart lexer/token_type.rs:154). -/
abbrev tVoid : Nat := 72
/-- `DartTokenType::Equal` (oak-dart lexer/token_type.rs:174). -/
abbrev tEqual : Nat := 82
/-- `DartTokenType::LeftParen` (oak-dart lexer/token_type.rs:248). -/
abbrev tLeftParen : Nat := 119
/-- `DartTokenType::RightParen` (oak-dart lexer/token_type.rs:250). -/
abbrev tRightParen : Nat := 120
/-- `DartTokenType::LeftBrace` (oak-dart lexer/token_type.rs:256). -/
abbrev tLeftBrace : Nat := 123
/-- `DartTokenType::RightBrace` (oak-dart lexer/token_type.rs:258). -/
abbrev tRightBrace : Nat := 124
/-- `DartTokenType::Semicolon` (oak-dart lexer/token_type.rs:260). -/
abbrev tSemicolon : Nat := 125
/-- `DartTokenType::LineComment` (oak-dart lexer/token_type.rs:270). -/
abbrev tLineComment : Nat := 130
/-- `DartTokenType::BlockComment` (oak-dart lexer/token_type.rs:272). -/
abbrev tBlockComment : Nat := 131
/-- `DartTokenType::DocComment` (oak-dart lexer/token_type.rs:274). -/
abbrev tDocComment : Nat := 132
/-- `DartElementType::Root` (oak-dart parser/element_type.rs:8). -/
abbrev eRoot : Nat := 0
/-- `DartElementType::ClassDeclaration` (oak-dart parser/element_type.rs:9). -/
abbrev eClassDeclaration : Nat := 1
/-- `DartElementType::FunctionDeclaration` (oak-dart parser/element_type.rs:10). -/
abbrev eFunctionDeclaration : Nat := 2
/-- `DartElementType::VariableDeclaration` (oak-dart parser/element_type.rs:142). -/
abbrev eVariableDeclaration : Nat := 134


/-- `parse_root_internal` between the checkpoint and the last `finish_at` (oak-dart parser/parse_top_level.rs:9-69). -/
def main : Prog :=
  loop more
    (ite (sees tClass)
      (mark (block [
        bump,
        when_ (sees tIdentifier)
          bump,
        when_ (sees tLeftBrace)
          (block [
            bump,
            loop (and_ more (not_ (sees tRightBrace)))
              bump,
            eat tRightBrace]),
        close eClassDeclaration]))
      (ite (or_ (or_ (sees tVoid) (sees tInt)) (sees tDynamic))
        (block [
          mark (block [
            bump,
            when_ (sees tIdentifier)
              bump,
            ite (sees tLeftParen)
              (block [
                bump,
                loop (and_ more (not_ (sees tRightParen)))
                  bump,
                eat tRightParen,
                when_ (sees tLeftBrace)
                  (block [
                    bump,
                    loop (and_ more (not_ (sees tRightBrace)))
                      bump,
                    eat tRightBrace]),
                close eFunctionDeclaration])
              (block [
                when_ (eat tEqual)
                  (loop (and_ more (not_ (sees tSemicolon)))
                    bump),
                eat tSemicolon,
                close eVariableDeclaration])])])
        bump))

/-- The parser (`parse_root_internal`, oak-dart parser/parse_top_level.rs:9-69; `is_ignored`, oak-dart lexer/token_type.rs:285-287). -/
def parser : HandParser where
  ign := [tWhitespace, tNewline, tLineComment, tBlockComment, tDocComment]
  fromStart := true
  root := eRoot
  main := main
  procs := []

end Oaks.Hand.Dart
