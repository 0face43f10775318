import Verif.Model.Prog

/-
The parser of `oak-msil` (examples/oak-msil/src/parser) as a program: one definition for every function it calls, in the order of the
source. Kinds are the places of the variants in their enums.
-/
namespace Oaks.Hand.Msil
open Prog

/-- `MsilTokenType::AssemblyKeyword` (oak-msil lexer/token_type.rs:43). -/
abbrev tAssemblyKeyword : Nat := 15
/-- `MsilTokenType::ExternKeyword` (oak-msil lexer/token_type.rs:44). -/
abbrev tExternKeyword : Nat := 16
/-- `MsilTokenType::ModuleKeyword` (oak-msil lexer/token_type.rs:45). -/
abbrev tModuleKeyword : Nat := 17
/-- `MsilTokenType::ClassKeyword` (oak-msil lexer/token_type.rs:46). -/
abbrev tClassKeyword : Nat := 18
/-- `MsilTokenType::MethodKeyword` (oak-msil lexer/token_type.rs:47). -/
abbrev tMethodKeyword : Nat := 19
/-- `MsilTokenType::PublicKeyword` (oak-msil lexer/token_type.rs:48). -/
abbrev tPublicKeyword : Nat := 20
/-- `MsilTokenType::PrivateKeyword` (oak-msil lexer/token_type.rs:49). -/
abbrev tPrivateKeyword : Nat := 21
/-- `MsilTokenType::StaticKeyword` (oak-msil lexer/token_type.rs:50). -/
abbrev tStaticKeyword : Nat := 22
/-- `MsilTokenType::Keyword` (oak-msil lexer/token_type.rs:51). -/
abbrev tKeyword : Nat := 23
/-- `MsilTokenType::LeftBrace` (oak-msil lexer/token_type.rs:53). -/
abbrev tLeftBrace : Nat := 24
/-- `MsilTokenType::RightBrace` (oak-msil lexer/token_type.rs:54). -/
abbrev tRightBrace : Nat := 25
/-- `MsilTokenType::IdentifierToken` (oak-msil lexer/token_type.rs:67). -/
abbrev tIdentifierToken : Nat := 36
/-- `MsilTokenType::Whitespace` (oak-msil lexer/token_type.rs:72). -/
abbrev tWhitespace : Nat := 39
/-- `MsilTokenType::CommentToken` (oak-msil lexer/token_type.rs:73). -/
abbrev tCommentToken : Nat := 40
/-- `MsilElementType::Root` (oak-msil parser/element_type.rs:9). -/
abbrev eRoot : Nat := 0
/-- `MsilElementType::Assembly` (oak-msil parser/element_type.rs:10). -/
abbrev eAssembly : Nat := 1
/-- `MsilElementType::AssemblyExtern` (oak-msil parser/element_type.rs:11). -/
abbrev eAssemblyExtern : Nat := 2
/-- `MsilElementType::Module` (oak-msil parser/element_type.rs:12). -/
abbrev eModule : Nat := 3
/-- `MsilElementType::Class` (oak-msil parser/element_type.rs:13). -/
abbrev eClass : Nat := 4
/-- `MsilElementType::Method` (oak-msil parser/element_type.rs:14). -/
abbrev eMethod : Nat := 5
/-- `MsilElementType::Identifier` (oak-msil parser/element_type.rs:19). -/
abbrev eIdentifier : Nat := 10

/-- The number of `skip_trivia` (oak-msil parser/parse_top_level.rs:9-18). -/
abbrev pSkipTrivia : Nat := 0
/-- The number of `parse_assembly` (oak-msil parser/parse_top_level.rs:44-81). -/
abbrev pParseAssembly : Nat := 1
/-- The number of `parse_module` (oak-msil parser/parse_top_level.rs:83-95). -/
abbrev pParseModule : Nat := 2
/-- The number of `parse_class` (oak-msil parser/parse_top_level.rs:97-145). -/
abbrev pParseClass : Nat := 3
/-- The number of `parse_method` (oak-msil parser/parse_top_level.rs:147-175). -/
abbrev pParseMethod : Nat := 4

/-- `skip_trivia` (oak-msil parser/parse_top_level.rs:9-18). -/
def skipTrivia : Prog :=
  loop more
    (ite (or_ (sees tWhitespace) (sees tCommentToken))
      bump
      brk)

/-- `parse_assembly` (oak-msil parser/parse_top_level.rs:44-81). -/
def parseAssembly : Prog :=
  block [
    mark (block [
      bump,
      call pSkipTrivia,
      ite (ite (sees tExternKeyword)
          (block [
            bump,
            call pSkipTrivia])
          (val false))
        (set 0 (fun _ => 1))
        (set 0 (fun _ => 0)),
      when_ (sees tIdentifierToken)
        (block [
          mark (block [
            bump,
            close eIdentifier]),
          call pSkipTrivia]),
      when_ (sees tLeftBrace)
        (block [
          bump,
          loop (and_ more (not_ (sees tRightBrace)))
            bump,
          when_ (sees tRightBrace)
            bump]),
      ite (ask (fun v => v.regs 0 != 0))
        (close eAssemblyExtern)
        (close eAssembly)])]

/-- `parse_module` (oak-msil parser/parse_top_level.rs:83-95). -/
def parseModule : Prog :=
  mark (block [
    bump,
    call pSkipTrivia,
    when_ (sees tIdentifierToken)
      (mark (block [
        bump,
        close eIdentifier])),
    close eModule])

/-- `parse_class` (oak-msil parser/parse_top_level.rs:97-145). -/
def parseClass : Prog :=
  mark (block [
    bump,
    call pSkipTrivia,
    loop (or_ (or_ (or_ (sees tPublicKeyword) (sees tPrivateKeyword)) (sees tStaticKeyword)) (sees tKeyword))
      (block [
        bump,
        call pSkipTrivia]),
    when_ (sees tIdentifierToken)
      (block [
        mark (block [
          bump,
          close eIdentifier]),
        call pSkipTrivia]),
    when_ (and_ (or_ (sees tIdentifierToken) (sees tKeyword)) (ask (fun v => v.textIs "extends")))
      (block [
        bump,
        call pSkipTrivia,
        loop (and_ more (not_ (sees tLeftBrace)))
          bump]),
    when_ (sees tLeftBrace)
      (block [
        bump,
        loop (and_ more (not_ (sees tRightBrace)))
          (block [
            call pSkipTrivia,
            when_ (or_ (not_ more) (sees tRightBrace))
              brk,
            ite (sees tMethodKeyword)
              (call pParseMethod)
              bump]),
        when_ (sees tRightBrace)
          bump]),
    close eClass])

/-- `parse_method` (oak-msil parser/parse_top_level.rs:147-175). -/
def parseMethod : Prog :=
  mark (block [
    bump,
    call pSkipTrivia,
    loop (and_ more (not_ (sees tLeftBrace)))
      (ite (sees tIdentifierToken)
        (block [
          mark (block [
            bump,
            close eIdentifier]),
          call pSkipTrivia])
        bump),
    when_ (sees tLeftBrace)
      (block [
        bump,
        loop (and_ more (not_ (sees tRightBrace)))
          bump,
        when_ (sees tRightBrace)
          bump]),
    close eMethod])

/-- `parse_root_internal` between the checkpoint and the last `finish_at` (oak-msil parser/parse_top_level.rs:20-42). -/
def main : Prog :=
  loop more
    (block [
      call pSkipTrivia,
      when_ (not_ more)
        brk,
      ite (sees tAssemblyKeyword)
        (call pParseAssembly)
        (ite (sees tModuleKeyword)
          (call pParseModule)
          (ite (sees tClassKeyword)
            (call pParseClass)
            bump))])

/-- The parser (`parse_root_internal`, oak-msil parser/parse_top_level.rs:20-42; `is_ignored`, oak-msil lexer/token_type.rs:11-13). -/
def parser : HandParser where
  ign := []
  fromStart := false
  root := eRoot
  main := main
  procs := [skipTrivia, parseAssembly, parseModule, parseClass, parseMethod]

end Oaks.Hand.Msil
