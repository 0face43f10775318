import Verif.Model.Prog

/-
The parser of `oak-fsharp` (examples/oak-fsharp/src/parser) as a program: one definition for every function it calls, in the order of the
source. Kinds are the places of the variants in their enums.
-/
namespace Oaks.Hand.Fsharp
open Prog

/-- `FSharpTokenType::Whitespace` (oak-fsharp lexer/token_type.rs:13). -/
abbrev tWhitespace : Nat := 2
/-- `FSharpTokenType::Newline` (oak-fsharp lexer/token_type.rs:14). -/
abbrev tNewline : Nat := 3
/-- `FSharpTokenType::Identifier` (oak-fsharp lexer/token_type.rs:17). -/
abbrev tIdentifier : Nat := 4
/-- `FSharpTokenType::Let` (oak-fsharp lexer/token_type.rs:26). -/
abbrev tLet : Nat := 11
/-- `FSharpTokenType::Rec` (oak-fsharp lexer/token_type.rs:27). -/
abbrev tRec : Nat := 12
/-- `FSharpTokenType::If` (oak-fsharp lexer/token_type.rs:30). -/
abbrev tIf : Nat := 15
/-- `FSharpTokenType::Then` (oak-fsharp lexer/token_type.rs:31). -/
abbrev tThen : Nat := 16
/-- `FSharpTokenType::Else` (oak-fsharp lexer/token_type.rs:32). -/
abbrev tElse : Nat := 17
/-- `FSharpTokenType::Module` (oak-fsharp lexer/token_type.rs:48). -/
abbrev tModule : Nat := 29
/-- `FSharpTokenType::Namespace` (oak-fsharp lexer/token_type.rs:49). -/
abbrev tNamespace : Nat := 30
/-- `FSharpTokenType::Open` (oak-fsharp lexer/token_type.rs:50). -/
abbrev tOpen : Nat := 31
/-- `FSharpTokenType::Equal` (oak-fsharp lexer/token_type.rs:144). -/
abbrev tEqual : Nat := 105
/-- `FSharpTokenType::Dot` (oak-fsharp lexer/token_type.rs:212). -/
abbrev tDot : Nat := 161
/-- `FSharpTokenType::LineComment` (oak-fsharp lexer/token_type.rs:221). -/
abbrev tLineComment : Nat := 168
/-- `FSharpTokenType::BlockComment` (oak-fsharp lexer/token_type.rs:222). -/
abbrev tBlockComment : Nat := 169
/-- `FSharpElementType::Root` (oak-fsharp parser/element_type.rs:9). -/
abbrev eRoot : Nat := 0
/-- `FSharpElementType::Expression` (oak-fsharp parser/element_type.rs:10). -/
abbrev eExpression : Nat := 1
/-- `FSharpElementType::Let` (oak-fsharp parser/element_type.rs:24). -/
abbrev eLet : Nat := 11
/-- `FSharpElementType::If` (oak-fsharp parser/element_type.rs:28). -/
abbrev eIf : Nat := 15
/-- `FSharpElementType::Module` (oak-fsharp parser/element_type.rs:46). -/
abbrev eModule : Nat := 29
/-- `FSharpElementType::Namespace` (oak-fsharp parser/element_type.rs:47). -/
abbrev eNamespace : Nat := 30
/-- `FSharpElementType::Open` (oak-fsharp parser/element_type.rs:48). -/
abbrev eOpen : Nat := 31

/-- The number of `parse_namespace` (oak-fsharp parser/parse_top_level.rs:25-37). -/
abbrev pParseNamespace : Nat := 0
/-- The number of `parse_module` (oak-fsharp parser/parse_top_level.rs:39-49). -/
abbrev pParseModule : Nat := 1
/-- The number of `parse_open` (oak-fsharp parser/parse_top_level.rs:51-63). -/
abbrev pParseOpen : Nat := 2
/-- The number of `parse_binding` (oak-fsharp parser/parse_top_level.rs:65-89). -/
abbrev pParseBinding : Nat := 3
/-- The number of `parse_expression` (oak-fsharp parser/parse_top_level.rs:91-122). -/
abbrev pParseExpression : Nat := 4

/-- `parse_namespace` (oak-fsharp parser/parse_top_level.rs:25-37). -/
def parseNamespace : Prog :=
  mark (block [
    need tNamespace,
    loop (and_ more (sees tIdentifier))
      (block [
        bump,
        ite (sees tDot)
          bump
          brk]),
    close eNamespace])

/-- `parse_module` (oak-fsharp parser/parse_top_level.rs:39-49). -/
def parseModule : Prog :=
  mark (block [
    need tModule,
    when_ (sees tIdentifier)
      bump,
    close eModule])

/-- `parse_open` (oak-fsharp parser/parse_top_level.rs:51-63). -/
def parseOpen : Prog :=
  mark (block [
    need tOpen,
    loop (and_ more (sees tIdentifier))
      (block [
        bump,
        ite (sees tDot)
          bump
          brk]),
    close eOpen])

/-- `parse_binding` (oak-fsharp parser/parse_top_level.rs:65-89). -/
def parseBinding : Prog :=
  mark (block [
    need tLet,
    when_ (eat tRec)
      (val true),
    need tIdentifier,
    loop (and_ more (sees tIdentifier))
      bump,
    need tEqual,
    call pParseExpression,
    close eLet])

/-- `parse_expression` (oak-fsharp parser/parse_top_level.rs:91-122). -/
def parseExpression : Prog :=
  mark (ite (sees tIf)
    (block [
      need tIf,
      call pParseExpression,
      need tThen,
      call pParseExpression,
      when_ (eat tElse)
        (call pParseExpression),
      close eIf])
    (block [
      loop more
        (block [
          when_ (seesAny [tNewline, tThen, tElse])
            brk,
          bump]),
      when_ (ask (fun v => v.index == v.cp))
        bump,
      close eExpression]))

/-- `parse_root_internal` between the checkpoint and the last `finish_at` (oak-fsharp parser/parse_top_level.rs:9-23). -/
def main : Prog :=
  loop more
    (ite (sees tNamespace)
      (call pParseNamespace)
      (ite (sees tModule)
        (call pParseModule)
        (ite (sees tOpen)
          (call pParseOpen)
          (ite (sees tLet)
            (call pParseBinding)
            bump))))

/-- The parser (`parse_root_internal`, oak-fsharp parser/parse_top_level.rs:9-23; `is_ignored`, oak-fsharp lexer/token_type.rs:306-308). -/
def parser : HandParser where
  ign := [tWhitespace, tNewline, tLineComment, tBlockComment]
  fromStart := true
  root := eRoot
  main := main
  procs := [parseNamespace, parseModule, parseOpen, parseBinding, parseExpression]

end Oaks.Hand.Fsharp
