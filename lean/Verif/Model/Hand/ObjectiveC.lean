import Verif.Model.Prog

/-
The parser of `oak-objective-c` (examples/oak-objective-c/src/parser) as a program: one definition for every function it calls, in the order of the
source. Kinds are the places of the variants in their enums.
-/
namespace Oaks.Hand.ObjectiveC
open Prog

/-- `ObjectiveCTokenType::InterfaceKeyword` (oak-objective-c lexer/token_type.rs:39). -/
abbrev tInterfaceKeyword : Nat := 8
/-- `ObjectiveCTokenType::ImplementationKeyword` (oak-objective-c lexer/token_type.rs:40). -/
abbrev tImplementationKeyword : Nat := 9
/-- `ObjectiveCTokenType::EndKeyword` (oak-objective-c lexer/token_type.rs:41). -/
abbrev tEndKeyword : Nat := 10
/-- `ObjectiveCTokenType::ProtocolKeyword` (oak-objective-c lexer/token_type.rs:45). -/
abbrev tProtocolKeyword : Nat := 14
/-- `ObjectiveCTokenType::ImportKeyword` (oak-objective-c lexer/token_type.rs:47). -/
abbrev tImportKeyword : Nat := 16
/-- `ObjectiveCTokenType::IncludeKeyword` (oak-objective-c lexer/token_type.rs:48). -/
abbrev tIncludeKeyword : Nat := 17
/-- `ObjectiveCTokenType::Semicolon` (oak-objective-c lexer/token_type.rs:80). -/
abbrev tSemicolon : Nat := 47
/-- `ObjectiveCTokenType::At` (oak-objective-c lexer/token_type.rs:100). -/
abbrev tAt : Nat := 67
/-- `ObjectiveCTokenType::Whitespace` (oak-objective-c lexer/token_type.rs:110). -/
abbrev tWhitespace : Nat := 73
/-- `ObjectiveCTokenType::Newline` (oak-objective-c lexer/token_type.rs:111). -/
abbrev tNewline : Nat := 74
/-- `ObjectiveCTokenType::CommentToken` (oak-objective-c lexer/token_type.rs:112). -/
abbrev tCommentToken : Nat := 75
/-- `ObjectiveCElementType::Root` (oak-objective-c parser/element_type.rs:8). -/
abbrev eRoot : Nat := 0
/-- `ObjectiveCElementType::InterfaceDeclaration` (oak-objective-c parser/element_type.rs:9). -/
abbrev eInterfaceDeclaration : Nat := 1
/-- `ObjectiveCElementType::ImplementationDeclaration` (oak-objective-c parser/element_type.rs:10). -/
abbrev eImplementationDeclaration : Nat := 2
/-- `ObjectiveCElementType::ProtocolDeclaration` (oak-objective-c parser/element_type.rs:11). -/
abbrev eProtocolDeclaration : Nat := 3
/-- `ObjectiveCElementType::Error` (oak-objective-c parser/element_type.rs:16). -/
abbrev eError : Nat := 8

/-- The number of `parse_item` (oak-objective-c parser/mod.rs:24-49). -/
abbrev pParseItem : Nat := 0
/-- The number of `parse_interface` (oak-objective-c parser/mod.rs:51-62). -/
abbrev pParseInterface : Nat := 1
/-- The number of `parse_implementation` (oak-objective-c parser/mod.rs:64-75). -/
abbrev pParseImplementation : Nat := 2
/-- The number of `parse_protocol` (oak-objective-c parser/mod.rs:77-88). -/
abbrev pParseProtocol : Nat := 3
/-- The number of `parse_import` (oak-objective-c parser/mod.rs:90-99). -/
abbrev pParseImport : Nat := 4

/-- `parse_item` (oak-objective-c parser/mod.rs:24-49). -/
def parseItem : Prog :=
  ite (sees tAt)
    (block [
      bump,
      ite (sees tInterfaceKeyword)
        (call pParseInterface)
        (ite (sees tImplementationKeyword)
          (call pParseImplementation)
          (ite (sees tProtocolKeyword)
            (call pParseProtocol)
            (mark (block [
              bump,
              close eError]))))])
    (ite (or_ (sees tImportKeyword) (sees tIncludeKeyword))
      (call pParseImport)
      bump)

/-- `parse_interface` (oak-objective-c parser/mod.rs:51-62). -/
def parseInterface : Prog :=
  mark (block [
    expect tInterfaceKeyword,
    loop (and_ more (not_ (sees tEndKeyword)))
      bump,
    when_ (sees tEndKeyword)
      (expect tEndKeyword),
    close eInterfaceDeclaration])

/-- `parse_implementation` (oak-objective-c parser/mod.rs:64-75). -/
def parseImplementation : Prog :=
  mark (block [
    expect tImplementationKeyword,
    loop (and_ more (not_ (sees tEndKeyword)))
      bump,
    when_ (sees tEndKeyword)
      (expect tEndKeyword),
    close eImplementationDeclaration])

/-- `parse_protocol` (oak-objective-c parser/mod.rs:77-88). -/
def parseProtocol : Prog :=
  mark (block [
    expect tProtocolKeyword,
    loop (and_ more (not_ (sees tEndKeyword)))
      bump,
    when_ (sees tEndKeyword)
      (expect tEndKeyword),
    close eProtocolDeclaration])

/-- `parse_import` (oak-objective-c parser/mod.rs:90-99). -/
def parseImport : Prog :=
  block [
    bump,
    loop (and_ (and_ more (not_ (sees tSemicolon))) (not_ (sees tNewline)))
      bump,
    when_ (sees tSemicolon)
      (expect tSemicolon)]

/-- `parse` between the checkpoint and the last `finish_at` (oak-objective-c parser/mod.rs:103-114). -/
def main : Prog :=
  loop more
    (call pParseItem)

/-- The parser (`parse`, oak-objective-c parser/mod.rs:103-114; `is_ignored`, oak-objective-c lexer/token_type.rs:9-14). -/
def parser : HandParser where
  ign := [tWhitespace, tNewline, tCommentToken]
  fromStart := false
  root := eRoot
  main := main
  procs := [parseItem, parseInterface, parseImplementation, parseProtocol, parseImport]

end Oaks.Hand.ObjectiveC
