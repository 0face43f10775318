import Verif.Model.Prog

/-
The parser of `oak-protobuf` (examples/oak-protobuf/src/parser) as a program: one definition for every function it calls, in the order of the
source. Kinds are the places of the variants in their enums.
-/
namespace Oaks.Hand.Protobuf
open Prog

/-- `ProtobufTokenType::StringLiteral` (oak-protobuf lexer/token_type.rs:33). -/
abbrev tStringLiteral : Nat := 3
/-- `ProtobufTokenType::Identifier` (oak-protobuf lexer/token_type.rs:38). -/
abbrev tIdentifier : Nat := 6
/-- `ProtobufTokenType::Syntax` (oak-protobuf lexer/token_type.rs:41). -/
abbrev tSyntax : Nat := 7
/-- `ProtobufTokenType::Package` (oak-protobuf lexer/token_type.rs:42). -/
abbrev tPackage : Nat := 8
/-- `ProtobufTokenType::Import` (oak-protobuf lexer/token_type.rs:43). -/
abbrev tImport : Nat := 9
/-- `ProtobufTokenType::Option` (oak-protobuf lexer/token_type.rs:44). -/
abbrev tOption : Nat := 10
/-- `ProtobufTokenType::Message` (oak-protobuf lexer/token_type.rs:45). -/
abbrev tMessage : Nat := 11
/-- `ProtobufTokenType::Enum` (oak-protobuf lexer/token_type.rs:46). -/
abbrev tEnum : Nat := 12
/-- `ProtobufTokenType::Service` (oak-protobuf lexer/token_type.rs:47). -/
abbrev tService : Nat := 13
/-- `ProtobufTokenType::Public` (oak-protobuf lexer/token_type.rs:60). -/
abbrev tPublic : Nat := 26
/-- `ProtobufTokenType::Weak` (oak-protobuf lexer/token_type.rs:61). -/
abbrev tWeak : Nat := 27
/-- `ProtobufTokenType::Assign` (oak-protobuf lexer/token_type.rs:81). -/
abbrev tAssign : Nat := 43
/-- `ProtobufTokenType::Semicolon` (oak-protobuf lexer/token_type.rs:82). -/
abbrev tSemicolon : Nat := 44
/-- `ProtobufTokenType::LeftBrace` (oak-protobuf lexer/token_type.rs:91). -/
abbrev tLeftBrace : Nat := 51
/-- `ProtobufTokenType::RightBrace` (oak-protobuf lexer/token_type.rs:92). -/
abbrev tRightBrace : Nat := 52
/-- `ProtobufElementType::Root` (oak-protobuf parser/element_type.rs:8). -/
abbrev eRoot : Nat := 0
/-- `ProtobufElementType::SyntaxDef` (oak-protobuf parser/element_type.rs:17). -/
abbrev eSyntaxDef : Nat := 6
/-- `ProtobufElementType::PackageDef` (oak-protobuf parser/element_type.rs:18). -/
abbrev ePackageDef : Nat := 7
/-- `ProtobufElementType::ImportDef` (oak-protobuf parser/element_type.rs:19). -/
abbrev eImportDef : Nat := 8
/-- `ProtobufElementType::OptionDef` (oak-protobuf parser/element_type.rs:20). -/
abbrev eOptionDef : Nat := 9
/-- `ProtobufElementType::MessageDef` (oak-protobuf parser/element_type.rs:21). -/
abbrev eMessageDef : Nat := 10
/-- `ProtobufElementType::EnumDef` (oak-protobuf parser/element_type.rs:22). -/
abbrev eEnumDef : Nat := 11
/-- `ProtobufElementType::ServiceDef` (oak-protobuf parser/element_type.rs:23). -/
abbrev eServiceDef : Nat := 12

/-- The number of `parse_program` (oak-protobuf parser/mod.rs:32-59). -/
abbrev pParseProgram : Nat := 0
/-- The number of `parse_syntax` (oak-protobuf parser/mod.rs:61-68). -/
abbrev pParseSyntax : Nat := 1
/-- The number of `parse_package` (oak-protobuf parser/mod.rs:70-76). -/
abbrev pParsePackage : Nat := 2
/-- The number of `parse_import` (oak-protobuf parser/mod.rs:78-87). -/
abbrev pParseImport : Nat := 3
/-- The number of `parse_option` (oak-protobuf parser/mod.rs:89-97). -/
abbrev pParseOption : Nat := 4
/-- The number of `parse_message` (oak-protobuf parser/mod.rs:99-109). -/
abbrev pParseMessage : Nat := 5
/-- The number of `parse_enum` (oak-protobuf parser/mod.rs:111-121). -/
abbrev pParseEnum : Nat := 6
/-- The number of `parse_service` (oak-protobuf parser/mod.rs:123-133). -/
abbrev pParseService : Nat := 7

/-- `parse_program` (oak-protobuf parser/mod.rs:32-59). -/
def parseProgram : Prog :=
  loop more
    (ite (sees tSyntax)
      (call pParseSyntax)
      (ite (sees tPackage)
        (call pParsePackage)
        (ite (sees tImport)
          (call pParseImport)
          (ite (sees tOption)
            (call pParseOption)
            (ite (sees tMessage)
              (call pParseMessage)
              (ite (sees tEnum)
                (call pParseEnum)
                (ite (sees tService)
                  (call pParseService)
                  bump)))))))

/-- `parse_syntax` (oak-protobuf parser/mod.rs:61-68). -/
def parseSyntax : Prog :=
  mark (block [
    expect tSyntax,
    expect tAssign,
    expect tStringLiteral,
    expect tSemicolon,
    close eSyntaxDef])

/-- `parse_package` (oak-protobuf parser/mod.rs:70-76). -/
def parsePackage : Prog :=
  mark (block [
    expect tPackage,
    expect tIdentifier,
    expect tSemicolon,
    close ePackageDef])

/-- `parse_import` (oak-protobuf parser/mod.rs:78-87). -/
def parseImport : Prog :=
  mark (block [
    expect tImport,
    when_ (or_ (sees tPublic) (sees tWeak))
      bump,
    expect tStringLiteral,
    expect tSemicolon,
    close eImportDef])

/-- `parse_option` (oak-protobuf parser/mod.rs:89-97). -/
def parseOption : Prog :=
  mark (block [
    expect tOption,
    expect tIdentifier,
    expect tAssign,
    bump,
    expect tSemicolon,
    close eOptionDef])

/-- `parse_message` (oak-protobuf parser/mod.rs:99-109). -/
def parseMessage : Prog :=
  mark (block [
    expect tMessage,
    expect tIdentifier,
    expect tLeftBrace,
    loop (and_ (not_ (sees tRightBrace)) more)
      bump,
    expect tRightBrace,
    close eMessageDef])

/-- `parse_enum` (oak-protobuf parser/mod.rs:111-121). -/
def parseEnum : Prog :=
  mark (block [
    expect tEnum,
    expect tIdentifier,
    expect tLeftBrace,
    loop (and_ (not_ (sees tRightBrace)) more)
      bump,
    expect tRightBrace,
    close eEnumDef])

/-- `parse_service` (oak-protobuf parser/mod.rs:123-133). -/
def parseService : Prog :=
  mark (block [
    expect tService,
    expect tIdentifier,
    expect tLeftBrace,
    loop (and_ (not_ (sees tRightBrace)) more)
      bump,
    expect tRightBrace,
    close eServiceDef])

/-- `parse_root_internal` between the checkpoint and the last `finish_at` (oak-protobuf parser/mod.rs:26-30). -/
def main : Prog :=
  call pParseProgram

/-- The parser (`parse_root_internal`, oak-protobuf parser/mod.rs:26-30; `is_ignored`, oak-protobuf lexer/token_type.rs:11-13). -/
def parser : HandParser where
  ign := []
  fromStart := false
  root := eRoot
  main := main
  procs := [parseProgram, parseSyntax, parsePackage, parseImport, parseOption, parseMessage, parseEnum, parseService]

end Oaks.Hand.Protobuf
