import Verif.Model.Prog

/-
The parser of `oak-wgsl` (examples/oak-wgsl/src/parser) as a program: one definition for every function it calls, in the order of the
source. Kinds are the places of the variants in their enums.
-/
namespace Oaks.Hand.Wgsl
open Prog

/-- `WgslTokenType::Identifier` (oak-wgsl lexer/token_type.rs:38). -/
abbrev tIdentifier : Nat := 10
/-- `WgslTokenType::FnKw` (oak-wgsl lexer/token_type.rs:79). -/
abbrev tFnKw : Nat := 47
/-- `WgslTokenType::VarKw` (oak-wgsl lexer/token_type.rs:80). -/
abbrev tVarKw : Nat := 48
/-- `WgslTokenType::LetKw` (oak-wgsl lexer/token_type.rs:81). -/
abbrev tLetKw : Nat := 49
/-- `WgslTokenType::StructKw` (oak-wgsl lexer/token_type.rs:137). -/
abbrev tStructKw : Nat := 95
/-- `WgslTokenType::Assign` (oak-wgsl lexer/token_type.rs:187). -/
abbrev tAssign : Nat := 137
/-- `WgslTokenType::Arrow` (oak-wgsl lexer/token_type.rs:188). -/
abbrev tArrow : Nat := 138
/-- `WgslTokenType::LeftParen` (oak-wgsl lexer/token_type.rs:191). -/
abbrev tLeftParen : Nat := 139
/-- `WgslTokenType::RightParen` (oak-wgsl lexer/token_type.rs:192). -/
abbrev tRightParen : Nat := 140
/-- `WgslTokenType::LeftBrace` (oak-wgsl lexer/token_type.rs:193). -/
abbrev tLeftBrace : Nat := 141
/-- `WgslTokenType::RightBrace` (oak-wgsl lexer/token_type.rs:194). -/
abbrev tRightBrace : Nat := 142
/-- `WgslTokenType::Semicolon` (oak-wgsl lexer/token_type.rs:197). -/
abbrev tSemicolon : Nat := 145
/-- `WgslTokenType::Colon` (oak-wgsl lexer/token_type.rs:200). -/
abbrev tColon : Nat := 148
/-- `WgslElementType::Root` (oak-wgsl parser/element_type.rs:191). -/
abbrev eRoot : Nat := 153
/-- `WgslElementType::Function` (oak-wgsl parser/element_type.rs:192). -/
abbrev eFunction : Nat := 154
/-- `WgslElementType::Struct` (oak-wgsl parser/element_type.rs:193). -/
abbrev eStruct : Nat := 155
/-- `WgslElementType::Variable` (oak-wgsl parser/element_type.rs:194). -/
abbrev eVariable : Nat := 156
/-- `WgslElementType::Block` (oak-wgsl parser/element_type.rs:195). -/
abbrev eBlock : Nat := 157

/-- The number of `parse_function` (oak-wgsl parser/parse_top_level.rs:28-45). -/
abbrev pParseFunction : Nat := 0
/-- The number of `parse_struct` (oak-wgsl parser/parse_top_level.rs:47-57). -/
abbrev pParseStruct : Nat := 1
/-- The number of `parse_variable` (oak-wgsl parser/parse_top_level.rs:59-79). -/
abbrev pParseVariable : Nat := 2
/-- The number of `parse_block` (oak-wgsl parser/parse_top_level.rs:81-89). -/
abbrev pParseBlock : Nat := 3

/-- `parse_function` (oak-wgsl parser/parse_top_level.rs:28-45). -/
def parseFunction : Prog :=
  mark (block [
    expect tFnKw,
    expect tIdentifier,
    expect tLeftParen,
    loop (and_ more (not_ (sees tRightParen)))
      bump,
    expect tRightParen,
    when_ (eat tArrow)
      (expect tIdentifier),
    call pParseBlock,
    close eFunction])

/-- `parse_struct` (oak-wgsl parser/parse_top_level.rs:47-57). -/
def parseStruct : Prog :=
  mark (block [
    expect tStructKw,
    expect tIdentifier,
    expect tLeftBrace,
    loop (and_ more (not_ (sees tRightBrace)))
      bump,
    expect tRightBrace,
    close eStruct])

/-- `parse_variable` (oak-wgsl parser/parse_top_level.rs:59-79). -/
def parseVariable : Prog :=
  mark (block [
    ite (sees tVarKw)
      (expect tVarKw)
      (expect tLetKw),
    expect tIdentifier,
    when_ (eat tColon)
      (expect tIdentifier),
    when_ (eat tAssign)
      (loop (and_ more (not_ (sees tSemicolon)))
        bump),
    expect tSemicolon,
    close eVariable])

/-- `parse_block` (oak-wgsl parser/parse_top_level.rs:81-89). -/
def parseBlock : Prog :=
  mark (block [
    expect tLeftBrace,
    loop (and_ more (not_ (sees tRightBrace)))
      bump,
    expect tRightBrace,
    close eBlock])

/-- `parse_root_internal` between the checkpoint and the last `finish_at` (oak-wgsl parser/parse_top_level.rs:9-26). -/
def main : Prog :=
  loop more
    (ite (sees tFnKw)
      (call pParseFunction)
      (ite (sees tStructKw)
        (call pParseStruct)
        (ite (or_ (sees tVarKw) (sees tLetKw))
          (call pParseVariable)
          bump)))

/-- The parser (`parse_root_internal`, oak-wgsl parser/parse_top_level.rs:9-26; `is_ignored`, oak-wgsl lexer/token_type.rs:11-13). -/
def parser : HandParser where
  ign := []
  fromStart := false
  root := eRoot
  main := main
  procs := [parseFunction, parseStruct, parseVariable, parseBlock]

end Oaks.Hand.Wgsl
