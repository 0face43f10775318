import Verif.Model.Prog

/-
The parser of `oak-voc` (examples/oak-voc/src/parser) as a program: one definition for every function it calls, in the order of the
source. Kinds are the places of the variants in their enums.
-/
namespace Oaks.Hand.Voc
open Prog

/-- `VocTokenType::Identifier` (oak-voc lexer/token_type.rs:13). -/
abbrev tIdentifier : Nat := 1
/-- `VocTokenType::Keyword` (oak-voc lexer/token_type.rs:14). -/
abbrev tKeyword : Nat := 2
/-- `VocTokenType::StringLiteral` (oak-voc lexer/token_type.rs:15). -/
abbrev tStringLiteral : Nat := 3
/-- `VocTokenType::TagOpen` (oak-voc lexer/token_type.rs:40). -/
abbrev tTagOpen : Nat := 24
/-- `VocTokenType::TagClose` (oak-voc lexer/token_type.rs:41). -/
abbrev tTagClose : Nat := 25
/-- `VocTokenType::TagSelfClose` (oak-voc lexer/token_type.rs:42). -/
abbrev tTagSelfClose : Nat := 26
/-- `VocTokenType::TagSlash` (oak-voc lexer/token_type.rs:43). -/
abbrev tTagSlash : Nat := 27
/-- `VocTokenType::AttrEq` (oak-voc lexer/token_type.rs:44). -/
abbrev tAttrEq : Nat := 28
/-- `VocTokenType::InterpolationStart` (oak-voc lexer/token_type.rs:98). -/
abbrev tInterpolationStart : Nat := 77
/-- `VocTokenType::InterpolationEnd` (oak-voc lexer/token_type.rs:99). -/
abbrev tInterpolationEnd : Nat := 78
/-- `VocTokenType::TemplateControlStart` (oak-voc lexer/token_type.rs:100). -/
abbrev tTemplateControlStart : Nat := 79
/-- `VocTokenType::TemplateControlEnd` (oak-voc lexer/token_type.rs:101). -/
abbrev tTemplateControlEnd : Nat := 80
/-- `VocTokenType::Whitespace` (oak-voc lexer/token_type.rs:105). -/
abbrev tWhitespace : Nat := 82
/-- `VocTokenType::Comment` (oak-voc lexer/token_type.rs:107). -/
abbrev tComment : Nat := 84
/-- `VocTokenType::Eof` (oak-voc lexer/token_type.rs:109). -/
abbrev tEof : Nat := 86
/-- `VocElementType::SourceFile` (oak-voc parser/element_type.rs:10). -/
abbrev eSourceFile : Nat := 1
/-- `VocElementType::Tag` (oak-voc parser/element_type.rs:11). -/
abbrev eTag : Nat := 2
/-- `VocElementType::Attribute` (oak-voc parser/element_type.rs:12). -/
abbrev eAttribute : Nat := 3
/-- `VocElementType::Interpolation` (oak-voc parser/element_type.rs:13). -/
abbrev eInterpolation : Nat := 4
/-- `VocElementType::TemplateControl` (oak-voc parser/element_type.rs:14). -/
abbrev eTemplateControl : Nat := 5

/-- The number of `parse_component_root` (oak-voc parser/parse_top_level.rs:33-49). -/
abbrev pParseComponentRoot : Nat := 0
/-- The number of `parse_tag` (oak-voc parser/parse_top_level.rs:51-82). -/
abbrev pParseTag : Nat := 1
/-- The number of `parse_attribute` (oak-voc parser/parse_top_level.rs:84-96). -/
abbrev pParseAttribute : Nat := 2
/-- The number of `parse_interpolation` (oak-voc parser/parse_top_level.rs:98-109). -/
abbrev pParseInterpolation : Nat := 3
/-- The number of `parse_template_control` (oak-voc parser/parse_top_level.rs:111-121). -/
abbrev pParseTemplateControl : Nat := 4

/-- `parse_component_root` (oak-voc parser/parse_top_level.rs:33-49). -/
def parseComponentRoot : Prog :=
  loop (and_ more (not_ (sees tEof)))
    (ite (sees tTagOpen)
      (call pParseTag)
      (ite (sees tInterpolationStart)
        (call pParseInterpolation)
        (ite (sees tTemplateControlStart)
          (call pParseTemplateControl)
          bump)))

/-- `parse_tag` (oak-voc parser/parse_top_level.rs:51-82); the keywords have one kind. -/
def parseTag : Prog :=
  block [
    mark (block [
      need tTagOpen,
      when_ (sees tTagSlash)
        bump,
      when_ (or_ (sees tIdentifier) (sees tKeyword))
        bump,
      loop (and_ (and_ more (not_ (sees tTagClose))) (not_ (sees tTagSelfClose)))
        (ite (sees tIdentifier)
          (call pParseAttribute)
          bump),
      ite (sees tTagSelfClose)
        bump
        (need tTagClose),
      close eTag])]

/-- `parse_attribute` (oak-voc parser/parse_top_level.rs:84-96). -/
def parseAttribute : Prog :=
  block [
    mark (block [
      need tIdentifier,
      when_ (sees tAttrEq)
        (block [
          bump,
          when_ (sees tStringLiteral)
            bump]),
      close eAttribute])]

/-- `parse_interpolation` (oak-voc parser/parse_top_level.rs:98-109). -/
def parseInterpolation : Prog :=
  block [
    mark (block [
      need tInterpolationStart,
      loop (and_ more (not_ (sees tInterpolationEnd)))
        bump,
      need tInterpolationEnd,
      close eInterpolation])]

/-- `parse_template_control` (oak-voc parser/parse_top_level.rs:111-121). -/
def parseTemplateControl : Prog :=
  block [
    mark (block [
      need tTemplateControlStart,
      loop (and_ more (not_ (sees tTemplateControlEnd)))
        bump,
      need tTemplateControlEnd,
      close eTemplateControl])]

/-- `parse_root_internal` between the checkpoint and the last `finish_at` (oak-voc parser/parse_top_level.rs:9-22); in the component mode. -/
def main : Prog :=
  call pParseComponentRoot

/-- The parser (`parse_root_internal`, oak-voc parser/parse_top_level.rs:9-22; `is_ignored`, oak-voc lexer/token_type.rs:116-118). -/
def parser : HandParser where
  ign := [tWhitespace, tComment]
  fromStart := false
  root := eSourceFile
  main := main
  procs := [parseComponentRoot, parseTag, parseAttribute, parseInterpolation, parseTemplateControl]

end Oaks.Hand.Voc
