import Verif.Model.Prog

/-
The parser of `oak-html` (examples/oak-html/src/parser) as a program: one definition for every function it calls, in the order of the
source. Kinds are the places of the variants in their enums.
-/
namespace Oaks.Hand.Html
open Prog

/-- `HtmlTokenType::TagOpen` (oak-html lexer/token_type.rs:10). -/
abbrev tTagOpen : Nat := 0
/-- `HtmlTokenType::TagClose` (oak-html lexer/token_type.rs:11). -/
abbrev tTagClose : Nat := 1
/-- `HtmlTokenType::TagSlashOpen` (oak-html lexer/token_type.rs:12). -/
abbrev tTagSlashOpen : Nat := 2
/-- `HtmlTokenType::TagSelfClose` (oak-html lexer/token_type.rs:13). -/
abbrev tTagSelfClose : Nat := 3
/-- `HtmlTokenType::TagName` (oak-html lexer/token_type.rs:14). -/
abbrev tTagName : Nat := 4
/-- `HtmlTokenType::AttributeName` (oak-html lexer/token_type.rs:15). -/
abbrev tAttributeName : Nat := 5
/-- `HtmlTokenType::AttributeValue` (oak-html lexer/token_type.rs:16). -/
abbrev tAttributeValue : Nat := 6
/-- `HtmlTokenType::Comment` (oak-html lexer/token_type.rs:19). -/
abbrev tComment : Nat := 9
/-- `HtmlTokenType::Equal` (oak-html lexer/token_type.rs:20). -/
abbrev tEqual : Nat := 10
/-- `HtmlTokenType::Quote` (oak-html lexer/token_type.rs:21). -/
abbrev tQuote : Nat := 11
/-- `HtmlTokenType::Doctype` (oak-html lexer/token_type.rs:22). -/
abbrev tDoctype : Nat := 12
/-- `HtmlTokenType::Whitespace` (oak-html lexer/token_type.rs:27). -/
abbrev tWhitespace : Nat := 17
/-- `HtmlTokenType::Newline` (oak-html lexer/token_type.rs:28). -/
abbrev tNewline : Nat := 18
/-- `HtmlElementType::Attribute` (oak-html parser/element_type.rs:15). -/
abbrev eAttribute : Nat := 7
/-- `HtmlElementType::Document` (oak-html parser/element_type.rs:27). -/
abbrev eDocument : Nat := 19
/-- `HtmlElementType::Element` (oak-html parser/element_type.rs:28). -/
abbrev eElement : Nat := 20

/-- The number of `parse_tag` (oak-html parser/mod.rs:55-99). -/
abbrev pParseTag : Nat := 0

/-- `parse_tag` (oak-html parser/mod.rs:55-99). -/
def parseTag : Prog :=
  mark (block [
    expect tTagOpen,
    expect tTagName,
    loop (and_ more (not_ (seesAny [tTagClose, tTagSelfClose])))
      (ite (sees tAttributeName)
        (mark (block [
          bump,
          when_ (eat tEqual)
            (block [
              eat tQuote,
              eat tAttributeValue,
              eat tQuote]),
          close eAttribute]))
        advance),
    ite (eat tTagSelfClose)
      (val true)
      (when_ (eat tTagClose)
        (block [
          loop (and_ more (not_ (sees tTagSlashOpen)))
            (ite (sees tTagOpen)
              (call pParseTag)
              advance),
          when_ (eat tTagSlashOpen)
            (block [
              eat tTagName,
              expect tTagClose])])),
    close eElement])

/-- `parse_root_internal` between the checkpoint and the last `finish_at` (oak-html parser/mod.rs:30-49). -/
def main : Prog :=
  loop more
    (ite (sees tTagOpen)
      (call pParseTag)
      (ite (sees tDoctype)
        bump
        (ite (sees tComment)
          bump
          bump)))

/-- The parser (`parse_root_internal`, oak-html parser/mod.rs:30-49; `is_ignored`, oak-html lexer/token_type.rs:39-41). -/
def parser : HandParser where
  ign := [tWhitespace, tNewline, tComment]
  fromStart := false
  root := eDocument
  main := main
  procs := [parseTag]

end Oaks.Hand.Html
