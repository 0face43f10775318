import Verif.Model.Prog

/-
The parser of `oak-nginx` (examples/oak-nginx/src/parser) as a program: one definition for every function it calls, in the order of the
source. Kinds are the places of the variants in their enums.
-/
namespace Oaks.Hand.Nginx
open Prog

/-- `NginxTokenType::ServerKeyword` (oak-nginx lexer/token_type.rs:19). -/
abbrev tServerKeyword : Nat := 6
/-- `NginxTokenType::LocationKeyword` (oak-nginx lexer/token_type.rs:20). -/
abbrev tLocationKeyword : Nat := 7
/-- `NginxTokenType::UpstreamKeyword` (oak-nginx lexer/token_type.rs:21). -/
abbrev tUpstreamKeyword : Nat := 8
/-- `NginxTokenType::HttpKeyword` (oak-nginx lexer/token_type.rs:22). -/
abbrev tHttpKeyword : Nat := 9
/-- `NginxTokenType::EventsKeyword` (oak-nginx lexer/token_type.rs:23). -/
abbrev tEventsKeyword : Nat := 10
/-- `NginxTokenType::LeftBrace` (oak-nginx lexer/token_type.rs:31). -/
abbrev tLeftBrace : Nat := 16
/-- `NginxTokenType::RightBrace` (oak-nginx lexer/token_type.rs:32). -/
abbrev tRightBrace : Nat := 17
/-- `NginxTokenType::Semicolon` (oak-nginx lexer/token_type.rs:33). -/
abbrev tSemicolon : Nat := 18
/-- `NginxTokenType::Whitespace` (oak-nginx lexer/token_type.rs:43). -/
abbrev tWhitespace : Nat := 24
/-- `NginxTokenType::Newline` (oak-nginx lexer/token_type.rs:44). -/
abbrev tNewline : Nat := 25
/-- `NginxTokenType::CommentToken` (oak-nginx lexer/token_type.rs:45). -/
abbrev tCommentToken : Nat := 26
/-- `NginxElementType::Root` (oak-nginx parser/element_type.rs:8). -/
abbrev eRoot : Nat := 0
/-- `NginxElementType::Directive` (oak-nginx parser/element_type.rs:9). -/
abbrev eDirective : Nat := 1
/-- `NginxElementType::Block` (oak-nginx parser/element_type.rs:10). -/
abbrev eBlock : Nat := 2
/-- `NginxElementType::Parameter` (oak-nginx parser/element_type.rs:11). -/
abbrev eParameter : Nat := 3
/-- `NginxElementType::Comment` (oak-nginx parser/element_type.rs:13). -/
abbrev eComment : Nat := 5

/-- The number of `parse_directive` (oak-nginx parser/mod.rs:23-49). -/
abbrev pParseDirective : Nat := 0
/-- The number of `parse_block` (oak-nginx parser/mod.rs:51-72). -/
abbrev pParseBlock : Nat := 1

/-- `parse_directive` (oak-nginx parser/mod.rs:23-49). -/
def parseDirective : Prog :=
  block [
    when_ (sees tCommentToken)
      (block [
        mark (block [
          bump,
          close eComment]),
        ret true]),
    ite (seesAny [tHttpKeyword, tServerKeyword, tLocationKeyword, tEventsKeyword, tUpstreamKeyword])
      (set 0 (fun _ => 1))
      (set 0 (fun _ => 0)),
    ite (ask (fun v => v.regs 0 != 0))
      (call pParseBlock)
      (mark (block [
        bump,
        loop (and_ (and_ more (not_ (sees tSemicolon))) (not_ (sees tLeftBrace)))
          (mark (block [
            bump,
            close eParameter])),
        when_ (sees tSemicolon)
          bump,
        close eDirective]))]

/-- `parse_block` (oak-nginx parser/mod.rs:51-72). -/
def parseBlock : Prog :=
  mark (block [
    bump,
    loop (and_ more (not_ (sees tLeftBrace)))
      (mark (block [
        bump,
        close eParameter])),
    when_ (sees tLeftBrace)
      (block [
        bump,
        loop (and_ more (not_ (sees tRightBrace)))
          (call pParseDirective),
        when_ (sees tRightBrace)
          bump]),
    close eBlock])

/-- `parse_root_internal` between the checkpoint and the last `finish_at` (oak-nginx parser/mod.rs:74-81). -/
def main : Prog :=
  loop more
    (call pParseDirective)

/-- The parser (`parse_root_internal`, oak-nginx parser/mod.rs:74-81; `is_ignored`, oak-nginx lexer/token_type.rs:75-76, oak-core language/mod.rs:298-300). -/
def parser : HandParser where
  ign := [tWhitespace, tNewline, tCommentToken]
  fromStart := false
  root := eRoot
  main := main
  procs := [parseDirective, parseBlock]

end Oaks.Hand.Nginx
