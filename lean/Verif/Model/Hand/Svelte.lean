import Verif.Model.Prog

/-
The parser of `oak-svelte` (examples/oak-svelte/src/parser) as a program: one definition for every function it calls, in the order of the
source. Kinds are the places of the variants in their enums.
-/
namespace Oaks.Hand.Svelte
open Prog

/-- `SvelteTokenType::Whitespace` (oak-svelte lexer/token_type.rs:15). -/
abbrev tWhitespace : Nat := 0
/-- `SvelteTokenType::Comment` (oak-svelte lexer/token_type.rs:17). -/
abbrev tComment : Nat := 1
/-- `SvelteTokenType::OpenBrace` (oak-svelte lexer/token_type.rs:20). -/
abbrev tOpenBrace : Nat := 2
/-- `SvelteTokenType::CloseBrace` (oak-svelte lexer/token_type.rs:22). -/
abbrev tCloseBrace : Nat := 3
/-- `SvelteTokenType::Hash` (oak-svelte lexer/token_type.rs:24). -/
abbrev tHash : Nat := 4
/-- `SvelteTokenType::Slash` (oak-svelte lexer/token_type.rs:26). -/
abbrev tSlash : Nat := 5
/-- `SvelteTokenType::Colon` (oak-svelte lexer/token_type.rs:28). -/
abbrev tColon : Nat := 6
/-- `SvelteTokenType::At` (oak-svelte lexer/token_type.rs:30). -/
abbrev tAt : Nat := 7
/-- `SvelteTokenType::TagOpen` (oak-svelte lexer/token_type.rs:56). -/
abbrev tTagOpen : Nat := 19
/-- `SvelteTokenType::TagClose` (oak-svelte lexer/token_type.rs:58). -/
abbrev tTagClose : Nat := 20
/-- `SvelteTokenType::TagSelfClose` (oak-svelte lexer/token_type.rs:60). -/
abbrev tTagSelfClose : Nat := 21
/-- `SvelteTokenType::TagEndOpen` (oak-svelte lexer/token_type.rs:62). -/
abbrev tTagEndOpen : Nat := 22
/-- `SvelteTokenType::Identifier` (oak-svelte lexer/token_type.rs:71). -/
abbrev tIdentifier : Nat := 26
/-- `SvelteTokenType::StringLiteral` (oak-svelte lexer/token_type.rs:73). -/
abbrev tStringLiteral : Nat := 27
/-- `SvelteTokenType::Eq` (oak-svelte lexer/token_type.rs:78). -/
abbrev tEq : Nat := 29
/-- `SvelteElementType::Root` (oak-svelte parser/element_type.rs:10). -/
abbrev eRoot : Nat := 0
/-- `SvelteElementType::Element` (oak-svelte parser/element_type.rs:12). -/
abbrev eElement : Nat := 1
/-- `SvelteElementType::StartTag` (oak-svelte parser/element_type.rs:14). -/
abbrev eStartTag : Nat := 2
/-- `SvelteElementType::EndTag` (oak-svelte parser/element_type.rs:16). -/
abbrev eEndTag : Nat := 3
/-- `SvelteElementType::Attribute` (oak-svelte parser/element_type.rs:18). -/
abbrev eAttribute : Nat := 4
/-- `SvelteElementType::Directive` (oak-svelte parser/element_type.rs:20). -/
abbrev eDirective : Nat := 5
/-- `SvelteElementType::Interpolation` (oak-svelte parser/element_type.rs:24). -/
abbrev eInterpolation : Nat := 7
/-- `SvelteElementType::ControlBlock` (oak-svelte parser/element_type.rs:26). -/
abbrev eControlBlock : Nat := 8
/-- `SvelteElementType::MiddleBlock` (oak-svelte parser/element_type.rs:28). -/
abbrev eMiddleBlock : Nat := 9
/-- `SvelteElementType::Snippet` (oak-svelte parser/element_type.rs:30). -/
abbrev eSnippet : Nat := 10
/-- `SvelteElementType::Comment` (oak-svelte parser/element_type.rs:32). -/
abbrev eComment : Nat := 11
/-- `SvelteElementType::Text` (oak-svelte parser/element_type.rs:34). -/
abbrev eText : Nat := 12
/-- `SvelteElementType::Error` (oak-svelte parser/element_type.rs:36). -/
abbrev eError : Nat := 13

/-- The number of `parse_node` (oak-svelte parser/mod.rs:39-68). -/
abbrev pParseNode : Nat := 0
/-- The number of `parse_element` (oak-svelte parser/mod.rs:70-111). -/
abbrev pParseElement : Nat := 1
/-- The number of `parse_attribute` (oak-svelte parser/mod.rs:113-138). -/
abbrev pParseAttribute : Nat := 2
/-- The number of `parse_control_block` (oak-svelte parser/mod.rs:140-205). -/
abbrev pParseControlBlock : Nat := 3
/-- The number of `parse_middle_block` (oak-svelte parser/mod.rs:207-217). -/
abbrev pParseMiddleBlock : Nat := 4
/-- The number of `parse_end_block` (oak-svelte parser/mod.rs:219-229). -/
abbrev pParseEndBlock : Nat := 5
/-- The number of `parse_special_tag` (oak-svelte parser/mod.rs:231-240). -/
abbrev pParseSpecialTag : Nat := 6
/-- The number of `parse_interpolation` (oak-svelte parser/mod.rs:242-250). -/
abbrev pParseInterpolation : Nat := 7
/-- The number of `parse_text` (oak-svelte parser/mod.rs:252-260). -/
abbrev pParseText : Nat := 8

/-- `parse_node` (oak-svelte parser/mod.rs:39-68). -/
def parseNode : Prog :=
  ite (sees tTagOpen)
    (call pParseElement)
    (ite (sees tOpenBrace)
      (ite (ask (fun v => v.kindAt 1 == some tHash))
        (call pParseControlBlock)
        (ite (or_ (ask (fun v => v.kindAt 1 == some tSlash)) (ask (fun v => v.kindAt 1 == some tColon)))
          (call pParseControlBlock)
          (ite (ask (fun v => v.kindAt 1 == some tAt))
            (call pParseSpecialTag)
            (call pParseInterpolation))))
      (ite (sees tComment)
        (mark (block [
          bump,
          close eComment]))
        (call pParseText)))

/-- `parse_element` (oak-svelte parser/mod.rs:70-111). -/
def parseElement : Prog :=
  mark (block [
    mark (block [
      expect tTagOpen,
      expect tIdentifier,
      loop (and_ (and_ more (not_ (sees tTagClose))) (not_ (sees tTagSelfClose)))
        (block [
          when_ (sees tWhitespace)
            (block [
              bump,
              cont]),
          call pParseAttribute]),
      set 0 (fun _ => 0),
      ite (sees tTagSelfClose)
        (block [
          bump,
          set 0 (fun _ => 1)])
        (expect tTagClose),
      close eStartTag]),
    when_ (not_ (ask (fun v => v.regs 0 != 0)))
      (block [
        loop (and_ more (not_ (sees tTagEndOpen)))
          (call pParseNode),
        when_ (sees tTagEndOpen)
          (mark (block [
            bump,
            expect tIdentifier,
            expect tTagClose,
            close eEndTag]))]),
    close eElement])

/-- `parse_attribute` (oak-svelte parser/mod.rs:113-138). -/
def parseAttribute : Prog :=
  block [
    mark (ite (sees tIdentifier)
      (block [
        ite (ask (fun v => v.text.contains ':' || v.text.head? == some '|'))
          (set 0 (fun _ => 1))
          (set 0 (fun _ => 0)),
        bump,
        when_ (eat tEq)
          (ite (sees tStringLiteral)
            bump
            (when_ (sees tOpenBrace)
              (call pParseInterpolation))),
        finish (fun r => if r 0 ≠ 0 then eDirective else eAttribute)])
      (block [
        bump,
        close eError]))]

/-- `parse_control_block` (oak-svelte parser/mod.rs:140-205). -/
def parseControlBlock : Prog :=
  mark (block [
    expect tOpenBrace,
    set 1 (fun _ => 0),
    set 0 (fun _ => 0),
    ite (sees tHash)
      (block [
        bump,
        set 1 (fun _ => 1),
        when_ (ask (fun v => v.textIs "snippet"))
          (set 0 (fun _ => 1)),
        expect tIdentifier])
      (when_ (or_ (sees tSlash) (sees tColon))
        (block [
          bump,
          expect tIdentifier])),
    loop (and_ more (not_ (sees tCloseBrace)))
      bump,
    expect tCloseBrace,
    when_ (ask (fun v => v.regs 1 != 0))
      (block [
        loop more
          (block [
            when_ (sees tOpenBrace)
              (when_ (or_ (ask (fun v => v.kindAt 1 == some tSlash)) (ask (fun v => v.kindAt 1 == some tColon)))
                brk),
            call pParseNode]),
        loop (and_ (sees tOpenBrace) (ask (fun v => v.kindAt 1 == some tColon)))
          (block [
            call pParseMiddleBlock,
            loop more
              (block [
                when_ (sees tOpenBrace)
                  (when_ (or_ (ask (fun v => v.kindAt 1 == some tSlash)) (ask (fun v => v.kindAt 1 == some tColon)))
                    brk),
                call pParseNode])]),
        when_ (and_ (sees tOpenBrace) (ask (fun v => v.kindAt 1 == some tSlash)))
          (call pParseEndBlock)]),
    finish (fun r => if r 0 ≠ 0 then eSnippet else eControlBlock)])

/-- `parse_middle_block` (oak-svelte parser/mod.rs:207-217). -/
def parseMiddleBlock : Prog :=
  mark (block [
    expect tOpenBrace,
    expect tColon,
    expect tIdentifier,
    loop (and_ more (not_ (sees tCloseBrace)))
      bump,
    expect tCloseBrace,
    close eMiddleBlock])

/-- `parse_end_block` (oak-svelte parser/mod.rs:219-229). -/
def parseEndBlock : Prog :=
  mark (block [
    expect tOpenBrace,
    expect tSlash,
    expect tIdentifier,
    loop (and_ more (not_ (sees tCloseBrace)))
      bump,
    expect tCloseBrace,
    close eEndTag])

/-- `parse_special_tag` (oak-svelte parser/mod.rs:231-240). -/
def parseSpecialTag : Prog :=
  mark (block [
    expect tOpenBrace,
    expect tAt,
    loop (and_ more (not_ (sees tCloseBrace)))
      bump,
    expect tCloseBrace,
    close eControlBlock])

/-- `parse_interpolation` (oak-svelte parser/mod.rs:242-250). -/
def parseInterpolation : Prog :=
  mark (block [
    expect tOpenBrace,
    loop (and_ more (not_ (sees tCloseBrace)))
      bump,
    expect tCloseBrace,
    close eInterpolation])

/-- `parse_text` (oak-svelte parser/mod.rs:252-260). -/
def parseText : Prog :=
  block [
    mark (block [
      loop (and_ (and_ (and_ more (not_ (sees tTagOpen))) (not_ (sees tOpenBrace))) (not_ (sees tComment)))
        bump,
      when_ (ask (fun v => decide (v.cp < v.index)))
        (close eText)])]

/-- `parse_root_internal` between the checkpoint and the last `finish_at` (oak-svelte parser/mod.rs:29-37). -/
def main : Prog :=
  loop more
    (call pParseNode)

/-- The parser (`parse_root_internal`, oak-svelte parser/mod.rs:29-37; `is_ignored`, oak-svelte lexer/token_type.rs:96-98). -/
def parser : HandParser where
  ign := [tWhitespace, tComment]
  fromStart := false
  root := eRoot
  main := main
  procs := [parseNode, parseElement, parseAttribute, parseControlBlock, parseMiddleBlock, parseEndBlock, parseSpecialTag, parseInterpolation, parseText]

end Oaks.Hand.Svelte
