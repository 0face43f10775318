import Verif.Model.Prog

/-
The parser of `oak-org-mode` (examples/oak-org-mode/src/parser) as a program: one definition for every function it calls, in the order of the
source. Kinds are the places of the variants in their enums.
-/
namespace Oaks.Hand.OrgMode
open Prog

/-- `OrgModeTokenType::Star` (oak-org-mode lexer/token_type.rs:62). -/
abbrev tStar : Nat := 44
/-- `OrgModeTokenType::Plus` (oak-org-mode lexer/token_type.rs:63). -/
abbrev tPlus : Nat := 45
/-- `OrgModeTokenType::Minus` (oak-org-mode lexer/token_type.rs:64). -/
abbrev tMinus : Nat := 46
/-- `OrgModeTokenType::Hash` (oak-org-mode lexer/token_type.rs:65). -/
abbrev tHash : Nat := 47
/-- `OrgModeTokenType::LeftBracket` (oak-org-mode lexer/token_type.rs:68). -/
abbrev tLeftBracket : Nat := 50
/-- `OrgModeTokenType::RightBracket` (oak-org-mode lexer/token_type.rs:69). -/
abbrev tRightBracket : Nat := 51
/-- `OrgModeTokenType::Equal` (oak-org-mode lexer/token_type.rs:76). -/
abbrev tEqual : Nat := 58
/-- `OrgModeTokenType::Underscore` (oak-org-mode lexer/token_type.rs:77). -/
abbrev tUnderscore : Nat := 59
/-- `OrgModeTokenType::Tilde` (oak-org-mode lexer/token_type.rs:78). -/
abbrev tTilde : Nat := 60
/-- `OrgModeTokenType::Slash` (oak-org-mode lexer/token_type.rs:79). -/
abbrev tSlash : Nat := 61
/-- `OrgModeTokenType::Whitespace` (oak-org-mode lexer/token_type.rs:85). -/
abbrev tWhitespace : Nat := 67
/-- `OrgModeTokenType::Newline` (oak-org-mode lexer/token_type.rs:86). -/
abbrev tNewline : Nat := 68
/-- `OrgModeTokenType::Comment` (oak-org-mode lexer/token_type.rs:87). -/
abbrev tComment : Nat := 69
/-- `OrgModeElementType::Document` (oak-org-mode parser/element_type.rs:8). -/
abbrev eDocument : Nat := 0
/-- `OrgModeElementType::Heading` (oak-org-mode parser/element_type.rs:9). -/
abbrev eHeading : Nat := 1
/-- `OrgModeElementType::Paragraph` (oak-org-mode parser/element_type.rs:11). -/
abbrev eParagraph : Nat := 3
/-- `OrgModeElementType::List` (oak-org-mode parser/element_type.rs:12). -/
abbrev eList : Nat := 4
/-- `OrgModeElementType::ListItem` (oak-org-mode parser/element_type.rs:13). -/
abbrev eListItem : Nat := 5
/-- `OrgModeElementType::Block` (oak-org-mode parser/element_type.rs:17). -/
abbrev eBlock : Nat := 9
/-- `OrgModeElementType::Link` (oak-org-mode parser/element_type.rs:26). -/
abbrev eLink : Nat := 18
/-- `OrgModeElementType::InlineCode` (oak-org-mode parser/element_type.rs:27). -/
abbrev eInlineCode : Nat := 19
/-- `OrgModeElementType::Bold` (oak-org-mode parser/element_type.rs:28). -/
abbrev eBold : Nat := 20
/-- `OrgModeElementType::Italic` (oak-org-mode parser/element_type.rs:29). -/
abbrev eItalic : Nat := 21
/-- `OrgModeElementType::Underline` (oak-org-mode parser/element_type.rs:30). -/
abbrev eUnderline : Nat := 22
/-- `OrgModeElementType::Strikethrough` (oak-org-mode parser/element_type.rs:31). -/
abbrev eStrikethrough : Nat := 23
/-- `OrgModeElementType::Verbatim` (oak-org-mode parser/element_type.rs:32). -/
abbrev eVerbatim : Nat := 24

/-- The number of `is_at_start_of_line` (oak-org-mode parser/mod.rs:24-31). -/
abbrev pIsAtStartOfLine : Nat := 0
/-- The number of `parse_item` (oak-org-mode parser/mod.rs:33-79). -/
abbrev pParseItem : Nat := 1
/-- The number of `parse_list` (oak-org-mode parser/mod.rs:81-91). -/
abbrev pParseList : Nat := 2
/-- The number of `parse_inline_content` (oak-org-mode parser/mod.rs:93-123). -/
abbrev pParseInlineContent : Nat := 3
/-- The number of `parse_list_item` (oak-org-mode parser/mod.rs:125-130). -/
abbrev pParseListItem : Nat := 4
/-- The number of `parse_heading` (oak-org-mode parser/mod.rs:132-140). -/
abbrev pParseHeading : Nat := 5
/-- The number of `parse_block` (oak-org-mode parser/mod.rs:142-149). -/
abbrev pParseBlock : Nat := 6
/-- The number of `parse_paragraph` (oak-org-mode parser/mod.rs:151-158). -/
abbrev pParseParagraph : Nat := 7
/-- The number of `parse_bold` (oak-org-mode parser/mod.rs:160-170). -/
abbrev pParseBold : Nat := 8
/-- The number of `parse_italic` (oak-org-mode parser/mod.rs:172-182). -/
abbrev pParseItalic : Nat := 9
/-- The number of `parse_underline` (oak-org-mode parser/mod.rs:184-194). -/
abbrev pParseUnderline : Nat := 10
/-- The number of `parse_link` (oak-org-mode parser/mod.rs:196-224). -/
abbrev pParseLink : Nat := 11
/-- The number of `parse_inline_code` (oak-org-mode parser/mod.rs:226-236). -/
abbrev pParseInlineCode : Nat := 12
/-- The number of `parse_verbatim` (oak-org-mode parser/mod.rs:238-248). -/
abbrev pParseVerbatim : Nat := 13
/-- The number of `parse_strikethrough` (oak-org-mode parser/mod.rs:250-260). -/
abbrev pParseStrikethrough : Nat := 14

/-- `is_at_start_of_line` (oak-org-mode parser/mod.rs:24-31). -/
def isAtStartOfLine : Prog :=
  ask (fun v => v.offset == 0 || v.textBetween (v.offset - 1) v.offset == ['\n'])

/-- `parse_item` (oak-org-mode parser/mod.rs:33-79). -/
def parseItem : Prog :=
  ite (sees tStar)
    (ite (call pIsAtStartOfLine)
      (block [
        set 0 (fun _ => 0),
        when_ (or_ (or_ (ask (fun v => v.kindAt 1 == some tWhitespace)) (ask (fun v => v.kindAt 1 == some tNewline))) (ask (fun v => v.kindAt 1 == none)))
          (set 0 (fun _ => 1)),
        ite (ask (fun v => v.regs 0 != 0))
          (call pParseHeading)
          (call pParseParagraph)])
      (call pParseParagraph))
    (ite (sees tHash)
      (ite (call pIsAtStartOfLine)
        (call pParseBlock)
        (call pParseParagraph))
      (ite (seesAny [tMinus, tPlus])
        (ite (call pIsAtStartOfLine)
          (call pParseList)
          (call pParseParagraph))
        (ite (seesAny [tNewline, tWhitespace])
          bump
          (call pParseParagraph))))

/-- `parse_list` (oak-org-mode parser/mod.rs:81-91). -/
def parseList : Prog :=
  mark (block [
    loop (or_ (sees tMinus) (sees tPlus))
      (block [
        call pParseListItem,
        loop (or_ (sees tNewline) (sees tWhitespace))
          bump]),
    close eList])

/-- `parse_inline_content` (oak-org-mode parser/mod.rs:93-123). -/
def parseInlineContent : Prog :=
  loop (and_ more (not_ (sees tNewline)))
    (ite (sees tStar)
      (call pParseBold)
      (ite (sees tSlash)
        (call pParseItalic)
        (ite (sees tUnderscore)
          (call pParseUnderline)
          (ite (sees tLeftBracket)
            (call pParseLink)
            (ite (sees tTilde)
              (call pParseInlineCode)
              (ite (sees tEqual)
                (call pParseVerbatim)
                (ite (sees tPlus)
                  (call pParseStrikethrough)
                  bump)))))))

/-- `parse_list_item` (oak-org-mode parser/mod.rs:125-130). -/
def parseListItem : Prog :=
  mark (block [
    bump,
    call pParseInlineContent,
    close eListItem])

/-- `parse_heading` (oak-org-mode parser/mod.rs:132-140). -/
def parseHeading : Prog :=
  mark (block [
    loop (sees tStar)
      bump,
    call pParseInlineContent,
    close eHeading])

/-- `parse_block` (oak-org-mode parser/mod.rs:142-149). -/
def parseBlock : Prog :=
  mark (block [
    bump,
    loop (and_ more (not_ (sees tNewline)))
      bump,
    close eBlock])

/-- `parse_paragraph` (oak-org-mode parser/mod.rs:151-158). -/
def parseParagraph : Prog :=
  mark (block [
    call pParseInlineContent,
    when_ (sees tNewline)
      bump,
    close eParagraph])

/-- `parse_bold` (oak-org-mode parser/mod.rs:160-170). -/
def parseBold : Prog :=
  mark (block [
    bump,
    loop (and_ (and_ more (not_ (sees tStar))) (not_ (sees tNewline)))
      bump,
    when_ (sees tStar)
      bump,
    close eBold])

/-- `parse_italic` (oak-org-mode parser/mod.rs:172-182). -/
def parseItalic : Prog :=
  mark (block [
    bump,
    loop (and_ (and_ more (not_ (sees tSlash))) (not_ (sees tNewline)))
      bump,
    when_ (sees tSlash)
      bump,
    close eItalic])

/-- `parse_underline` (oak-org-mode parser/mod.rs:184-194). -/
def parseUnderline : Prog :=
  mark (block [
    bump,
    loop (and_ (and_ more (not_ (sees tUnderscore))) (not_ (sees tNewline)))
      bump,
    when_ (sees tUnderscore)
      bump,
    close eUnderline])

/-- `parse_link` (oak-org-mode parser/mod.rs:196-224). -/
def parseLink : Prog :=
  mark (block [
    bump,
    when_ (sees tLeftBracket)
      (block [
        bump,
        loop (and_ (and_ more (not_ (sees tRightBracket))) (not_ (sees tNewline)))
          bump,
        when_ (sees tRightBracket)
          (block [
            bump,
            ite (sees tRightBracket)
              bump
              (when_ (sees tLeftBracket)
                (block [
                  bump,
                  loop (and_ (and_ more (not_ (sees tRightBracket))) (not_ (sees tNewline)))
                    bump,
                  when_ (sees tRightBracket)
                    (block [
                      bump,
                      when_ (sees tRightBracket)
                        bump])]))])]),
    close eLink])

/-- `parse_inline_code` (oak-org-mode parser/mod.rs:226-236). -/
def parseInlineCode : Prog :=
  mark (block [
    bump,
    loop (and_ (and_ more (not_ (sees tTilde))) (not_ (sees tNewline)))
      bump,
    when_ (sees tTilde)
      bump,
    close eInlineCode])

/-- `parse_verbatim` (oak-org-mode parser/mod.rs:238-248). -/
def parseVerbatim : Prog :=
  mark (block [
    bump,
    loop (and_ (and_ more (not_ (sees tEqual))) (not_ (sees tNewline)))
      bump,
    when_ (sees tEqual)
      bump,
    close eVerbatim])

/-- `parse_strikethrough` (oak-org-mode parser/mod.rs:250-260). -/
def parseStrikethrough : Prog :=
  mark (block [
    bump,
    loop (and_ (and_ more (not_ (sees tPlus))) (not_ (sees tNewline)))
      bump,
    when_ (sees tPlus)
      bump,
    close eStrikethrough])

/-- `parse` between the checkpoint and the last `finish_at` (oak-org-mode parser/mod.rs:264-274). -/
def main : Prog :=
  loop more
    (call pParseItem)

/-- The parser (`parse`, oak-org-mode parser/mod.rs:264-274; `is_ignored`, oak-org-mode lexer/token_type.rs:98-100). -/
def parser : HandParser where
  ign := [tWhitespace, tComment]
  fromStart := false
  root := eDocument
  main := main
  procs := [isAtStartOfLine, parseItem, parseList, parseInlineContent, parseListItem, parseHeading, parseBlock, parseParagraph, parseBold, parseItalic, parseUnderline, parseLink, parseInlineCode, parseVerbatim, parseStrikethrough]

end Oaks.Hand.OrgMode
