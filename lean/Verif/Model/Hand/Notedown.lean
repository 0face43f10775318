import Verif.Model.Prog

/-
The parser of `oak-notedown` (examples/oak-notedown/src/parser) as a program: one definition for every function it calls, in the order of the
source. Kinds are the places of the variants in their enums.
-/
namespace Oaks.Hand.Notedown
open Prog

/-- `NoteTokenType::Newline` (oak-notedown lexer/token_type.rs:29). -/
abbrev tNewline : Nat := 2
/-- `NoteTokenType::Asterisk` (oak-notedown lexer/token_type.rs:98). -/
abbrev tAsterisk : Nat := 49
/-- `NoteTokenType::Backtick` (oak-notedown lexer/token_type.rs:100). -/
abbrev tBacktick : Nat := 51
/-- `NoteTokenType::Hash` (oak-notedown lexer/token_type.rs:102). -/
abbrev tHash : Nat := 53
/-- `NoteTokenType::Pipe` (oak-notedown lexer/token_type.rs:103). -/
abbrev tPipe : Nat := 54
/-- `NoteTokenType::Dash` (oak-notedown lexer/token_type.rs:104). -/
abbrev tDash : Nat := 55
/-- `NoteTokenType::Plus` (oak-notedown lexer/token_type.rs:105). -/
abbrev tPlus : Nat := 56
/-- `NoteElementType::Root` (oak-notedown parser/element_type.rs:10). -/
abbrev eRoot : Nat := 0
/-- `NoteElementType::Heading` (oak-notedown parser/element_type.rs:11). -/
abbrev eHeading : Nat := 1
/-- `NoteElementType::ListItem` (oak-notedown parser/element_type.rs:13). -/
abbrev eListItem : Nat := 3
/-- `NoteElementType::Table` (oak-notedown parser/element_type.rs:14). -/
abbrev eTable : Nat := 4
/-- `NoteElementType::TableRow` (oak-notedown parser/element_type.rs:15). -/
abbrev eTableRow : Nat := 5
/-- `NoteElementType::CodeBlock` (oak-notedown parser/element_type.rs:16). -/
abbrev eCodeBlock : Nat := 6
/-- `NoteElementType::Paragraph` (oak-notedown parser/element_type.rs:17). -/
abbrev eParagraph : Nat := 7
/-- `NoteElementType::Token(NoteTokenType::TableCell)` (oak-notedown parser/element_type.rs:26): after the other kinds. -/
abbrev eTokenTableCell : Nat := 51

/-- The number of `parse_block` (oak-notedown parser/mod.rs:45-54). -/
abbrev pParseBlock : Nat := 0
/-- The number of `parse_heading` (oak-notedown parser/mod.rs:56-78). -/
abbrev pParseHeading : Nat := 1
/-- The number of `parse_list_item` (oak-notedown parser/mod.rs:80-87). -/
abbrev pParseListItem : Nat := 2
/-- The number of `parse_table` (oak-notedown parser/mod.rs:89-95). -/
abbrev pParseTable : Nat := 3
/-- The number of `parse_table_row` (oak-notedown parser/mod.rs:97-116). -/
abbrev pParseTableRow : Nat := 4
/-- The number of `parse_code_block` (oak-notedown parser/mod.rs:118-130). -/
abbrev pParseCodeBlock : Nat := 5
/-- The number of `parse_paragraph` (oak-notedown parser/mod.rs:132-141). -/
abbrev pParseParagraph : Nat := 6

/-- `parse_block` (oak-notedown parser/mod.rs:45-54). -/
def parseBlock : Prog :=
  ite (sees tHash)
    (call pParseHeading)
    (ite (seesAny [tAsterisk, tDash, tPlus])
      (call pParseListItem)
      (ite (sees tPipe)
        (call pParseTable)
        (ite (sees tBacktick)
          (call pParseCodeBlock)
          (call pParseParagraph))))

/-- `parse_heading` (oak-notedown parser/mod.rs:56-78). -/
def parseHeading : Prog :=
  mark (block [
    set 0 (fun _ => 0),
    loop (sees tHash)
      (block [
        bump,
        set 0 (fun v => v.regs 0 + 1)]),
    loop (and_ more (not_ (sees tNewline)))
      bump,
    finish (fun r => if 1 ≤ r 0 ∧ r 0 ≤ 6 then eHeading else eParagraph)])

/-- `parse_list_item` (oak-notedown parser/mod.rs:80-87). -/
def parseListItem : Prog :=
  mark (block [
    bump,
    loop (and_ more (not_ (sees tNewline)))
      bump,
    close eListItem])

/-- `parse_table` (oak-notedown parser/mod.rs:89-95). -/
def parseTable : Prog :=
  mark (block [
    loop (and_ more (sees tPipe))
      (call pParseTableRow),
    close eTable])

/-- `parse_table_row` (oak-notedown parser/mod.rs:97-116). -/
def parseTableRow : Prog :=
  mark (block [
    loop (and_ more (not_ (sees tNewline)))
      (ite (sees tPipe)
        (mark (block [
          bump,
          loop (and_ (and_ more (not_ (sees tPipe))) (not_ (sees tNewline)))
            bump,
          close eTokenTableCell]))
        bump),
    when_ (sees tNewline)
      bump,
    close eTableRow])

/-- `parse_code_block` (oak-notedown parser/mod.rs:118-130). -/
def parseCodeBlock : Prog :=
  mark (block [
    bump,
    loop more
      (block [
        when_ (sees tBacktick)
          (block [
            bump,
            brk]),
        bump]),
    close eCodeBlock])

/-- `parse_paragraph` (oak-notedown parser/mod.rs:132-141). -/
def parseParagraph : Prog :=
  mark (block [
    loop (and_ more (not_ (sees tNewline)))
      bump,
    when_ (sees tNewline)
      bump,
    close eParagraph])

/-- `parse_root_internal` between the checkpoint and the last `finish_at` (oak-notedown parser/mod.rs:36-43). -/
def main : Prog :=
  loop more
    (call pParseBlock)

/-- The parser (`parse_root_internal`, oak-notedown parser/mod.rs:36-43; `is_ignored`, oak-notedown lexer/token_type.rs:11-13). -/
def parser : HandParser where
  ign := []
  fromStart := false
  root := eRoot
  main := main
  procs := [parseBlock, parseHeading, parseListItem, parseTable, parseTableRow, parseCodeBlock, parseParagraph]

end Oaks.Hand.Notedown
