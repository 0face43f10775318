import Verif.Model.Prog

/-
The parser of `oak-typst` (examples/oak-typst/src/parser) as a program: one definition for every function it calls, in the order of the
source. Kinds are the places of the variants in their enums.
-/
namespace Oaks.Hand.Typst
open Prog

/-- `TypstTokenType::Import` (oak-typst lexer/token_type.rs:62). -/
abbrev tImport : Nat := 30
/-- `TypstTokenType::Include` (oak-typst lexer/token_type.rs:63). -/
abbrev tInclude : Nat := 31
/-- `TypstTokenType::Set` (oak-typst lexer/token_type.rs:66). -/
abbrev tSet : Nat := 32
/-- `TypstTokenType::Show` (oak-typst lexer/token_type.rs:67). -/
abbrev tShow : Nat := 33
/-- `TypstTokenType::Let` (oak-typst lexer/token_type.rs:74). -/
abbrev tLet : Nat := 38
/-- `TypstTokenType::If` (oak-typst lexer/token_type.rs:75). -/
abbrev tIf : Nat := 39
/-- `TypstTokenType::Else` (oak-typst lexer/token_type.rs:76). -/
abbrev tElse : Nat := 40
/-- `TypstTokenType::For` (oak-typst lexer/token_type.rs:77). -/
abbrev tFor : Nat := 41
/-- `TypstTokenType::While` (oak-typst lexer/token_type.rs:78). -/
abbrev tWhile : Nat := 42
/-- `TypstTokenType::Plus` (oak-typst lexer/token_type.rs:86). -/
abbrev tPlus : Nat := 48
/-- `TypstTokenType::Minus` (oak-typst lexer/token_type.rs:87). -/
abbrev tMinus : Nat := 49
/-- `TypstTokenType::Star` (oak-typst lexer/token_type.rs:88). -/
abbrev tStar : Nat := 50
/-- `TypstTokenType::Equal` (oak-typst lexer/token_type.rs:91). -/
abbrev tEqual : Nat := 53
/-- `TypstTokenType::LeftBracket` (oak-typst lexer/token_type.rs:107). -/
abbrev tLeftBracket : Nat := 67
/-- `TypstTokenType::RightBracket` (oak-typst lexer/token_type.rs:108). -/
abbrev tRightBracket : Nat := 68
/-- `TypstTokenType::Hash` (oak-typst lexer/token_type.rs:113). -/
abbrev tHash : Nat := 73
/-- `TypstTokenType::Dollar` (oak-typst lexer/token_type.rs:115). -/
abbrev tDollar : Nat := 75
/-- `TypstTokenType::Underscore` (oak-typst lexer/token_type.rs:116). -/
abbrev tUnderscore : Nat := 76
/-- `TypstTokenType::Backtick` (oak-typst lexer/token_type.rs:117). -/
abbrev tBacktick : Nat := 77
/-- `TypstTokenType::Identifier` (oak-typst lexer/token_type.rs:122). -/
abbrev tIdentifier : Nat := 80
/-- `TypstTokenType::Whitespace` (oak-typst lexer/token_type.rs:127). -/
abbrev tWhitespace : Nat := 83
/-- `TypstTokenType::Newline` (oak-typst lexer/token_type.rs:128). -/
abbrev tNewline : Nat := 84
/-- `TypstElementType::Root` (oak-typst parser/element_type.rs:8). -/
abbrev eRoot : Nat := 0
/-- `TypstElementType::Heading` (oak-typst parser/element_type.rs:9). -/
abbrev eHeading : Nat := 1
/-- `TypstElementType::Quote` (oak-typst parser/element_type.rs:10). -/
abbrev eQuote : Nat := 2
/-- `TypstElementType::Math` (oak-typst parser/element_type.rs:11). -/
abbrev eMath : Nat := 3
/-- `TypstElementType::Strong` (oak-typst parser/element_type.rs:12). -/
abbrev eStrong : Nat := 4
/-- `TypstElementType::Emphasis` (oak-typst parser/element_type.rs:13). -/
abbrev eEmphasis : Nat := 5
/-- `TypstElementType::ListItem` (oak-typst parser/element_type.rs:14). -/
abbrev eListItem : Nat := 6
/-- `TypstElementType::EnumItem` (oak-typst parser/element_type.rs:15). -/
abbrev eEnumItem : Nat := 7
/-- `TypstElementType::Raw` (oak-typst parser/element_type.rs:16). -/
abbrev eRaw : Nat := 8

/-- The number of `parse_item` (oak-typst parser/parse_top_level.rs:19-141). -/
abbrev pParseItem : Nat := 0

/-- `parse_item` (oak-typst parser/parse_top_level.rs:19-141). -/
def parseItem : Prog :=
  ite (sees tEqual)
    (mark (block [
      bump,
      loop (and_ more (not_ (sees tNewline)))
        bump,
      close eHeading]))
    (ite (sees tHash)
      (mark (block [
        bump,
        loop (and_ more (seesAny [tIdentifier, tLet, tIf, tElse, tFor, tWhile, tSet, tShow, tImport, tInclude]))
          bump,
        ite (sees tLeftBracket)
          (block [
            bump,
            set 0 (fun _ => 1),
            loop (and_ more (ask (fun v => decide (0 < v.regs 0))))
              (block [
                ite (sees tLeftBracket)
                  (set 0 (fun v => v.regs 0 + 1))
                  (when_ (sees tRightBracket)
                    (set 0 (fun v => v.regs 0 - 1))),
                bump])])
          (loop (and_ (and_ more (not_ (sees tNewline))) (not_ (sees tWhitespace)))
            bump),
        close eQuote]))
      (ite (sees tDollar)
        (mark (block [
          bump,
          loop (and_ more (not_ (sees tDollar)))
            bump,
          when_ (sees tDollar)
            bump,
          close eMath]))
        (ite (sees tStar)
          (mark (block [
            bump,
            loop (and_ more (not_ (sees tStar)))
              bump,
            when_ (sees tStar)
              bump,
            close eStrong]))
          (ite (sees tUnderscore)
            (mark (block [
              bump,
              loop (and_ more (not_ (sees tUnderscore)))
                bump,
              when_ (sees tUnderscore)
                bump,
              close eEmphasis]))
            (ite (sees tMinus)
              (mark (block [
                bump,
                loop (and_ more (not_ (sees tNewline)))
                  bump,
                close eListItem]))
              (ite (sees tPlus)
                (mark (block [
                  bump,
                  loop (and_ more (not_ (sees tNewline)))
                    bump,
                  close eEnumItem]))
                (ite (sees tBacktick)
                  (mark (block [
                    bump,
                    loop (and_ more (not_ (sees tBacktick)))
                      bump,
                    when_ (sees tBacktick)
                      bump,
                    close eRaw]))
                  bump)))))))

/-- `parse_root_internal` between the checkpoint and the last `finish_at` (oak-typst parser/parse_top_level.rs:9-17). -/
def main : Prog :=
  loop more
    (call pParseItem)

/-- The parser (`parse_root_internal`, oak-typst parser/parse_top_level.rs:9-17; `is_ignored`, oak-typst lexer/token_type.rs:11-13). -/
def parser : HandParser where
  ign := []
  fromStart := false
  root := eRoot
  main := main
  procs := [parseItem]

end Oaks.Hand.Typst
