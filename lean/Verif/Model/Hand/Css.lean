import Verif.Model.Prog

/-
The parser of `oak-css` (examples/oak-css/src/parser) as a program: one definition for every function it calls, in the order of the
source. Kinds are the places of the variants in their enums.
-/
namespace Oaks.Hand.Css
open Prog

/-- `CssTokenType::Whitespace` (oak-css lexer/token_type.rs:10). -/
abbrev tWhitespace : Nat := 0
/-- `CssTokenType::Newline` (oak-css lexer/token_type.rs:12). -/
abbrev tNewline : Nat := 1
/-- `CssTokenType::Comment` (oak-css lexer/token_type.rs:14). -/
abbrev tComment : Nat := 2
/-- `CssTokenType::Colon` (oak-css lexer/token_type.rs:91). -/
abbrev tColon : Nat := 38
/-- `CssTokenType::Semicolon` (oak-css lexer/token_type.rs:93). -/
abbrev tSemicolon : Nat := 39
/-- `CssTokenType::LeftBrace` (oak-css lexer/token_type.rs:126). -/
abbrev tLeftBrace : Nat := 55
/-- `CssTokenType::RightBrace` (oak-css lexer/token_type.rs:128). -/
abbrev tRightBrace : Nat := 56
/-- `CssTokenType::AtImport` (oak-css lexer/token_type.rs:135). -/
abbrev tAtImport : Nat := 59
/-- `CssTokenType::AtMedia` (oak-css lexer/token_type.rs:137). -/
abbrev tAtMedia : Nat := 60
/-- `CssTokenType::AtRule` (oak-css lexer/token_type.rs:153). -/
abbrev tAtRule : Nat := 68
/-- `CssElementType::SourceFile` (oak-css parser/element_type.rs:11). -/
abbrev eSourceFile : Nat := 0
/-- `CssElementType::RuleSet` (oak-css parser/element_type.rs:13). -/
abbrev eRuleSet : Nat := 1
/-- `CssElementType::SelectorList` (oak-css parser/element_type.rs:15). -/
abbrev eSelectorList : Nat := 2
/-- `CssElementType::DeclarationBlock` (oak-css parser/element_type.rs:19). -/
abbrev eDeclarationBlock : Nat := 4
/-- `CssElementType::Declaration` (oak-css parser/element_type.rs:21). -/
abbrev eDeclaration : Nat := 5
/-- `CssElementType::Property` (oak-css parser/element_type.rs:23). -/
abbrev eProperty : Nat := 6
/-- `CssElementType::Value` (oak-css parser/element_type.rs:25). -/
abbrev eValue : Nat := 7
/-- `CssElementType::AtRule` (oak-css parser/element_type.rs:27). -/
abbrev eAtRule : Nat := 8

/-- The number of `parse_at_rule` (oak-css parser/mod.rs:50-71). -/
abbrev pParseAtRule : Nat := 0
/-- The number of `parse_ruleset` (oak-css parser/mod.rs:74-98). -/
abbrev pParseRuleset : Nat := 1
/-- The number of `parse_selectors` (oak-css parser/mod.rs:101-108). -/
abbrev pParseSelectors : Nat := 2
/-- The number of `parse_declaration` (oak-css parser/mod.rs:111-134). -/
abbrev pParseDeclaration : Nat := 3

/-- `parse_at_rule` (oak-css parser/mod.rs:50-71). -/
def parseAtRule : Prog :=
  mark (block [
    bump,
    loop (and_ (and_ more (not_ (sees tSemicolon))) (not_ (sees tLeftBrace)))
      bump,
    ite (sees tLeftBrace)
      (block [
        expect tLeftBrace,
        loop (and_ more (not_ (sees tRightBrace)))
          (call pParseRuleset),
        expect tRightBrace])
      (when_ (sees tSemicolon)
        (expect tSemicolon)),
    close eAtRule])

/-- `parse_ruleset` (oak-css parser/mod.rs:74-98). -/
def parseRuleset : Prog :=
  mark (block [
    call pParseSelectors,
    mark (block [
      expect tLeftBrace,
      loop (and_ more (not_ (sees tRightBrace)))
        (block [
          call pParseDeclaration,
          ite (sees tSemicolon)
            (expect tSemicolon)
            (when_ (not_ (sees tRightBrace))
              brk)]),
      expect tRightBrace,
      close eDeclarationBlock]),
    close eRuleSet])

/-- `parse_selectors` (oak-css parser/mod.rs:101-108). -/
def parseSelectors : Prog :=
  mark (block [
    loop (and_ more (not_ (sees tLeftBrace)))
      bump,
    close eSelectorList])

/-- `parse_declaration` (oak-css parser/mod.rs:111-134). -/
def parseDeclaration : Prog :=
  mark (block [
    mark (block [
      loop (and_ (and_ (and_ more (not_ (sees tColon))) (not_ (sees tSemicolon))) (not_ (sees tRightBrace)))
        bump,
      close eProperty]),
    when_ (sees tColon)
      (block [
        expect tColon,
        mark (block [
          loop (and_ (and_ more (not_ (sees tSemicolon))) (not_ (sees tRightBrace)))
            bump,
          close eValue])]),
    close eDeclaration])

/-- `parse_root_internal` between the checkpoint and the last `finish_at` (oak-css parser/mod.rs:39-47). -/
def main : Prog :=
  loop more
    (ite (or_ (or_ (sees tAtRule) (sees tAtImport)) (sees tAtMedia))
      (call pParseAtRule)
      (call pParseRuleset))

/-- The parser (`parse_root_internal`, oak-css parser/mod.rs:39-47; `is_ignored`, oak-css lexer/token_type.rs:165-167). -/
def parser : HandParser where
  ign := [tWhitespace, tNewline, tComment]
  fromStart := false
  root := eSourceFile
  main := main
  procs := [parseAtRule, parseRuleset, parseSelectors, parseDeclaration]

end Oaks.Hand.Css
