import Verif.Model.Prog

/-
The parser of `oak-j` (examples/oak-j/src/parser) as a program: one definition for every function it calls, in the order of the
source. Kinds are the places of the variants in their enums.
-/
namespace Oaks.Hand.J
open Prog

/-- `JTokenType::Whitespace` (oak-j lexer/token_type.rs:9). -/
abbrev tWhitespace : Nat := 0
/-- `JTokenType::Newline` (oak-j lexer/token_type.rs:10). -/
abbrev tNewline : Nat := 1
/-- `JTokenType::Comment` (oak-j lexer/token_type.rs:11). -/
abbrev tComment : Nat := 2
/-- `JTokenType::StringLiteral` (oak-j lexer/token_type.rs:13). -/
abbrev tStringLiteral : Nat := 3
/-- `JTokenType::NumberLiteral` (oak-j lexer/token_type.rs:14). -/
abbrev tNumberLiteral : Nat := 4
/-- `JTokenType::Identifier` (oak-j lexer/token_type.rs:15). -/
abbrev tIdentifier : Nat := 5
/-- `JTokenType::IsGlobal` (oak-j lexer/token_type.rs:24). -/
abbrev tIsGlobal : Nat := 9
/-- `JTokenType::IsLocal` (oak-j lexer/token_type.rs:25). -/
abbrev tIsLocal : Nat := 10
/-- `JTokenType::LeftParen` (oak-j lexer/token_type.rs:45). -/
abbrev tLeftParen : Nat := 26
/-- `JTokenType::RightParen` (oak-j lexer/token_type.rs:46). -/
abbrev tRightParen : Nat := 27
/-- `JTokenType::Eof` (oak-j lexer/token_type.rs:53). -/
abbrev tEof : Nat := 32
/-- `JElementType::Root` (oak-j parser/element_type.rs:15). -/
abbrev eRoot : Nat := 0
/-- `JElementType::CompilationUnit` (oak-j parser/element_type.rs:17). -/
abbrev eCompilationUnit : Nat := 1
/-- `JElementType::Sentence` (oak-j parser/element_type.rs:20). -/
abbrev eSentence : Nat := 2
/-- `JElementType::Assignment` (oak-j parser/element_type.rs:23). -/
abbrev eAssignment : Nat := 3
/-- `JElementType::Expression` (oak-j parser/element_type.rs:26). -/
abbrev eExpression : Nat := 4
/-- `JElementType::Group` (oak-j parser/element_type.rs:41). -/
abbrev eGroup : Nat := 9

/-- The number of `parse_sentence` (oak-j parser/mod.rs:42-58). -/
abbrev pParseSentence : Nat := 0
/-- The number of `parse_assignment` (oak-j parser/mod.rs:61-73). -/
abbrev pParseAssignment : Nat := 1
/-- The number of `parse_expression` (oak-j parser/mod.rs:76-112). -/
abbrev pParseExpression : Nat := 2

/-- `parse_sentence` (oak-j parser/mod.rs:42-58); `matched` is a value. -/
def parseSentence : Prog :=
  block [
    mark (ite (ite (and_ (sees tIdentifier) (or_ (ask (fun v => v.kindAt 1 == some tIsGlobal)) (ask (fun v => v.kindAt 1 == some tIsLocal))))
        (call pParseAssignment)
        (call pParseExpression))
      (close eSentence)
      (val false))]

/-- `parse_assignment` (oak-j parser/mod.rs:61-73). -/
def parseAssignment : Prog :=
  mark (block [
    eat tIdentifier,
    ite (sees tIsGlobal)
      (eat tIsGlobal)
      (eat tIsLocal),
    call pParseExpression,
    close eAssignment])

/-- `parse_expression` (oak-j parser/mod.rs:76-112); `matched` says whether the loop has had a turn. -/
def parseExpression : Prog :=
  block [
    mark (ite (and_ (and_ more (not_ (sees tNewline))) (not_ (sees tEof)))
      (block [
        loop (and_ (and_ more (not_ (sees tNewline))) (not_ (sees tEof)))
          (ite (sees tIdentifier)
            (eat tIdentifier)
            (ite (sees tNumberLiteral)
              (eat tNumberLiteral)
              (ite (sees tStringLiteral)
                (eat tStringLiteral)
                (ite (sees tLeftParen)
                  (mark (block [
                    eat tLeftParen,
                    call pParseExpression,
                    expect tRightParen,
                    close eGroup]))
                  advance)))),
        close eExpression])
      (val false))]

/-- `run` between the checkpoint and the last `finish_at` (oak-j parser/mod.rs:25-39). -/
def main : Prog :=
  mark (block [
    loop more
      (when_ (not_ (call pParseSentence))
        advance),
    close eCompilationUnit])

/-- The parser (`run`, oak-j parser/mod.rs:25-39; `is_ignored`, oak-j lexer/token_type.rs:69-71). -/
def parser : HandParser where
  ign := [tWhitespace, tNewline, tComment]
  fromStart := false
  root := eRoot
  main := main
  procs := [parseSentence, parseAssignment, parseExpression]

end Oaks.Hand.J
