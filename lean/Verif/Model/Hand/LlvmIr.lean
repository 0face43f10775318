import Verif.Model.Prog

/-
The parser of `oak-llvm-ir` (examples/oak-llvm-ir/src/parser) as a program: one definition for every function it calls, in the order of the
source. Kinds are the places of the variants in their enums.
-/
namespace Oaks.Hand.LlvmIr
open Prog

/-- `LLvmTokenType::Comment` (oak-llvm-ir lexer/token_type.rs:23). -/
abbrev tComment : Nat := 4
/-- `LLvmTokenType::Whitespace` (oak-llvm-ir lexer/token_type.rs:25). -/
abbrev tWhitespace : Nat := 5
/-- `LLvmTokenType::Newline` (oak-llvm-ir lexer/token_type.rs:27). -/
abbrev tNewline : Nat := 6
/-- `LLvmTokenType::LocalVar` (oak-llvm-ir lexer/token_type.rs:34). -/
abbrev tLocalVar : Nat := 9
/-- `LLvmTokenType::GlobalVar` (oak-llvm-ir lexer/token_type.rs:36). -/
abbrev tGlobalVar : Nat := 10
/-- `LLvmTokenType::Equal` (oak-llvm-ir lexer/token_type.rs:40). -/
abbrev tEqual : Nat := 12
/-- `LLvmTokenType::Comma` (oak-llvm-ir lexer/token_type.rs:42). -/
abbrev tComma : Nat := 13
/-- `LLvmTokenType::LParen` (oak-llvm-ir lexer/token_type.rs:44). -/
abbrev tLParen : Nat := 14
/-- `LLvmTokenType::RParen` (oak-llvm-ir lexer/token_type.rs:46). -/
abbrev tRParen : Nat := 15
/-- `LLvmTokenType::LBrace` (oak-llvm-ir lexer/token_type.rs:52). -/
abbrev tLBrace : Nat := 18
/-- `LLvmTokenType::RBrace` (oak-llvm-ir lexer/token_type.rs:54). -/
abbrev tRBrace : Nat := 19
/-- `LLvmTokenType::Colon` (oak-llvm-ir lexer/token_type.rs:58). -/
abbrev tColon : Nat := 21
/-- `LLvmTokenType::Keyword` (oak-llvm-ir lexer/token_type.rs:60). -/
abbrev tKeyword : Nat := 22
/-- `LLvmElementType::Root` (oak-llvm-ir parser/element_type.rs:11). -/
abbrev eRoot : Nat := 0
/-- `LLvmElementType::Identifier` (oak-llvm-ir parser/element_type.rs:13). -/
abbrev eIdentifier : Nat := 1
/-- `LLvmElementType::Item` (oak-llvm-ir parser/element_type.rs:58). -/
abbrev eItem : Nat := 23
/-- `LLvmElementType::Global` (oak-llvm-ir parser/element_type.rs:60). -/
abbrev eGlobal : Nat := 24
/-- `LLvmElementType::Function` (oak-llvm-ir parser/element_type.rs:62). -/
abbrev eFunction : Nat := 25
/-- `LLvmElementType::Parameter` (oak-llvm-ir parser/element_type.rs:64). -/
abbrev eParameter : Nat := 26
/-- `LLvmElementType::Block` (oak-llvm-ir parser/element_type.rs:66). -/
abbrev eBlock : Nat := 27
/-- `LLvmElementType::Instruction` (oak-llvm-ir parser/element_type.rs:68). -/
abbrev eInstruction : Nat := 28

/-- The number of `parse_item` (oak-llvm-ir parser/parse_top_level.rs:19-42). -/
abbrev pParseItem : Nat := 0
/-- The number of `parse_global` (oak-llvm-ir parser/parse_top_level.rs:44-76). -/
abbrev pParseGlobal : Nat := 1
/-- The number of `parse_function` (oak-llvm-ir parser/parse_top_level.rs:78-163). -/
abbrev pParseFunction : Nat := 2
/-- The number of `skip_trivia` (oak-llvm-ir parser/parse_top_level.rs:165-169). -/
abbrev pSkipTrivia : Nat := 3

/-- `parse_item` (oak-llvm-ir parser/parse_top_level.rs:19-42). -/
def parseItem : Prog :=
  mark (block [
    call pSkipTrivia,
    when_ (not_ more)
      (ret true),
    ite (sees tGlobalVar)
      (call pParseGlobal)
      (ite (and_ (sees tKeyword) (ask (fun v => v.textIs "define")))
        (call pParseFunction)
        advance),
    close eItem])

/-- `parse_global` (oak-llvm-ir parser/parse_top_level.rs:44-76). -/
def parseGlobal : Prog :=
  mark (block [
    need tGlobalVar,
    call pSkipTrivia,
    need tEqual,
    call pSkipTrivia,
    loop more
      (block [
        when_ (sees tKeyword)
          (when_ (or_ (ask (fun v => v.textIs "global")) (ask (fun v => v.textIs "constant")))
            (block [
              bump,
              brk])),
        bump,
        call pSkipTrivia]),
    call pSkipTrivia,
    mark (block [
      loop (and_ (and_ more (not_ (sees tNewline))) (not_ (sees tComment)))
        bump,
      close eIdentifier]),
    close eGlobal])

/-- `parse_function` (oak-llvm-ir parser/parse_top_level.rs:78-163). -/
def parseFunction : Prog :=
  mark (block [
    need tKeyword,
    call pSkipTrivia,
    mark (block [
      loop (and_ more (not_ (sees tGlobalVar)))
        (block [
          bump,
          call pSkipTrivia]),
      close eIdentifier]),
    need tGlobalVar,
    call pSkipTrivia,
    when_ (sees tLParen)
      (mark (block [
        bump,
        loop (and_ more (not_ (sees tRParen)))
          (block [
            mark (block [
              loop (and_ (and_ more (not_ (sees tComma))) (not_ (sees tRParen)))
                bump,
              close eParameter]),
            when_ (sees tComma)
              (block [
                bump,
                call pSkipTrivia])]),
        need tRParen,
        close eParameter])),
    call pSkipTrivia,
    when_ (sees tLBrace)
      (block [
        bump,
        call pSkipTrivia,
        mark (block [
          set 0 (fun _ => 0),
          loop (and_ more (not_ (sees tRBrace)))
            (block [
              ite (ite (sees tKeyword)
                  (ask (fun v => v.kindAt 1 == some tColon))
                  (val false))
                (set 1 (fun _ => 1))
                (set 1 (fun _ => 0)),
              ite (ask (fun v => v.regs 1 != 0))
                (block [
                  when_ (ask (fun v => v.regs 0 != 0))
                    (close eBlock),
                  remark,
                  bump,
                  bump,
                  set 0 (fun _ => 1)])
                (ite (or_ (sees tLocalVar) (sees tKeyword))
                  (block [
                    when_ (not_ (ask (fun v => v.regs 0 != 0)))
                      (block [
                        remark,
                        set 0 (fun _ => 1)]),
                    mark (block [
                      loop (and_ (and_ more (not_ (sees tNewline))) (not_ (sees tRBrace)))
                        bump,
                      close eInstruction])])
                  bump),
              call pSkipTrivia]),
          when_ (ask (fun v => v.regs 0 != 0))
            (close eBlock)]),
        need tRBrace]),
    close eFunction])

/-- `skip_trivia` (oak-llvm-ir parser/parse_top_level.rs:165-169). -/
def skipTrivia : Prog :=
  loop (and_ more (or_ (or_ (sees tWhitespace) (sees tNewline)) (sees tComment)))
    bump

/-- `parse_root_internal` between the checkpoint and the last `finish_at` (oak-llvm-ir parser/parse_top_level.rs:9-17). -/
def main : Prog :=
  loop more
    (call pParseItem)

/-- The parser (`parse_root_internal`, oak-llvm-ir parser/parse_top_level.rs:9-17; `is_ignored`, oak-llvm-ir lexer/token_type.rs:67-72). -/
def parser : HandParser where
  ign := [tWhitespace, tComment]
  fromStart := false
  root := eRoot
  main := main
  procs := [parseItem, parseGlobal, parseFunction, skipTrivia]

end Oaks.Hand.LlvmIr
