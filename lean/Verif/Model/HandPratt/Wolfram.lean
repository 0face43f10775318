import Verif.Model.Prog

/-
The parser of `oak-wolfram` (examples/oak-wolfram/src/parser) as a program: one definition for every function it calls, in the order of the
source. Kinds are the places of the variants in their enums.
-/
namespace Oaks.Hand.Wolfram
open Prog

/-- `WolframTokenType::Identifier` (oak-wolfram lexer/token_type.rs:37). -/
abbrev tIdentifier : Nat := 3
/-- `WolframTokenType::Integer` (oak-wolfram lexer/token_type.rs:38). -/
abbrev tInteger : Nat := 4
/-- `WolframTokenType::Real` (oak-wolfram lexer/token_type.rs:39). -/
abbrev tReal : Nat := 5
/-- `WolframTokenType::String` (oak-wolfram lexer/token_type.rs:40). -/
abbrev tString : Nat := 6
/-- `WolframTokenType::Rule` (oak-wolfram lexer/token_type.rs:58). -/
abbrev tRule : Nat := 22
/-- `WolframTokenType::RuleDelayed` (oak-wolfram lexer/token_type.rs:59). -/
abbrev tRuleDelayed : Nat := 23
/-- `WolframTokenType::Set` (oak-wolfram lexer/token_type.rs:60). -/
abbrev tSet : Nat := 24
/-- `WolframTokenType::SetDelayed` (oak-wolfram lexer/token_type.rs:61). -/
abbrev tSetDelayed : Nat := 25
/-- `WolframTokenType::Plus` (oak-wolfram lexer/token_type.rs:75). -/
abbrev tPlus : Nat := 37
/-- `WolframTokenType::Minus` (oak-wolfram lexer/token_type.rs:76). -/
abbrev tMinus : Nat := 38
/-- `WolframTokenType::Times` (oak-wolfram lexer/token_type.rs:77). -/
abbrev tTimes : Nat := 39
/-- `WolframTokenType::Divide` (oak-wolfram lexer/token_type.rs:78). -/
abbrev tDivide : Nat := 40
/-- `WolframTokenType::Power` (oak-wolfram lexer/token_type.rs:79). -/
abbrev tPower : Nat := 41
/-- `WolframTokenType::Equal` (oak-wolfram lexer/token_type.rs:80). -/
abbrev tEqual : Nat := 42
/-- `WolframTokenType::NotEqual` (oak-wolfram lexer/token_type.rs:81). -/
abbrev tNotEqual : Nat := 43
/-- `WolframTokenType::Less` (oak-wolfram lexer/token_type.rs:82). -/
abbrev tLess : Nat := 44
/-- `WolframTokenType::Greater` (oak-wolfram lexer/token_type.rs:83). -/
abbrev tGreater : Nat := 45
/-- `WolframTokenType::LessEqual` (oak-wolfram lexer/token_type.rs:84). -/
abbrev tLessEqual : Nat := 46
/-- `WolframTokenType::GreaterEqual` (oak-wolfram lexer/token_type.rs:85). -/
abbrev tGreaterEqual : Nat := 47
/-- `WolframTokenType::And` (oak-wolfram lexer/token_type.rs:86). -/
abbrev tAnd : Nat := 48
/-- `WolframTokenType::Or` (oak-wolfram lexer/token_type.rs:87). -/
abbrev tOr : Nat := 49
/-- `WolframTokenType::At` (oak-wolfram lexer/token_type.rs:91). -/
abbrev tAt : Nat := 51
/-- `WolframTokenType::SlashSlash` (oak-wolfram lexer/token_type.rs:92). -/
abbrev tSlashSlash : Nat := 52
/-- `WolframTokenType::MapOperator` (oak-wolfram lexer/token_type.rs:93). -/
abbrev tMapOperator : Nat := 53
/-- `WolframTokenType::ApplyOperator` (oak-wolfram lexer/token_type.rs:94). -/
abbrev tApplyOperator : Nat := 54
/-- `WolframTokenType::ApplyLevelOperator` (oak-wolfram lexer/token_type.rs:95). -/
abbrev tApplyLevelOperator : Nat := 55
/-- `WolframTokenType::MapAllOperator` (oak-wolfram lexer/token_type.rs:96). -/
abbrev tMapAllOperator : Nat := 56
/-- `WolframTokenType::Ampersand` (oak-wolfram lexer/token_type.rs:97). -/
abbrev tAmpersand : Nat := 57
/-- `WolframTokenType::Assign` (oak-wolfram lexer/token_type.rs:104). -/
abbrev tAssign : Nat := 62
/-- `WolframTokenType::LeftParen` (oak-wolfram lexer/token_type.rs:111). -/
abbrev tLeftParen : Nat := 67
/-- `WolframTokenType::RightParen` (oak-wolfram lexer/token_type.rs:112). -/
abbrev tRightParen : Nat := 68
/-- `WolframTokenType::LeftBracket` (oak-wolfram lexer/token_type.rs:113). -/
abbrev tLeftBracket : Nat := 69
/-- `WolframTokenType::RightBracket` (oak-wolfram lexer/token_type.rs:114). -/
abbrev tRightBracket : Nat := 70
/-- `WolframTokenType::LeftBrace` (oak-wolfram lexer/token_type.rs:115). -/
abbrev tLeftBrace : Nat := 71
/-- `WolframTokenType::RightBrace` (oak-wolfram lexer/token_type.rs:116). -/
abbrev tRightBrace : Nat := 72
/-- `WolframTokenType::Comma` (oak-wolfram lexer/token_type.rs:117). -/
abbrev tComma : Nat := 73
/-- `WolframTokenType::Arrow` (oak-wolfram lexer/token_type.rs:123). -/
abbrev tArrow : Nat := 77
/-- `WolframTokenType::Slot` (oak-wolfram lexer/token_type.rs:129). -/
abbrev tSlot : Nat := 83
/-- `WolframTokenType::SlotSequence` (oak-wolfram lexer/token_type.rs:130). -/
abbrev tSlotSequence : Nat := 84
/-- `WolframTokenType::Factorial` (oak-wolfram lexer/token_type.rs:131). -/
abbrev tFactorial : Nat := 85
/-- `WolframElementType::Root` (oak-wolfram parser/element_type.rs:9). -/
abbrev eRoot : Nat := 0
/-- `WolframElementType::Expression` (oak-wolfram parser/element_type.rs:11). -/
abbrev eExpression : Nat := 1
/-- `WolframElementType::Call` (oak-wolfram parser/element_type.rs:13). -/
abbrev eCall : Nat := 2
/-- `WolframElementType::Arguments` (oak-wolfram parser/element_type.rs:15). -/
abbrev eArguments : Nat := 3
/-- `WolframElementType::List` (oak-wolfram parser/element_type.rs:17). -/
abbrev eList : Nat := 4
/-- `WolframElementType::Symbol` (oak-wolfram parser/element_type.rs:19). -/
abbrev eSymbol : Nat := 5
/-- `WolframElementType::Literal` (oak-wolfram parser/element_type.rs:21). -/
abbrev eLiteral : Nat := 6
/-- `WolframElementType::BinaryExpr` (oak-wolfram parser/element_type.rs:23). -/
abbrev eBinaryExpr : Nat := 7
/-- `WolframElementType::PrefixExpr` (oak-wolfram parser/element_type.rs:25). -/
abbrev ePrefixExpr : Nat := 8
/-- `WolframElementType::PostfixExpr` (oak-wolfram parser/element_type.rs:27). -/
abbrev ePostfixExpr : Nat := 9
/-- `WolframElementType::Error` (oak-wolfram parser/element_type.rs:29). -/
abbrev eError : Nat := 10

/-- The number of `parse_expression` (oak-wolfram parser/mod.rs:44-46). -/
abbrev pParseExpression : Nat := 0
/-- The number of `parse_pratt(0)` (oak-wolfram parser/mod.rs:48-50). -/
abbrev pParsePratt0 : Nat := 1
/-- The number of `parse_pratt(100)` (oak-wolfram parser/mod.rs:48-50). -/
abbrev pParsePratt100 : Nat := 2
/-- The number of `parse_pratt(110)` (oak-wolfram parser/mod.rs:48-50). -/
abbrev pParsePratt110 : Nat := 3
/-- The number of `parse_pratt(120)` (oak-wolfram parser/mod.rs:48-50). -/
abbrev pParsePratt120 : Nat := 4
/-- The number of `parse_pratt(150)` (oak-wolfram parser/mod.rs:48-50). -/
abbrev pParsePratt150 : Nat := 5
/-- The number of `parse_pratt(20)` (oak-wolfram parser/mod.rs:48-50). -/
abbrev pParsePratt20 : Nat := 6
/-- The number of `parse_pratt(30)` (oak-wolfram parser/mod.rs:48-50). -/
abbrev pParsePratt30 : Nat := 7
/-- The number of `parse_pratt(41)` (oak-wolfram parser/mod.rs:48-50). -/
abbrev pParsePratt41 : Nat := 8
/-- The number of `parse_pratt(51)` (oak-wolfram parser/mod.rs:48-50). -/
abbrev pParsePratt51 : Nat := 9
/-- The number of `parse_pratt(61)` (oak-wolfram parser/mod.rs:48-50). -/
abbrev pParsePratt61 : Nat := 10
/-- The number of `parse_pratt(71)` (oak-wolfram parser/mod.rs:48-50). -/
abbrev pParsePratt71 : Nat := 11
/-- The number of `parse_pratt(81)` (oak-wolfram parser/mod.rs:48-50). -/
abbrev pParsePratt81 : Nat := 12
/-- The number of `parse_pratt(91)` (oak-wolfram parser/mod.rs:48-50). -/
abbrev pParsePratt91 : Nat := 13
/-- The number of `parse_arguments` (oak-wolfram parser/mod.rs:52-67). -/
abbrev pParseArguments : Nat := 14
/-- The number of `parse_list` (oak-wolfram parser/mod.rs:69-84). -/
abbrev pParseList : Nat := 15
/-- The number of `primary` (oak-wolfram parser/mod.rs:88-125). -/
abbrev pPrimary : Nat := 16
/-- The number of `prefix` (oak-wolfram parser/mod.rs:127-140). -/
abbrev pPrefix : Nat := 17
/-- The precedences expressions are parsed with (oak-wolfram parser/mod.rs:142-183). -/
abbrev levels : List Nat := [0, 20, 30, 41, 51, 61, 71, 81, 91, 100, 110, 120, 150]
/-- The number of `PrattParser::parse` with a precedence (oak-core parser/pratt.rs:237-243): after the other functions. -/
abbrev pPratt (min : Nat) : Nat := 18 + levels.idxOf min

/-- `parse_expression` (oak-wolfram parser/mod.rs:44-46). -/
def parseExpression : Prog :=
  call pParsePratt0

/-- `parse_pratt(0)` (oak-wolfram parser/mod.rs:48-50). -/
def parsePratt0 : Prog :=
  call (pPratt 0)

/-- `parse_pratt(100)` (oak-wolfram parser/mod.rs:48-50). -/
def parsePratt100 : Prog :=
  call (pPratt 100)

/-- `parse_pratt(110)` (oak-wolfram parser/mod.rs:48-50). -/
def parsePratt110 : Prog :=
  call (pPratt 110)

/-- `parse_pratt(120)` (oak-wolfram parser/mod.rs:48-50). -/
def parsePratt120 : Prog :=
  call (pPratt 120)

/-- `parse_pratt(150)` (oak-wolfram parser/mod.rs:48-50). -/
def parsePratt150 : Prog :=
  call (pPratt 150)

/-- `parse_pratt(20)` (oak-wolfram parser/mod.rs:48-50). -/
def parsePratt20 : Prog :=
  call (pPratt 20)

/-- `parse_pratt(30)` (oak-wolfram parser/mod.rs:48-50). -/
def parsePratt30 : Prog :=
  call (pPratt 30)

/-- `parse_pratt(41)` (oak-wolfram parser/mod.rs:48-50). -/
def parsePratt41 : Prog :=
  call (pPratt 41)

/-- `parse_pratt(51)` (oak-wolfram parser/mod.rs:48-50). -/
def parsePratt51 : Prog :=
  call (pPratt 51)

/-- `parse_pratt(61)` (oak-wolfram parser/mod.rs:48-50). -/
def parsePratt61 : Prog :=
  call (pPratt 61)

/-- `parse_pratt(71)` (oak-wolfram parser/mod.rs:48-50). -/
def parsePratt71 : Prog :=
  call (pPratt 71)

/-- `parse_pratt(81)` (oak-wolfram parser/mod.rs:48-50). -/
def parsePratt81 : Prog :=
  call (pPratt 81)

/-- `parse_pratt(91)` (oak-wolfram parser/mod.rs:48-50). -/
def parsePratt91 : Prog :=
  call (pPratt 91)

/-- `parse_arguments` (oak-wolfram parser/mod.rs:52-67). -/
def parseArguments : Prog :=
  mark (block [
    bump,
    loop (and_ (not_ (sees tRightBracket)) more)
      (block [
        call pParseExpression,
        when_ (sees tComma)
          bump]),
    when_ (sees tRightBracket)
      bump,
    close eArguments])

/-- `parse_list` (oak-wolfram parser/mod.rs:69-84). -/
def parseList : Prog :=
  mark (block [
    bump,
    loop (and_ (not_ (sees tRightBrace)) more)
      (block [
        call pParseExpression,
        when_ (sees tComma)
          bump]),
    when_ (sees tRightBrace)
      bump,
    close eList])

/-- `primary` (oak-wolfram parser/mod.rs:88-125). -/
def primary : Prog :=
  mark (ite (sees tIdentifier)
    (block [
      bump,
      loop (sees tLeftBracket)
        (block [
          call pParseArguments,
          close eCall]),
      ite (ask (fun v => v.index == v.cp))
        (close eSymbol)
        (close eCall)])
    (ite (or_ (or_ (sees tInteger) (sees tReal)) (sees tString))
      (block [
        bump,
        close eLiteral])
      (ite (sees tLeftBrace)
        (block [
          call pParseList,
          close eList])
        (ite (or_ (sees tSlot) (sees tSlotSequence))
          (block [
            bump,
            close eSymbol])
          (ite (sees tLeftParen)
            (block [
              bump,
              call pParseExpression,
              when_ (sees tRightParen)
                bump,
              close eExpression])
            (block [
              bump,
              close eError]))))))

/-- `prefix` (oak-wolfram parser/mod.rs:127-140). -/
def prefix_ : Prog :=
  ite more
    (ite (sees tMinus)
      (mark (block [
        bump,
        call pParsePratt150,
        close ePrefixExpr]))
      (ite (sees tFactorial)
        (mark (block [
          bump,
          call pParsePratt150,
          close ePrefixExpr]))
        (call pPrimary)))
    (call pPrimary)

/-- `infix` (oak-wolfram parser/mod.rs:142-183) with a least precedence. -/
def infix_ (min : Nat) : Prog :=
  ite more
    (ite (sees tAmpersand)
      (level min 10
        (block [
          bump,
          close ePostfixExpr]))
      (ite (sees tFactorial)
        (level min 160
          (block [
            bump,
            close ePostfixExpr]))
        (ite (seesAny [tAssign, tSet, tSetDelayed])
          (level min 20
            (block [
              bump,
              call pParsePratt20,
              close eBinaryExpr]))
          (ite (seesAny [tRule, tRuleDelayed, tArrow])
            (level min 30
              (block [
                bump,
                call pParsePratt30,
                close eBinaryExpr]))
            (ite (sees tSlashSlash)
              (level min 40
                (block [
                  bump,
                  call pParsePratt41,
                  close eBinaryExpr]))
              (ite (sees tOr)
                (level min 50
                  (block [
                    bump,
                    call pParsePratt51,
                    close eBinaryExpr]))
                (ite (sees tAnd)
                  (level min 60
                    (block [
                      bump,
                      call pParsePratt61,
                      close eBinaryExpr]))
                  (ite (seesAny [tEqual, tNotEqual, tLess, tGreater, tLessEqual, tGreaterEqual])
                    (level min 70
                      (block [
                        bump,
                        call pParsePratt71,
                        close eBinaryExpr]))
                    (ite (seesAny [tPlus, tMinus])
                      (level min 80
                        (block [
                          bump,
                          call pParsePratt81,
                          close eBinaryExpr]))
                      (ite (seesAny [tTimes, tDivide])
                        (level min 90
                          (block [
                            bump,
                            call pParsePratt91,
                            close eBinaryExpr]))
                        (ite (sees tAt)
                          (level min 100
                            (block [
                              bump,
                              call pParsePratt100,
                              close eBinaryExpr]))
                          (ite (sees tMapOperator)
                            (level min 110
                              (block [
                                bump,
                                call pParsePratt110,
                                close eBinaryExpr]))
                            (ite (sees tApplyOperator)
                              (level min 110
                                (block [
                                  bump,
                                  call pParsePratt110,
                                  close eBinaryExpr]))
                              (ite (sees tApplyLevelOperator)
                                (level min 110
                                  (block [
                                    bump,
                                    call pParsePratt110,
                                    close eBinaryExpr]))
                                (ite (sees tMapAllOperator)
                                  (level min 110
                                    (block [
                                      bump,
                                      call pParsePratt110,
                                      close eBinaryExpr]))
                                  (ite (sees tPower)
                                    (level min 120
                                      (block [
                                        bump,
                                        call pParsePratt120,
                                        close eBinaryExpr]))
                                    (val false)))))))))))))))))
    (val false)

/-- `PrattParser::parse` (oak-core parser/pratt.rs:237-243): `left` always begins at the checkpoint. -/
def pratt (min : Nat) : Prog :=
  mark (block [call pPrefix, loop (infix_ min) (val true)])

/-- `parse` between the checkpoint and the last `finish_at` (oak-wolfram parser/mod.rs:29-40). -/
def main : Prog :=
  loop more
    (call pParseExpression)

/-- The parser (`parse`, oak-wolfram parser/mod.rs:29-40; `is_ignored`, oak-wolfram lexer/token_type.rs:18-20). -/
def parser : HandParser where
  ign := []
  fromStart := false
  root := eRoot
  main := main
  procs := [parseExpression, parsePratt0, parsePratt100, parsePratt110, parsePratt120, parsePratt150, parsePratt20, parsePratt30, parsePratt41, parsePratt51, parsePratt61, parsePratt71, parsePratt81, parsePratt91, parseArguments, parseList, primary, prefix_] ++ levels.map pratt

end Oaks.Hand.Wolfram
