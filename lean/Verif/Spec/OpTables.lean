import Verif.Spec.OpDraw
import Verif.Model.HandPratt.Actionscript
import Verif.Model.HandPratt.C
import Verif.Model.HandPratt.Csharp
import Verif.Model.HandPratt.Elixir
import Verif.Model.HandPratt.Go
import Verif.Model.HandPratt.Javascript
import Verif.Model.HandPratt.Kotlin
import Verif.Model.HandPratt.Lua
import Verif.Model.HandPratt.Mojo
import Verif.Model.HandPratt.Php
import Verif.Model.HandPratt.Ruby
import Verif.Model.HandPratt.Rust
import Verif.Model.HandPratt.Sql
import Verif.Model.HandPratt.Swift
import Verif.Model.HandPratt.Wolfram
import Verif.Model.HandPratt.Zig

/-
Specification of how the operators of a language group: what its reference says, by kinds of tokens.
-/
namespace Oaks.Spec
open Oaks

/-- The binary operators of a reference in levels, those that bind least first. Where the level says `none` its operators cannot stand
side by side without parentheses. -/
abbrev OpRef := List (Assoc × List Nat)

/-- The level of an operator. -/
def OpRef.place (k : Nat) : OpRef → Option (Nat × Assoc)
  | [] => none
  | (a, ks) :: r => if k ∈ ks then some (0, a) else (OpRef.place k r).map fun p => (p.1 + 1, p.2)

/-- Whether the operator `x` keeps the operand between it and a later `y`; nothing is said where the reference does not allow the two. -/
def OpRef.keeps (r : OpRef) (x y : Nat) : Option Bool :=
  match r.place x, r.place y with
  | some (i, a), some (j, _) =>
    if j < i then some true else if i < j then some false
    else match a with
      | .left => some true
      | .right => some false
      | .none => none
  | _, _ => none

/-- The grouping is nowhere against the reference. -/
def GroupedBy (r : OpRef) : Expr → Prop
  | .atom _ => True
  | .bin a op b => GroupedBy r a ∧ GroupedBy r b ∧ (∀ o ∈ a.rightSpine, r.keeps o.word.tok.kind op.word.tok.kind ≠ some false) ∧
      (∀ p ∈ b.leftSpine, r.keeps op.word.tok.kind p.word.tok.kind ≠ some true)

/-- The operators with the operand after each, as words. -/
def Expr.row (e : Expr) : List (Word × Word) := e.items.map fun x => (x.1.word, x.2)

/-- Tokens of a row. -/
def rowToks : List (Word × Word) → List Tok
  | [] => []
  | (o, w) :: is => o.toks ++ (w.toks ++ rowToks is)

/-- A language: its parser, the function that parses expressions, the kinds of operands that are one token, the kinds of the nodes, the
reference; the operators of the reference the parser does not know; pairs of operators it does not group by the reference, the first of a
pair standing before the second; the kinds of blanks it does not pass over; other kinds that end an expression. -/
structure OpLang where
  parser : HandParser
  start : Nat
  operands : List Nat
  operand : Nat → Nat
  operation : Nat → Nat
  ref : OpRef
  unknown : List Nat
  disputed : List (List Nat × List Nat)
  blanks : List Nat
  ends : List Nat

/-- The operators of the reference the parser knows. -/
def OpLang.known (L : OpLang) : List Nat := (L.ref.flatMap (·.2)).filter fun k => !L.unknown.contains k

/-- The parser does not group the two by the reference. -/
def OpLang.Disputed (L : OpLang) (x y : Nat) : Prop := ∃ d ∈ L.disputed, x ∈ d.1 ∧ y ∈ d.2

/-- Tokens that end an expression: none, or one of the kinds. -/
def OpLang.Over (L : OpLang) (tail : List Tok) : Prop := ∀ t ts, tail = t :: ts → t.kind ∈ L.unknown ++ L.blanks ++ L.ends

/-- An operand or an operator, with the trivia after it. -/
def OpLang.WordOf (L : OpLang) (ks : List Nat) (w : Word) : Prop := w.Ok (fun k => L.parser.ign.contains k) ∧ w.tok.kind ∈ ks

section Actionscript
open Hand.Actionscript

/-- `oak-actionscript` and the reference (ActionScript 3.0, operator precedence); `infix` of the parser is at oak-actionscript parser/mod.rs:58-126. -/
def opsActionscript : OpLang where
  parser := parser
  start := pPratt 0
  operands := [tIdentifier, tStringLiteral, tNumberLiteral, tTrue, tFalse, tNull]
  operand := fun k => if k ∈ [tIdentifier] then eIdentifierExpression else eLiteralExpression
  operation := fun _ => eBinaryExpression
  ref := [
    (.right, [tEqual, tPlusAssign, tMinusAssign, tStarAssign, tSlashAssign, tPercentAssign, tLeftShiftAssign, tRightShiftAssign,
      tUnsignedRightShiftAssign, tBitwiseAndAssign, tBitwiseOrAssign, tBitwiseXorAssign]),
    (.left, [tLogicalOr]),
    (.left, [tLogicalAnd]),
    (.left, [tBitwiseOr]),
    (.left, [tBitwiseXor]),
    (.left, [tBitwiseAnd]),
    (.left, [tEqualEqual, tNotEqual, tEqualEqualEqual, tNotEqualEqual]),
    (.left, [tLessThan, tGreaterThan, tLessEqual, tGreaterEqual]),
    (.left, [tLeftShift, tRightShift, tUnsignedRightShift]),
    (.left, [tPlus, tMinus]),
    (.left, [tStar, tSlash, tPercent])]
  unknown := []
  disputed := [
    ([tBitwiseOr, tBitwiseXor, tBitwiseAnd], [tEqualEqual, tNotEqual, tEqualEqualEqual, tNotEqualEqual, tLessThan, tGreaterThan, tLessEqual, tGreaterEqual]),
    ([tEqualEqual, tNotEqual, tEqualEqualEqual, tNotEqualEqual, tLessThan, tGreaterThan, tLessEqual, tGreaterEqual], [tBitwiseOr, tBitwiseXor, tBitwiseAnd])]
  blanks := []
  ends := [tSemicolon, tRightParen, tComma, tRightBracket, tRightBrace, tColon]

end Actionscript

section C
open Hand.C

/-- `CTokenType::BitOr` (oak-c lexer/token_type.rs:74). -/
abbrev _root_.Oaks.Hand.C.tBitOr : Nat := 32
/-- `CTokenType::BitXor` (oak-c lexer/token_type.rs:76). -/
abbrev _root_.Oaks.Hand.C.tBitXor : Nat := 33
/-- `CTokenType::BitAnd` (oak-c lexer/token_type.rs:72). -/
abbrev _root_.Oaks.Hand.C.tBitAnd : Nat := 31
/-- `CTokenType::LeftShift` (oak-c lexer/token_type.rs:80). -/
abbrev _root_.Oaks.Hand.C.tLeftShift : Nat := 35
/-- `CTokenType::RightShift` (oak-c lexer/token_type.rs:82). -/
abbrev _root_.Oaks.Hand.C.tRightShift : Nat := 36
/-- `CTokenType::Colon` (oak-c lexer/token_type.rs:26). -/
abbrev _root_.Oaks.Hand.C.tColon : Nat := 8
/-- `CTokenType::Question` (oak-c lexer/token_type.rs:30). -/
abbrev _root_.Oaks.Hand.C.tQuestion : Nat := 10

/-- `oak-c` and the reference (ISO/IEC 9899, 6.5); `infix` of the parser is at oak-c parser/mod.rs:225-279. -/
def opsC : OpLang where
  parser := parser
  start := pPratt 0
  operands := [tIdentifier, tIntegerLiteral, tFloatLiteral, tCharLiteral, tStringLiteral]
  operand := fun k => if k ∈ [tIdentifier] then eTokenIdentifier else eExpressionStatement
  operation := fun _ => eExpressionStatement
  ref := [
    (.right, [tAssign, tPlusAssign, tMinusAssign, tStarAssign, tSlashAssign, tPercentAssign, tAndAssign, tOrAssign, tXorAssign, tLeftShiftAssign,
      tRightShiftAssign]),
    (.left, [tLogicalOr]),
    (.left, [tLogicalAnd]),
    (.left, [tBitOr]),
    (.left, [tBitXor]),
    (.left, [tBitAnd]),
    (.left, [tEqual, tNotEqual]),
    (.left, [tLess, tGreater, tLessEqual, tGreaterEqual]),
    (.left, [tLeftShift, tRightShift]),
    (.left, [tPlus, tMinus]),
    (.left, [tStar, tSlash, tPercent])]
  unknown := [tBitOr, tBitXor, tBitAnd, tLeftShift, tRightShift]
  disputed := [
    ([tEqual, tNotEqual], [tLess, tGreater, tLessEqual, tGreaterEqual])]
  blanks := []
  ends := [tSemicolon, tRightParen, tComma, tRightBracket, tRightBrace, tColon, tQuestion]

end C

section Csharp
open Hand.Csharp

/-- `CSharpTokenType::Pipe` (oak-csharp lexer/token_type.rs:413). -/
abbrev _root_.Oaks.Hand.Csharp.tPipe : Nat := 197
/-- `CSharpTokenType::Caret` (oak-csharp lexer/token_type.rs:414). -/
abbrev _root_.Oaks.Hand.Csharp.tCaret : Nat := 198
/-- `CSharpTokenType::Ampersand` (oak-csharp lexer/token_type.rs:412). -/
abbrev _root_.Oaks.Hand.Csharp.tAmpersand : Nat := 196
/-- `CSharpTokenType::Is` (oak-csharp lexer/token_type.rs:260). -/
abbrev _root_.Oaks.Hand.Csharp.tIs : Nat := 50
/-- `CSharpTokenType::As` (oak-csharp lexer/token_type.rs:223). -/
abbrev _root_.Oaks.Hand.Csharp.tAs : Nat := 13
/-- `CSharpTokenType::LeftShift` (oak-csharp lexer/token_type.rs:420). -/
abbrev _root_.Oaks.Hand.Csharp.tLeftShift : Nat := 204
/-- `CSharpTokenType::RightShift` (oak-csharp lexer/token_type.rs:421). -/
abbrev _root_.Oaks.Hand.Csharp.tRightShift : Nat := 205
/-- `CSharpTokenType::Whitespace` (oak-csharp lexer/token_type.rs:196). -/
abbrev _root_.Oaks.Hand.Csharp.tWhitespace : Nat := 0
/-- `CSharpTokenType::Newline` (oak-csharp lexer/token_type.rs:198). -/
abbrev _root_.Oaks.Hand.Csharp.tNewline : Nat := 1
/-- `CSharpTokenType::Comment` (oak-csharp lexer/token_type.rs:200). -/
abbrev _root_.Oaks.Hand.Csharp.tComment : Nat := 2
/-- `CSharpTokenType::Comma` (oak-csharp lexer/token_type.rs:462). -/
abbrev _root_.Oaks.Hand.Csharp.tComma : Nat := 242
/-- `CSharpTokenType::Colon` (oak-csharp lexer/token_type.rs:464). -/
abbrev _root_.Oaks.Hand.Csharp.tColon : Nat := 244
/-- `CSharpTokenType::Question` (oak-csharp lexer/token_type.rs:431). -/
abbrev _root_.Oaks.Hand.Csharp.tQuestion : Nat := 215

/-- `oak-csharp` and the reference (C# language specification, 12.4.2); `infix` of the parser is at oak-csharp parser/mod.rs:55-129. -/
def opsCsharp : OpLang where
  parser := parser
  start := pPratt 0
  operands := [tIdentifier, tNumberLiteral, tStringLiteral]
  operand := fun k => if k ∈ [tIdentifier] then eIdentifierName else eLiteralExpression
  operation := fun k => if k ∈ [tAssign, tPlusAssign, tMinusAssign, tStarAssign, tSlashAssign, tPercentAssign] then eAssignmentExpression else eBinaryExpression
  ref := [
    (.right, [tAssign, tPlusAssign, tMinusAssign, tStarAssign, tSlashAssign, tPercentAssign]),
    (.left, [tLogicalOr]),
    (.left, [tLogicalAnd]),
    (.left, [tPipe]),
    (.left, [tCaret]),
    (.left, [tAmpersand]),
    (.left, [tEqual, tNotEqual]),
    (.left, [tLess, tGreater, tLessEqual, tGreaterEqual, tIs, tAs]),
    (.left, [tLeftShift, tRightShift]),
    (.left, [tPlus, tMinus]),
    (.left, [tStar, tSlash, tPercent])]
  unknown := [tPipe, tCaret, tAmpersand, tIs, tAs, tLeftShift, tRightShift]
  disputed := [
    ([tEqual, tNotEqual], [tLess, tGreater, tLessEqual, tGreaterEqual])]
  blanks := [tWhitespace, tNewline, tComment]
  ends := [tSemicolon, tRightParen, tComma, tRightBracket, tRightBrace, tColon, tQuestion]

end Csharp

section Elixir
open Hand.Elixir

/-- `ElixirTokenType::And` (oak-elixir lexer/token_type.rs:22). -/
abbrev _root_.Oaks.Hand.Elixir.tAnd : Nat := 13
/-- `ElixirTokenType::Or` (oak-elixir lexer/token_type.rs:43). -/
abbrev _root_.Oaks.Hand.Elixir.tOr : Nat := 34
/-- `ElixirTokenType::In` (oak-elixir lexer/token_type.rs:41). -/
abbrev _root_.Oaks.Hand.Elixir.tIn : Nat := 32

/-- `oak-elixir` and the reference (Elixir, operators reference); `infix` of the parser is at oak-elixir parser/mod.rs:123-172. -/
def opsElixir : OpLang where
  parser := parser
  start := pPratt 0
  operands := [tIdentifier, tAtom, tNumber, tFloat, tString, tCharacter]
  operand := fun k => if k ∈ [tIdentifier] then eIdentifierExpression else eLiteralExpression
  operation := fun k => if k ∈ [tEq] then eMatchExpression else eBinaryExpression
  ref := [
    (.right, [tEq]),
    (.left, [tOr, tOrOr]),
    (.left, [tAnd, tAndAnd]),
    (.left, [tEqEq, tNe]),
    (.left, [tLt, tGt, tLe, tGe]),
    (.left, [tPipeline]),
    (.left, [tIn]),
    (.right, [tConcat, tPlusPlus, tMinusMinus]),
    (.left, [tPlus, tMinus]),
    (.left, [tMul, tDiv])]
  unknown := [tAnd, tOr, tIn]
  disputed := [
    ([tConcat, tPlusPlus, tMinusMinus], [tConcat, tPlusPlus, tMinusMinus])]
  blanks := []
  ends := [tComma, tRightParen, tRightBracket, tRightBrace, tDo, tEnd]

end Elixir

section Go
open Hand.Go

/-- `GoTokenType::RightBracket` (oak-go lexer/token_type.rs:179). -/
abbrev _root_.Oaks.Hand.Go.tRightBracket : Nat := 148
/-- `GoTokenType::Colon` (oak-go lexer/token_type.rs:186). -/
abbrev _root_.Oaks.Hand.Go.tColon : Nat := 155

/-- `oak-go` and the reference (The Go programming language specification, operators); `infix` of the parser is at oak-go parser/mod.rs:352-401. -/
def opsGo : OpLang where
  parser := parser
  start := pPratt 0
  operands := [tIntLiteral, tFloatLiteral, tStringLiteral, tRuneLiteral, tBoolLiteral, tIdentifier, tNilLiteral]
  operand := fun k => if k ∈ [tIntLiteral] then eIntLiteral else if k ∈ [tFloatLiteral] then eFloatLiteral else if k ∈ [tStringLiteral] then eStringLiteral else if k ∈ [tRuneLiteral] then eRuneLiteral else if k ∈ [tBoolLiteral] then eBoolLiteral else if k ∈ [tIdentifier] then eIdentifier else eNilLiteral
  operation := fun _ => eBinaryExpression
  ref := [
    (.none, [tAssign, tColonAssign]),
    (.left, [tLogicalOr]),
    (.left, [tLogicalAnd]),
    (.left, [tEqual, tNotEqual, tLess, tLessEqual, tGreater, tGreaterEqual]),
    (.left, [tPlus, tMinus, tPipe, tCaret]),
    (.left, [tStar, tSlash, tPercent, tLeftShift, tRightShift, tAmpersand, tAmpersandCaret])]
  unknown := []
  disputed := []
  blanks := []
  ends := [tSemicolon, tRightParen, tComma, tRightBracket, tRightBrace, tLeftBrace, tColon]

end Go

section Javascript
open Hand.Javascript

/-- `JavaScriptTokenType::QuestionQuestion` (oak-javascript lexer/token_type.rs:173). -/
abbrev _root_.Oaks.Hand.Javascript.tQuestionQuestion : Nat := 77
/-- `JavaScriptTokenType::Pipe` (oak-javascript lexer/token_type.rs:159). -/
abbrev _root_.Oaks.Hand.Javascript.tPipe : Nat := 70
/-- `JavaScriptTokenType::Caret` (oak-javascript lexer/token_type.rs:161). -/
abbrev _root_.Oaks.Hand.Javascript.tCaret : Nat := 71
/-- `JavaScriptTokenType::Ampersand` (oak-javascript lexer/token_type.rs:157). -/
abbrev _root_.Oaks.Hand.Javascript.tAmpersand : Nat := 69
/-- `JavaScriptTokenType::Less` (oak-javascript lexer/token_type.rs:141). -/
abbrev _root_.Oaks.Hand.Javascript.tLess : Nat := 61
/-- `JavaScriptTokenType::Greater` (oak-javascript lexer/token_type.rs:143). -/
abbrev _root_.Oaks.Hand.Javascript.tGreater : Nat := 62
/-- `JavaScriptTokenType::LessEqual` (oak-javascript lexer/token_type.rs:145). -/
abbrev _root_.Oaks.Hand.Javascript.tLessEqual : Nat := 63
/-- `JavaScriptTokenType::GreaterEqual` (oak-javascript lexer/token_type.rs:147). -/
abbrev _root_.Oaks.Hand.Javascript.tGreaterEqual : Nat := 64
/-- `JavaScriptTokenType::Instanceof` (oak-javascript lexer/token_type.rs:69). -/
abbrev _root_.Oaks.Hand.Javascript.tInstanceof : Nat := 26
/-- `JavaScriptTokenType::In` (oak-javascript lexer/token_type.rs:67). -/
abbrev _root_.Oaks.Hand.Javascript.tIn : Nat := 25
/-- `JavaScriptTokenType::LeftShift` (oak-javascript lexer/token_type.rs:135). -/
abbrev _root_.Oaks.Hand.Javascript.tLeftShift : Nat := 58
/-- `JavaScriptTokenType::RightShift` (oak-javascript lexer/token_type.rs:137). -/
abbrev _root_.Oaks.Hand.Javascript.tRightShift : Nat := 59
/-- `JavaScriptTokenType::UnsignedRightShift` (oak-javascript lexer/token_type.rs:139). -/
abbrev _root_.Oaks.Hand.Javascript.tUnsignedRightShift : Nat := 60
/-- `JavaScriptTokenType::StarStar` (oak-javascript lexer/token_type.rs:129). -/
abbrev _root_.Oaks.Hand.Javascript.tStarStar : Nat := 55
/-- `JavaScriptTokenType::Whitespace` (oak-javascript lexer/token_type.rs:265). -/
abbrev _root_.Oaks.Hand.Javascript.tWhitespace : Nat := 118
/-- `JavaScriptTokenType::Newline` (oak-javascript lexer/token_type.rs:267). -/
abbrev _root_.Oaks.Hand.Javascript.tNewline : Nat := 119
/-- `JavaScriptTokenType::Comma` (oak-javascript lexer/token_type.rs:227). -/
abbrev _root_.Oaks.Hand.Javascript.tComma : Nat := 102
/-- `JavaScriptTokenType::RightBracket` (oak-javascript lexer/token_type.rs:223). -/
abbrev _root_.Oaks.Hand.Javascript.tRightBracket : Nat := 100
/-- `JavaScriptTokenType::Colon` (oak-javascript lexer/token_type.rs:233). -/
abbrev _root_.Oaks.Hand.Javascript.tColon : Nat := 105
/-- `JavaScriptTokenType::Question` (oak-javascript lexer/token_type.rs:171). -/
abbrev _root_.Oaks.Hand.Javascript.tQuestion : Nat := 76

/-- `oak-javascript` and the reference (ECMA-262, 13); `infix` of the parser is at oak-javascript parser/mod.rs:165-241. -/
def opsJavascript : OpLang where
  parser := parser
  start := pPratt 0
  operands := [tIdentifierName, tStringLiteral, tNumericLiteral, tTrue, tFalse, tNull]
  operand := fun k => if k ∈ [tIdentifierName] then eIdentifier else eLiteral
  operation := fun k => if k ∈ [tPipePipe, tAmpersandAmpersand] then eLogicalExpression else if k ∈ [tEqualEqual, tNotEqual, tEqualEqualEqual, tNotEqualEqual, tPlus, tMinus, tStar, tSlash, tPercent] then eBinaryExpression else eAssignmentExpression
  ref := [
    (.right, [tEqual, tPlusEqual, tMinusEqual, tStarEqual, tSlashEqual, tPercentEqual, tStarStarEqual, tLeftShiftEqual, tRightShiftEqual,
      tUnsignedRightShiftEqual, tAmpersandEqual, tPipeEqual, tCaretEqual, tAmpersandAmpersandEqual, tPipePipeEqual, tQuestionQuestionEqual]),
    (.left, [tQuestionQuestion]),
    (.left, [tPipePipe]),
    (.left, [tAmpersandAmpersand]),
    (.left, [tPipe]),
    (.left, [tCaret]),
    (.left, [tAmpersand]),
    (.left, [tEqualEqual, tNotEqual, tEqualEqualEqual, tNotEqualEqual]),
    (.left, [tLess, tGreater, tLessEqual, tGreaterEqual, tInstanceof, tIn]),
    (.left, [tLeftShift, tRightShift, tUnsignedRightShift]),
    (.left, [tPlus, tMinus]),
    (.left, [tStar, tSlash, tPercent]),
    (.right, [tStarStar])]
  unknown := [tQuestionQuestion, tPipe, tCaret, tAmpersand, tLess, tGreater, tLessEqual, tGreaterEqual, tInstanceof, tIn, tLeftShift, tRightShift,
    tUnsignedRightShift, tStarStar]
  disputed := []
  blanks := [tWhitespace, tNewline]
  ends := [tSemicolon, tRightParen, tComma, tRightBracket, tRightBrace, tColon, tQuestion]

end Javascript

section Kotlin
open Hand.Kotlin

/-- `KotlinTokenType::Less` (oak-kotlin lexer/token_type.rs:119). -/
abbrev _root_.Oaks.Hand.Kotlin.tLess : Nat := 85
/-- `KotlinTokenType::Greater` (oak-kotlin lexer/token_type.rs:120). -/
abbrev _root_.Oaks.Hand.Kotlin.tGreater : Nat := 86

/-- `oak-kotlin` and the reference (Kotlin language specification, syntax grammar of expressions); `infix` of the parser is at oak-kotlin parser/mod.rs:280-345. -/
def opsKotlin : OpLang where
  parser := parser
  start := pPratt 0
  operands := [tIdentifier, tStringLiteral, tCharLiteral, tNumberLiteral, tTrue, tFalse, tNull]
  operand := fun k => if k ∈ [tIdentifier] then eIdentifier else eIntLiteral
  operation := fun k => if k ∈ [tAssign, tPlusAssign, tMinusAssign, tStarAssign, tSlashAssign, tPercentAssign] then eAssignmentExpression else eBinaryExpression
  ref := [
    (.none, [tAssign, tPlusAssign, tMinusAssign, tStarAssign, tSlashAssign, tPercentAssign]),
    (.left, [tOrOr]),
    (.left, [tAndAnd]),
    (.left, [tEqEq, tNotEq]),
    (.left, [tLess, tGreater, tLtEq, tGtEq]),
    (.left, [tIs]),
    (.left, [tRange]),
    (.left, [tPlus, tMinus]),
    (.left, [tStar, tSlash, tPercent]),
    (.left, [tAs])]
  unknown := []
  disputed := [
    ([tAssign, tPlusAssign, tMinusAssign, tStarAssign, tSlashAssign, tPercentAssign, tOrOr, tAndAnd], [tLess, tGreater]),
    ([tEqEq, tNotEq], [tLess, tGreater, tLtEq, tGtEq, tIs, tAs]),
    ([tLess, tGreater], [tAssign, tPlusAssign, tMinusAssign, tStarAssign, tSlashAssign, tPercentAssign, tOrOr, tAndAnd, tEqEq, tNotEq, tLtEq, tGtEq]),
    ([tLtEq, tGtEq], [tIs, tAs]),
    ([tIs], [tAs]),
    ([tRange], [tPlus, tMinus, tStar, tSlash, tPercent, tAs]),
    ([tPlus, tMinus, tStar, tSlash, tPercent], [tRange, tAs]),
    ([tAs], [tRange, tPlus, tMinus, tStar, tSlash, tPercent])]
  blanks := []
  ends := []

end Kotlin

section Lua
open Hand.Lua

/-- `oak-lua` and the reference (Lua 5.4 reference manual, 3.4.8); `infix` of the parser is at oak-lua parser/mod.rs:365-433. -/
def opsLua : OpLang where
  parser := parser
  start := pPratt 0
  operands := [tIdentifier, tNumber, tNil, tTrue, tFalse]
  operand := fun k => if k ∈ [tIdentifier] then eIdentifierExpression else eLiteralExpression
  operation := fun _ => eBinaryExpression
  ref := [
    (.left, [tOr]),
    (.left, [tAnd]),
    (.left, [tLt, tGt, tLtEq, tGtEq, tTildeEq, tEqEq]),
    (.left, [tPipe]),
    (.left, [tTilde]),
    (.left, [tAmpersand]),
    (.left, [tLtLt, tGtGt]),
    (.right, [tDotDot]),
    (.left, [tPlus, tMinus]),
    (.left, [tStar, tSlash, tSlashSlash, tPercent]),
    (.right, [tCaret])]
  unknown := []
  disputed := []
  blanks := []
  ends := [tSemicolon, tRightParen, tComma, tRightBracket, tRightBrace, tThen, tDo, tEnd, tEq]

end Lua

section Mojo
open Hand.Mojo

/-- `MojoTokenType::In` (oak-mojo lexer/token_type.rs:17). -/
abbrev _root_.Oaks.Hand.Mojo.tIn : Nat := 8
/-- `MojoTokenType::Comma` (oak-mojo lexer/token_type.rs:55). -/
abbrev _root_.Oaks.Hand.Mojo.tComma : Nat := 42
/-- `MojoTokenType::RightBracket` (oak-mojo lexer/token_type.rs:52). -/
abbrev _root_.Oaks.Hand.Mojo.tRightBracket : Nat := 39

/-- `oak-mojo` and the reference (Mojo manual, operator precedence); `infix` of the parser is at oak-mojo parser/mod.rs:242-261. -/
def opsMojo : OpLang where
  parser := parser
  start := pPratt 0
  operands := [tIdentifier, tInteger, tFloat, tString]
  operand := fun k => if k ∈ [tIdentifier] then eIdentifierExpr else eLiteralExpr
  operation := fun _ => eBinaryExpr
  ref := [
    (.none, [tIn, tEqualEqual, tNotEqual, tLess, tLessEqual, tGreater, tGreaterEqual]),
    (.left, [tPlus, tMinus]),
    (.left, [tStar, tSlash, tPercent])]
  unknown := [tIn]
  disputed := []
  blanks := []
  ends := [tRightParen, tComma, tRightBracket, tColon]

end Mojo

section Php
open Hand.Php

/-- `PhpTokenType::Or` (oak-php lexer/token_type.rs:138). -/
abbrev _root_.Oaks.Hand.Php.tOr : Nat := 55
/-- `PhpTokenType::Xor` (oak-php lexer/token_type.rs:155). -/
abbrev _root_.Oaks.Hand.Php.tXor : Nat := 72
/-- `PhpTokenType::And` (oak-php lexer/token_type.rs:93). -/
abbrev _root_.Oaks.Hand.Php.tAnd : Nat := 10
/-- `PhpTokenType::NullCoalesce` (oak-php lexer/token_type.rs:203). -/
abbrev _root_.Oaks.Hand.Php.tNullCoalesce : Nat := 118
/-- `PhpTokenType::BitwiseOr` (oak-php lexer/token_type.rs:181). -/
abbrev _root_.Oaks.Hand.Php.tBitwiseOr : Nat := 96
/-- `PhpTokenType::BitwiseXor` (oak-php lexer/token_type.rs:182). -/
abbrev _root_.Oaks.Hand.Php.tBitwiseXor : Nat := 97
/-- `PhpTokenType::BitwiseAnd` (oak-php lexer/token_type.rs:180). -/
abbrev _root_.Oaks.Hand.Php.tBitwiseAnd : Nat := 95
/-- `PhpTokenType::Dot` (oak-php lexer/token_type.rs:216). -/
abbrev _root_.Oaks.Hand.Php.tDot : Nat := 129
/-- `PhpTokenType::LeftShift` (oak-php lexer/token_type.rs:184). -/
abbrev _root_.Oaks.Hand.Php.tLeftShift : Nat := 99
/-- `PhpTokenType::RightShift` (oak-php lexer/token_type.rs:185). -/
abbrev _root_.Oaks.Hand.Php.tRightShift : Nat := 100
/-- `PhpTokenType::Instanceof` (oak-php lexer/token_type.rs:131). -/
abbrev _root_.Oaks.Hand.Php.tInstanceof : Nat := 48
/-- `PhpTokenType::Power` (oak-php lexer/token_type.rs:165). -/
abbrev _root_.Oaks.Hand.Php.tPower : Nat := 80
/-- `PhpTokenType::Whitespace` (oak-php lexer/token_type.rs:77). -/
abbrev _root_.Oaks.Hand.Php.tWhitespace : Nat := 0
/-- `PhpTokenType::Newline` (oak-php lexer/token_type.rs:78). -/
abbrev _root_.Oaks.Hand.Php.tNewline : Nat := 1
/-- `PhpTokenType::Comment` (oak-php lexer/token_type.rs:81). -/
abbrev _root_.Oaks.Hand.Php.tComment : Nat := 2
/-- `PhpTokenType::Comma` (oak-php lexer/token_type.rs:215). -/
abbrev _root_.Oaks.Hand.Php.tComma : Nat := 128
/-- `PhpTokenType::Colon` (oak-php lexer/token_type.rs:218). -/
abbrev _root_.Oaks.Hand.Php.tColon : Nat := 131
/-- `PhpTokenType::Question` (oak-php lexer/token_type.rs:217). -/
abbrev _root_.Oaks.Hand.Php.tQuestion : Nat := 130

/-- `oak-php` and the reference (PHP manual, operator precedence (PHP 8)); `infix` of the parser is at oak-php parser/mod.rs:63-114. -/
def opsPhp : OpLang where
  parser := parser
  start := pPratt 0
  operands := [tStringLiteral, tNumberLiteral, tIdentifier]
  operand := fun k => if k ∈ [tIdentifier] then eIdentifier else eLiteral
  operation := fun _ => eBinaryExpression
  ref := [
    (.left, [tOr]),
    (.left, [tXor]),
    (.left, [tAnd]),
    (.right, [tAssign, tPlusAssign, tMinusAssign, tMultiplyAssign, tDivideAssign, tModuloAssign, tConcatAssign, tBitwiseAndAssign,
      tBitwiseOrAssign, tBitwiseXorAssign, tLeftShiftAssign, tRightShiftAssign]),
    (.right, [tNullCoalesce]),
    (.left, [tLogicalOr]),
    (.left, [tLogicalAnd]),
    (.left, [tBitwiseOr]),
    (.left, [tBitwiseXor]),
    (.left, [tBitwiseAnd]),
    (.none, [tEqual, tNotEqual, tIdentical, tNotIdentical, tSpaceship]),
    (.none, [tLess, tLessEqual, tGreater, tGreaterEqual]),
    (.left, [tDot]),
    (.left, [tLeftShift, tRightShift]),
    (.left, [tPlus, tMinus]),
    (.left, [tMultiply, tDivide, tModulo]),
    (.left, [tInstanceof]),
    (.right, [tPower])]
  unknown := [tOr, tXor, tAnd, tNullCoalesce, tBitwiseOr, tBitwiseXor, tBitwiseAnd, tDot, tLeftShift, tRightShift, tInstanceof, tPower]
  disputed := [
    ([tEqual, tNotEqual, tIdentical, tNotIdentical, tSpaceship], [tLess, tLessEqual, tGreater, tGreaterEqual])]
  blanks := [tWhitespace, tNewline, tComment]
  ends := [tSemicolon, tRightParen, tComma, tRightBracket, tRightBrace, tColon, tQuestion]

end Php

section Ruby
open Hand.Ruby

/-- `RubyTokenType::And` (oak-ruby lexer/token_type.rs:55). -/
abbrev _root_.Oaks.Hand.Ruby.tAnd : Nat := 42
/-- `RubyTokenType::Or` (oak-ruby lexer/token_type.rs:56). -/
abbrev _root_.Oaks.Hand.Ruby.tOr : Nat := 43
/-- `RubyTokenType::DotDot` (oak-ruby lexer/token_type.rs:107). -/
abbrev _root_.Oaks.Hand.Ruby.tDotDot : Nat := 93
/-- `RubyTokenType::DotDotDot` (oak-ruby lexer/token_type.rs:108). -/
abbrev _root_.Oaks.Hand.Ruby.tDotDotDot : Nat := 94
/-- `RubyTokenType::Spaceship` (oak-ruby lexer/token_type.rs:82). -/
abbrev _root_.Oaks.Hand.Ruby.tSpaceship : Nat := 68
/-- `RubyTokenType::EqualEqualEqual` (oak-ruby lexer/token_type.rs:81). -/
abbrev _root_.Oaks.Hand.Ruby.tEqualEqualEqual : Nat := 67
/-- `RubyTokenType::Match` (oak-ruby lexer/token_type.rs:109). -/
abbrev _root_.Oaks.Hand.Ruby.tMatch : Nat := 95
/-- `RubyTokenType::NotMatch` (oak-ruby lexer/token_type.rs:110). -/
abbrev _root_.Oaks.Hand.Ruby.tNotMatch : Nat := 96
/-- `RubyTokenType::BitOr` (oak-ruby lexer/token_type.rs:91). -/
abbrev _root_.Oaks.Hand.Ruby.tBitOr : Nat := 77
/-- `RubyTokenType::Xor` (oak-ruby lexer/token_type.rs:92). -/
abbrev _root_.Oaks.Hand.Ruby.tXor : Nat := 78
/-- `RubyTokenType::BitAnd` (oak-ruby lexer/token_type.rs:90). -/
abbrev _root_.Oaks.Hand.Ruby.tBitAnd : Nat := 76
/-- `RubyTokenType::LeftShift` (oak-ruby lexer/token_type.rs:95). -/
abbrev _root_.Oaks.Hand.Ruby.tLeftShift : Nat := 81
/-- `RubyTokenType::RightShift` (oak-ruby lexer/token_type.rs:96). -/
abbrev _root_.Oaks.Hand.Ruby.tRightShift : Nat := 82
/-- `RubyTokenType::Comma` (oak-ruby lexer/token_type.rs:118). -/
abbrev _root_.Oaks.Hand.Ruby.tComma : Nat := 103
/-- `RubyTokenType::RightBracket` (oak-ruby lexer/token_type.rs:115). -/
abbrev _root_.Oaks.Hand.Ruby.tRightBracket : Nat := 100
/-- `RubyTokenType::RightBrace` (oak-ruby lexer/token_type.rs:117). -/
abbrev _root_.Oaks.Hand.Ruby.tRightBrace : Nat := 102
/-- `RubyTokenType::Then` (oak-ruby lexer/token_type.rs:30). -/
abbrev _root_.Oaks.Hand.Ruby.tThen : Nat := 17
/-- `RubyTokenType::Do` (oak-ruby lexer/token_type.rs:67). -/
abbrev _root_.Oaks.Hand.Ruby.tDo : Nat := 54

/-- `oak-ruby` and the reference (Ruby documentation, precedence); `infix` of the parser is at oak-ruby parser/mod.rs:170-189. -/
def opsRuby : OpLang where
  parser := parser
  start := pPratt 0
  operands := [tIdentifier, tGlobalVariable, tInstanceVariable, tClassVariable, tConstant, tIntegerLiteral, tFloatLiteral, tStringLiteral, tTrue,
    tFalse, tNil, tSelf_]
  operand := fun k => if k ∈ [tIdentifier, tGlobalVariable, tInstanceVariable, tClassVariable, tConstant] then eIdentifier else eLiteralExpression
  operation := fun _ => eBinaryExpression
  ref := [
    (.left, [tAnd, tOr]),
    (.none, [tDotDot, tDotDotDot]),
    (.left, [tOrOr]),
    (.left, [tAndAnd]),
    (.none, [tEqualEqual, tNotEqual, tSpaceship, tEqualEqualEqual, tMatch, tNotMatch]),
    (.left, [tLess, tLessEqual, tGreater, tGreaterEqual]),
    (.left, [tBitOr, tXor]),
    (.left, [tBitAnd]),
    (.left, [tLeftShift, tRightShift]),
    (.left, [tPlus, tMinus]),
    (.left, [tMultiply, tDivide, tModulo]),
    (.right, [tPower])]
  unknown := [tAnd, tOr, tDotDot, tDotDotDot, tSpaceship, tEqualEqualEqual, tMatch, tNotMatch, tBitOr, tXor, tBitAnd, tLeftShift, tRightShift]
  disputed := [
    ([tEqualEqual, tNotEqual], [tLess, tLessEqual, tGreater, tGreaterEqual])]
  blanks := []
  ends := [tSemicolon, tRightParen, tComma, tRightBracket, tRightBrace, tThen, tDo, tEnd]

end Ruby

section Rust
open Hand.Rust

/-- `RustTokenType::LessThan` (oak-rust lexer/token_type.rs:203). -/
abbrev _root_.Oaks.Hand.Rust.tLessThan : Nat := 95
/-- `RustTokenType::GreaterThan` (oak-rust lexer/token_type.rs:205). -/
abbrev _root_.Oaks.Hand.Rust.tGreaterThan : Nat := 96
/-- `RustTokenType::LessEq` (oak-rust lexer/token_type.rs:215). -/
abbrev _root_.Oaks.Hand.Rust.tLessEq : Nat := 101
/-- `RustTokenType::GreaterEq` (oak-rust lexer/token_type.rs:217). -/
abbrev _root_.Oaks.Hand.Rust.tGreaterEq : Nat := 102
/-- `RustTokenType::LeftShift` (oak-rust lexer/token_type.rs:223). -/
abbrev _root_.Oaks.Hand.Rust.tLeftShift : Nat := 105
/-- `RustTokenType::RightShift` (oak-rust lexer/token_type.rs:225). -/
abbrev _root_.Oaks.Hand.Rust.tRightShift : Nat := 106
/-- `RustTokenType::LeftShiftEq` (oak-rust lexer/token_type.rs:251). -/
abbrev _root_.Oaks.Hand.Rust.tLeftShiftEq : Nat := 119
/-- `RustTokenType::RightShiftEq` (oak-rust lexer/token_type.rs:253). -/
abbrev _root_.Oaks.Hand.Rust.tRightShiftEq : Nat := 120
/-- `RustTokenType::Colon` (oak-rust lexer/token_type.rs:163). -/
abbrev _root_.Oaks.Hand.Rust.tColon : Nat := 75
/-- `RustTokenType::FatArrow` (oak-rust lexer/token_type.rs:279). -/
abbrev _root_.Oaks.Hand.Rust.tFatArrow : Nat := 133

/-- `oak-rust` and the reference (The Rust Reference, expression precedence); `infix` of the parser is at oak-rust parser/mod.rs:65-123. -/
def opsRust : OpLang where
  parser := parser
  start := pPratt 0
  operands := [tIdentifier, tIntegerLiteral, tStringLiteral, tCharLiteral, tTrue, tFalse]
  operand := fun k => if k ∈ [tIdentifier] then eIdentifierExpression else eLiteralExpression
  operation := fun _ => eBinaryExpression
  ref := [
    (.right, [tEq, tPlusEq, tMinusEq, tStarEq, tSlashEq, tPercentEq, tCaretEq, tAndEq, tOrEq, tLeftShiftEq, tRightShiftEq]),
    (.none, [tDotDot, tDotDotEq]),
    (.left, [tOrOr]),
    (.left, [tAndAnd]),
    (.none, [tEqEq, tNe, tLessThan, tGreaterThan, tLessEq, tGreaterEq]),
    (.left, [tPipe]),
    (.left, [tCaret]),
    (.left, [tAmpersand]),
    (.left, [tLeftShift, tRightShift]),
    (.left, [tPlus, tMinus]),
    (.left, [tStar, tSlash, tPercent])]
  unknown := [tLessThan, tGreaterThan, tLessEq, tGreaterEq, tLeftShift, tRightShift, tLeftShiftEq, tRightShiftEq]
  disputed := []
  blanks := []
  ends := [tSemicolon, tRightParen, tComma, tRightBracket, tRightBrace, tColon, tFatArrow]

end Rust

section Sql
open Hand.Sql

/-- `oak-sql` and the reference (ISO/IEC 9075-2, value expressions and search conditions); `infix` of the parser is at oak-sql parser/mod.rs:50-68. -/
def opsSql : OpLang where
  parser := parser
  start := pPratt 0
  operands := [tIdentifier_, tNumberLiteral, tStringLiteral]
  operand := fun k => if k ∈ [tIdentifier_] then eIdentifier else eExpression
  operation := fun _ => eExpression
  ref := [
    (.left, [tOr]),
    (.left, [tAnd]),
    (.none, [tEqual, tNotEqual, tLess, tGreater, tLessEqual, tGreaterEqual]),
    (.left, [tPlus, tMinus]),
    (.left, [tStar, tSlash, tPercent])]
  unknown := []
  disputed := []
  blanks := []
  ends := [tSemicolon, tRightParen, tComma]

end Sql

section Swift
open Hand.Swift

/-- `oak-swift` and the reference (Swift standard library, precedence groups); `infix` of the parser is at oak-swift parser/mod.rs:212-261. -/
def opsSwift : OpLang where
  parser := parser
  start := pPratt 0
  operands := [tIdentifier, tNumberLiteral, tStringLiteral, tTrue, tFalse, tNil]
  operand := fun k => if k ∈ [tIdentifier] then eIdentifierExpression else eLiteralExpression
  operation := fun _ => eBinaryExpression
  ref := [
    (.right, [tAssign, tPlusAssign, tMinusAssign, tStarAssign, tSlashAssign, tPercentAssign, tAndAssign, tOrAssign, tXorAssign, tLeftShiftAssign,
      tRightShiftAssign]),
    (.left, [tLogicalOr]),
    (.left, [tLogicalAnd]),
    (.none, [tEqual, tNotEqual, tLess, tGreater, tLessEqual, tGreaterEqual]),
    (.right, [tQuestionQuestion]),
    (.none, [tAs, tIs]),
    (.none, [tRange, tClosedRange]),
    (.left, [tPlus, tMinus, tBitOr, tBitXor]),
    (.left, [tStar, tSlash, tPercent, tBitAnd]),
    (.none, [tLeftShift, tRightShift])]
  unknown := []
  disputed := [
    ([tEqual, tNotEqual, tLess, tGreater, tLessEqual, tGreaterEqual], [tAs, tIs]),
    ([tQuestionQuestion], [tQuestionQuestion, tAs, tIs, tRange, tClosedRange, tPlus, tMinus, tBitOr, tBitXor, tStar, tSlash, tPercent, tBitAnd, tLeftShift,
      tRightShift]),
    ([tAs, tIs, tRange, tClosedRange, tPlus, tMinus, tBitOr, tBitXor, tLeftShift, tRightShift], [tQuestionQuestion]),
    ([tStar, tSlash, tPercent, tBitAnd], [tQuestionQuestion, tLeftShift, tRightShift])]
  blanks := []
  ends := [tSemicolon, tRightParen, tComma, tRightBracket, tRightBrace, tLeftBrace, tColon]

end Swift

section Wolfram
open Hand.Wolfram

/-- `WolframTokenType::RuleDelayedOp` (oak-wolfram lexer/token_type.rs:101). -/
abbrev _root_.Oaks.Hand.Wolfram.tRuleDelayedOp : Nat := 61
/-- `WolframTokenType::StringJoin` (oak-wolfram lexer/token_type.rs:100). -/
abbrev _root_.Oaks.Hand.Wolfram.tStringJoin : Nat := 60
/-- `WolframTokenType::Whitespace` (oak-wolfram lexer/token_type.rs:33). -/
abbrev _root_.Oaks.Hand.Wolfram.tWhitespace : Nat := 1
/-- `WolframTokenType::Newline` (oak-wolfram lexer/token_type.rs:34). -/
abbrev _root_.Oaks.Hand.Wolfram.tNewline : Nat := 2
/-- `WolframTokenType::Comment` (oak-wolfram lexer/token_type.rs:134). -/
abbrev _root_.Oaks.Hand.Wolfram.tComment : Nat := 86

/-- `oak-wolfram` and the reference (Wolfram Language, operator input forms); `infix` of the parser is at oak-wolfram parser/mod.rs:142-183. -/
def opsWolfram : OpLang where
  parser := parser
  start := pPratt 0
  operands := [tInteger, tReal, tString, tSlot, tSlotSequence]
  operand := fun k => if k ∈ [tSlot, tSlotSequence] then eSymbol else eLiteral
  operation := fun _ => eBinaryExpr
  ref := [
    (.right, [tAssign, tSetDelayed]),
    (.left, [tSlashSlash]),
    (.right, [tRuleDelayedOp, tArrow]),
    (.left, [tOr]),
    (.left, [tAnd]),
    (.none, [tEqual, tNotEqual, tLess, tGreater, tLessEqual, tGreaterEqual]),
    (.left, [tPlus, tMinus]),
    (.left, [tTimes]),
    (.left, [tDivide]),
    (.right, [tPower]),
    (.left, [tStringJoin]),
    (.right, [tMapOperator, tApplyOperator, tApplyLevelOperator, tMapAllOperator]),
    (.right, [tAt])]
  unknown := [tRuleDelayedOp, tStringJoin]
  disputed := [
    ([tSlashSlash], [tArrow]),
    ([tArrow], [tSlashSlash]),
    ([tTimes], [tDivide]),
    ([tPower], [tMapOperator, tApplyOperator, tApplyLevelOperator, tMapAllOperator, tAt]),
    ([tMapOperator, tApplyOperator, tApplyLevelOperator, tMapAllOperator], [tPower, tAt]),
    ([tAt], [tPower, tMapOperator, tApplyOperator, tApplyLevelOperator, tMapAllOperator])]
  blanks := [tWhitespace, tNewline, tComment]
  ends := [tRightParen, tComma, tRightBracket, tRightBrace]

end Wolfram

section Zig
open Hand.Zig

/-- `ZigTokenType::Caret` (oak-zig lexer/token_type.rs:154). -/
abbrev _root_.Oaks.Hand.Zig.tCaret : Nat := 104
/-- `ZigTokenType::Pipe` (oak-zig lexer/token_type.rs:153). -/
abbrev _root_.Oaks.Hand.Zig.tPipe : Nat := 103
/-- `ZigTokenType::LessLess` (oak-zig lexer/token_type.rs:156). -/
abbrev _root_.Oaks.Hand.Zig.tLessLess : Nat := 106
/-- `ZigTokenType::GreaterGreater` (oak-zig lexer/token_type.rs:157). -/
abbrev _root_.Oaks.Hand.Zig.tGreaterGreater : Nat := 107

/-- `oak-zig` and the reference (Zig language reference, precedence); `infix` of the parser is at oak-zig parser/mod.rs:69-129. -/
def opsZig : OpLang where
  parser := parser
  start := pPratt 0
  operands := [tIdentifier, tStringLiteral, tCharLiteral, tIntegerLiteral, tFloatLiteral, tBooleanLiteral, tUndefined, tNull]
  operand := fun k => if k ∈ [tIdentifier] then eIdentifier else eLiteral
  operation := fun _ => eBinaryExpr
  ref := [
    (.none, [tAssign, tPlusAssign, tMinusAssign, tStarAssign, tSlashAssign, tPercentAssign, tAmpersandAssign, tPipeAssign, tCaretAssign,
      tLessLessAssign, tGreaterGreaterAssign]),
    (.left, [tOr]),
    (.left, [tAnd]),
    (.none, [tEqual, tNotEqual, tLess, tGreater, tLessEqual, tGreaterEqual]),
    (.left, [tAmpersand, tCaret, tPipe, tOrElse, tCatchKeyword]),
    (.left, [tLessLess, tGreaterGreater]),
    (.left, [tPlus, tMinus, tPlusPlus]),
    (.left, [tStar, tSlash, tPercent, tStarStar, tOrOr])]
  unknown := [tAmpersand, tCaret, tPipe, tLessLess, tGreaterGreater]
  disputed := [
    ([tOr, tAnd, tEqual, tNotEqual, tLess, tGreater, tLessEqual, tGreaterEqual], [tOrOr]),
    ([tOrElse, tCatchKeyword], [tOrElse, tCatchKeyword, tPlus, tMinus, tPlusPlus, tStar, tSlash, tPercent, tStarStar, tOrOr]),
    ([tPlus, tMinus, tPlusPlus], [tOrElse, tCatchKeyword, tOrOr]),
    ([tStar, tSlash, tPercent, tStarStar], [tOrElse, tCatchKeyword]),
    ([tOrOr], [tAnd, tEqual, tNotEqual, tLess, tGreater, tLessEqual, tGreaterEqual, tOrElse, tCatchKeyword, tPlus, tMinus, tPlusPlus, tStar,
      tSlash, tPercent, tStarStar])]
  blanks := []
  ends := [tSemicolon, tRightParen, tComma, tRightBracket, tRightBrace, tColon]

end Zig

/-- The languages whose parsers group operators by precedence and give each operation one node (not C++, whose parser puts operands into the tree twice, nor Scala, whose parser has no operators). -/
def opLangs : List OpLang := [opsActionscript, opsC, opsCsharp, opsElixir, opsGo, opsJavascript, opsKotlin, opsLua, opsMojo, opsPhp, opsRuby, opsRust, opsSql,
  opsSwift, opsWolfram, opsZig]

end Oaks.Spec
