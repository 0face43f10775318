import Verif.Spec.LineMap
import Verif.Spec.Source
import Verif.Spec.Highlight
import Verif.Model.Diagnostic

/-
What a rendered diagnostic should say, on the text alone.
-/
namespace Oaks.Spec
open Oaks

/-- The source answers every range (as `&str` and `SourceText` do, `C46_total`). -/
def TextTotal (src : Source) : Prop := ∀ a b, ∃ m, src.textIn a b = .ok m

/-- Offset `o`, cut off at the end of the text, is in line `k` (from 0), after the piece `before` of
that line. -/
def PosAt (t : Str) (o k : Nat) (before : Str) : Prop :=
  ∃ a ln r, IsLine t k a ln r ∧ before <+: ln ∧ '\n' ∉ before ∧ min o (blen t) = blen (a ++ before)

/-- The label covers the piece `lab` of line `k`, `ln`, with `before` on the line before it. It may
end inside a character when `lab` is that character. -/
def LabelOn (t : Str) (l : DLabel) (k : Nat) (before lab ln : Str) : Prop :=
  ∃ a r, IsLine t k a ln r ∧ before ++ lab <+: ln ∧ '\n' ∉ before ++ lab ∧ min l.start (blen t) = blen (a ++ before) ∧
    (min l.stop (blen t) = blen (a ++ before ++ lab) ∨
      ∃ c, lab = [c] ∧ blen (a ++ before) < l.stop ∧ l.stop < blen (a ++ before ++ [c]))

/-- `x` is the line `ln` without its line break (`\n` or `\r\n`). -/
def ChompedTo (ln x : Str) : Prop :=
  (ln = x ++ ['\n'] ∧ x.getLast? ≠ some '\r') ∨ ln = x ++ ['\r', '\n'] ∨ (ln = x ∧ '\n' ∉ x)

/-- Lines of text, each ended by a line break. -/
def unlines (ls : List Str) : Str := ls.flatMap (· ++ ['\n'])

def decimal (n : Nat) : Str := (toString n).toList
def spaces (n : Nat) : Str := List.replicate n ' '
def carets (n : Nat) : Str := List.replicate n '^'

/-- The message after the carets. -/
def msgTail (msg : Option Str) : Str :=
  match msg with
  | some m => ' ' :: m
  | none => []

/-- Where a label begins: line and column from 1. -/
def locationLine (top url : Str) (line col : Nat) : Str :=
  "  ".toList ++ top ++ " at ".toList ++ url ++ ":".toList ++ decimal line ++ ":".toList ++ decimal col

/-- The quoted line, between bars, with `n` carets under the characters from column `col` on. -/
def singleBody (bar : Str) (line col : Nat) (text : Str) (n : Nat) (msg : Option Str) : List Str :=
  let pad := spaces (decimal line).length
  [pad ++ " ".toList ++ bar,
    decimal line ++ " ".toList ++ bar ++ " ".toList ++ text,
    pad ++ " ".toList ++ bar ++ " ".toList ++ spaces (col - 1) ++ carets n ++ msgTail msg,
    pad ++ " ".toList ++ bar]

/-- A snippet for a label within one line. -/
def singleSnippet (bar top url : Str) (line col : Nat) (text : Str) (n : Nat) (msg : Option Str) : Str :=
  unlines (locationLine top url line col :: singleBody bar line col text n msg)

/-- The bars of the two character sets. -/
def barOf (unicode : Bool) : Str := if unicode then "│".toList else "|".toList
def topOf (unicode : Bool) : Str := if unicode then "┌".toList else "/".toList
def botOf (unicode : Bool) : Str := if unicode then "└".toList else "|".toList
def dashOf (unicode : Bool) : Char := if unicode then '─' else '_'

/-- The name shown for the file. -/
def fileName (uri : Option Str) : Str :=
  match uri with
  | some u => u
  | none => "<anonymous>".toList

/-- `s` is the snippet a label should get. -/
def SnippetOf (unicode : Bool) (uri : Option Str) (t : Str) (l : DLabel) (s : Str) : Prop :=
  ∃ k before lab ln text, LabelOn t l k before lab ln ∧ ln ≠ [] ∧ ChompedTo ln text ∧
    s = singleSnippet (barOf unicode) (topOf unicode) (fileName uri) (k + 1) (before.length + 1) text
      (max lab.length 1) l.message

/-- The quoted lines of a label over lines `k` to `k'`, right-aligned numbers, the first marked with
the top corner and the others with a bar. -/
def quotedLines (unicode : Bool) (width k : Nat) (texts : List Str) : List Str :=
  (List.range texts.length).map fun j =>
    spaces (width - (decimal (k + j + 1)).length) ++ decimal (k + j + 1) ++ " ".toList ++ barOf unicode ++ " ".toList ++
      (if j = 0 then topOf unicode else barOf unicode) ++ (texts[j]?).getD []

end Oaks.Spec

namespace Oaks.Spec
open Oaks

/-- `s` is the snippet for a label from line `k` to a later line `k'` as the code draws it: the corner,
as many dashes as characters before the end of the label, and as many carets again. -/
def LongSnippetOf (unicode : Bool) (uri : Option Str) (t : Str) (l : DLabel) (s : Str) : Prop :=
  ∃ (k k' : Nat) (before upto : Str) (texts : List Str), PosAt t l.start k before ∧ PosAt t l.stop k' upto ∧ k < k' ∧
    texts.length = k' + 1 - k ∧
    (∀ (j : Nat) (x : Str), texts[j]? = some x → ∃ a ln r, IsLine t (k + j) a ln r ∧ ln ≠ [] ∧ ChompedTo ln x) ∧
    s = unlines (locationLine (topOf unicode) (fileName uri) (k + 1) (before.length + 1) ::
      (spaces (decimal (k' + 1)).length ++ " ".toList ++ barOf unicode) ::
      quotedLines unicode (decimal (k' + 1)).length k texts ++
      [spaces (decimal (k' + 1)).length ++ " ".toList ++ barOf unicode ++ " ".toList ++ botOf unicode ++
          List.replicate upto.length (dashOf unicode) ++ carets (max upto.length 1) ++ msgTail l.message,
        spaces (decimal (k' + 1)).length ++ " ".toList ++ barOf unicode])

/-- A whole diagnostic in plain text, given the snippets of its labels. -/
def plainReport (d : Diag) (snippets : List Str) : Str :=
  "[".toList ++ (match d.code with
    | some c => c
    | none => match d.severity with
      | .error => "error".toList
      | .warning => "warning".toList
      | .advice => "advice".toList) ++ "] ".toList ++ d.message ++ "\n".toList ++ snippets.flatten ++
  (match d.help with
    | some h => "\nhelp: ".toList ++ h ++ "\n".toList
    | none => [])

/-- The tags of the page of a diagnostic. -/
def templateTags : List Str :=
  ["div class=\"diagnostic\"", "div class=\"header error\"", "div class=\"header warning\"", "div class=\"header advice\"",
    "span class=\"code\"", "span class=\"severity\"", "span class=\"message\"", "div class=\"snippet\"",
    "div class=\"location\"", "div class=\"help\"", "pre", "code", "span class=\"padding\"", "span class=\"vbar\"",
    "span class=\"line-num\"", "span class=\"underline\"", "span class=\"label-msg\"", "span class=\"multiline\"",
    "/span", "/div", "/code", "/pre"].map String.toList

/-- Only these tags, and no error. -/
def OnlyTemplate (ts : List HTok) : Prop := ∀ x ∈ ts, x ≠ .bad ∧ ∀ g, x = .tag g → g ∈ templateTags

/-- The text of the page of a diagnostic whose labels are each within one line. -/
def pageReport (d : Diag) (snippets : List Str) : Str :=
  "\n  \n    [".toList ++ (match d.code with
    | some c => c
    | none => match d.severity with
      | .error => "error".toList
      | .warning => "warning".toList
      | .advice => "advice".toList) ++ "] ".toList ++ d.message ++ "\n  \n".toList ++ snippets.flatten ++
  (match d.help with
    | some h => "  help: ".toList ++ h ++ "\n".toList
    | none => [])

/-- The text of a snippet on a page. -/
def PageSnippetOf (uri : Option Str) (t : Str) (l : DLabel) (s : Str) : Prop :=
  ∃ k before lab ln text, LabelOn t l k before lab ln ∧ ln ≠ [] ∧ ChompedTo ln text ∧
    s = "  \n    ".toList ++ locationLine (topOf true) (fileName uri) (k + 1) (before.length + 1) ++ "\n    ".toList ++
      unlines (singleBody (barOf true) (k + 1) (before.length + 1) text (max lab.length 1) l.message) ++ "\n  \n".toList

/-- A colour given as one terminal sequence. -/
def AnsiColor (c : Str) : Prop := ∃ p, c = '\x1b' :: '[' :: (p ++ ['m']) ∧ 'm' ∉ p

end Oaks.Spec
