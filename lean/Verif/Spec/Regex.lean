import Verif.Model.Regex
import Verif.Spec.Json
import Verif.Spec.Tree
import Verif.Spec.Pieces

/-
Regular expressions: what the tokens of a text are, and what it means to be alternatives of groups and single characters.
-/
namespace Oaks.Spec
open Oaks

/-- What is white space: none of the signs. -/
def RegexWs (ws : Char → Bool) : Prop := ∀ c ∈ "#[*+?{()^$\\.|},".toList, ws c = false

/-- The signs of one character, with their kinds. -/
def regexMarks : List (Char × Nat) :=
  [('*', Regex.star), ('+', Regex.plus), ('?', Regex.question), ('(', Regex.lparen), (')', Regex.rparen), ('^', Regex.hat),
    ('$', Regex.dollar), ('.', Regex.dot), ('|', Regex.pipe)]

/-- The characters of a class: a backslash with any character, or another character. -/
inductive ClassRow : List (Option Nat × Str) → Prop where
  | nil : ClassRow []
  | plain {c row} : c ≠ ']' → c ≠ '\\' → ClassRow row → ClassRow ((some Regex.character, [c]) :: row)
  | escaped {c row} : ClassRow row → ClassRow ((some Regex.backslash, ['\\']) :: (some Regex.character, [c]) :: row)

/-- The inside of `{…}`: digits and commas. -/
inductive BraceRow : List (Option Nat × Str) → Prop where
  | nil : BraceRow []
  | digit {c row} : '0' ≤ c → c ≤ '9' → BraceRow row → BraceRow ((some Regex.digit, [c]) :: row)
  | comma {row} : BraceRow row → BraceRow ((some Regex.comma, [',']) :: row)

/-- These pieces, followed by `rest`, belong together. -/
inductive RegexRow (ws : Char → Bool) : List (Option Nat × Str) → Str → Prop where
  | blank {m rest} : m ≠ [] → LongRun (fun c => ws c = true) m rest → RegexRow ws [(some Regex.whitespace, m)] rest
  /-- a hash and the rest of the line -/
  | comment {m rest} : LongRun (fun c => c ≠ '\n') m rest → RegexRow ws [(some Regex.comment, '#' :: m)] rest
  | mark {c k rest} : (c, k) ∈ regexMarks → RegexRow ws [(some k, [c])] rest
  /-- a class -/
  | cls {row rest} : ClassRow row → row.head? ≠ some (some Regex.character, ['^']) →
      RegexRow ws ((some Regex.lbrack, ['[']) :: row ++ [(some Regex.rbrack, [']'])]) rest
  /-- a negated class -/
  | notCls {row rest} : ClassRow row →
      RegexRow ws ((some Regex.lbrack, ['[']) :: (some Regex.hat, ['^']) :: row ++ [(some Regex.rbrack, [']'])]) rest
  /-- a repetition -/
  | brace {row rest} : BraceRow row → RegexRow ws ((some Regex.lbrace, ['{']) :: row ++ [(some Regex.rbrace, ['}'])]) rest
  | escape {c rest} : RegexRow ws [(some Regex.backslash, ['\\']), (some Regex.character, [c])] rest
  | last : RegexRow ws [(some Regex.backslash, ['\\'])] []
  | plain {c rest} : ws c = false → c ∉ "#[*+?{()^$\\.|},".toList → RegexRow ws [(some Regex.character, [c])] rest
  /-- a comma or a closing brace: no token -/
  | lost {c rest} : c = '}' ∨ c = ',' → RegexRow ws [(none, [c])] rest

/-- Tokens of a regular expression without repetition and without concatenation: a single character or a group (`false`), and what may
follow it in a list of alternatives (`true`). -/
inductive Alternatives : Bool → List Tok → Prop where
  | atom {t} : t.kind ∈ [Regex.character, Regex.dot, Regex.hat, Regex.dollar] → Alternatives false [t]
  | group {l r u v} : l.kind = Regex.lparen → Alternatives false u → Alternatives true v → r.kind = Regex.rparen →
      Alternatives false (l :: (u ++ v) ++ [r])
  | none : Alternatives true []
  | more {p u v} : p.kind = Regex.pipe → Alternatives false u → Alternatives true v → Alternatives true (p :: (u ++ v))

/-- `|`, `?`, `*`, `+`. -/
def RegexOp (t : Tok) : Prop := t.kind ∈ [Regex.pipe, Regex.question, Regex.star, Regex.plus]

instance (t : Tok) : Decidable (RegexOp t) := inferInstanceAs (Decidable (_ ∈ _))

/-- `n` groups around a character, with `?`, `*` or `+` behind it and behind each group, as in `((a*)*)*`. -/
inductive Starred : Nat → List Tok → Prop where
  | zero {t q} : t.kind = Regex.character → q.kind ∈ [Regex.question, Regex.star, Regex.plus] → Starred 0 [t, q]
  | succ {n l ts r q} : l.kind = Regex.lparen → Starred n ts → r.kind = Regex.rparen → q.kind ∈ [Regex.question, Regex.star, Regex.plus] →
      Starred (n + 1) (l :: ts ++ [r, q])

/-- `g` is one of the siblings `gs`, which begin at `o`, and `g` begins at `a`. -/
def ChildAt (gs : List Green) (o : Nat) (g : Green) (a : Nat) : Prop :=
  ∃ before after, gs = before ++ g :: after ∧ a = o + (before.map Green.len).sum

end Oaks.Spec
