import Verif.Spec.Text

/-
Lines of a text and UTF-16 columns, stated on the text alone.
-/
namespace Oaks.Spec
open Oaks

/-- A line begins right after `a`: nothing comes before it, or a newline does. -/
def LineBegin (a : Str) : Prop := a = [] ∨ ∃ a', a = a' ++ ['\n']

/-- Line number `n` of `t` is `ln`, its newline included; `a` comes before it and `r` after. -/
structure IsLine (t : Str) (n : Nat) (a ln r : Str) : Prop where
  text : t = a ++ ln ++ r
  first : LineBegin a
  number : a.count '\n' = n
  last : ('\n' ∉ ln ∧ r = []) ∨ ∃ b, ln = b ++ ['\n'] ∧ '\n' ∉ b

/-- The UTF-16 code units of a character. -/
def utf16Of (c : Char) : List Nat :=
  if c.toNat < 0x10000 then [c.toNat]
  else [0xD800 + (c.toNat - 0x10000) / 0x400, 0xDC00 + (c.toNat - 0x10000) % 0x400]

/-- The number of UTF-16 code units of a text. -/
def utf16Count (s : Str) : Nat := (s.flatMap utf16Of).length

/-- Cutting the line `ln` at column `col`: `p` is its shortest prefix with at least `col` UTF-16
units, or all of it when the line is shorter than that. -/
def CutAt (ln : Str) (col : Nat) (p : Str) : Prop :=
  p <+: ln ∧ (col ≤ utf16Count p ∨ p = ln) ∧ ∀ p', p' <+: p → p' ≠ p → utf16Count p' < col

end Oaks.Spec
