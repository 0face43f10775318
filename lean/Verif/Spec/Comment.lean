import Verif.Model.Comment
import Verif.Spec.Lexer

/-
Comments: what it means to pick some of a list, to trim a text, to be the lines of a text.
-/
namespace Oaks.Spec
open Oaks

/-- `r` is what is left of `l` when the elements that do not satisfy `p` are taken out. -/
inductive Picks {α : Type} (p : α → Prop) : List α → List α → Prop where
  | nil : Picks p [] []
  | keep {x l r} : p x → Picks p l r → Picks p (x :: l) (x :: r)
  | drop {x l r} : ¬ p x → Picks p l r → Picks p (x :: l) r

def Blank (ws : Char → Bool) (s : Str) : Prop := ∀ c ∈ s, ws c = true

/-- `b` is `s` without the blanks around it. -/
def TrimmedTo (ws : Char → Bool) (s b : Str) : Prop :=
  ∃ l r, s = l ++ (b ++ r) ∧ Blank ws l ∧ Blank ws r ∧ (∀ c, b.head? = some c → ws c = false) ∧ ∀ c, b.getLast? = some c → ws c = false

/-- `ls` are the lines of a text; a line break at its end begins no line. -/
inductive LinesOf : Str → List Str → Prop where
  | nil : LinesOf [] []
  | last {l} : l ≠ [] → '\n' ∉ l → LinesOf l [l]
  | cons {l t ls} : '\n' ∉ l → LinesOf t ls → LinesOf (l ++ '\n' :: t) (l :: ls)

/-- No `*/` inside. -/
def NoClose (s : Str) : Prop := ∀ a b, s ≠ a ++ '*' :: '/' :: b

end Oaks.Spec
