import Verif.Base.Str

/-
Specification of emitting code words: `Emitted word prev pieces out` says that `out` is the pieces in
order, with one space before a non-empty piece exactly when it starts with a word character and the
last emitted character is one.
-/
namespace Oaks.Spec
open Oaks

/-- `a` ends and `b` begins with a word character. -/
def Touching (word : Char → Prop) (a b : Str) : Prop :=
  ∃ a' x y b', a = a' ++ [x] ∧ b = y :: b' ∧ word x ∧ word y

/-- `out` is what the pieces become after `done` has been emitted. -/
inductive Emitted (word : Char → Prop) : Str → List Str → Str → Prop where
  | nil (done : Str) : Emitted word done [] done
  | empty {done : Str} {ps : List Str} {out : Str} :
      Emitted word done ps out → Emitted word done ([] :: ps) out
  | joined {done p : Str} {ps : List Str} {out : Str} : p ≠ [] → ¬ Touching word done p →
      Emitted word (done ++ p) ps out → Emitted word done (p :: ps) out
  | spaced {done p : Str} {ps : List Str} {out : Str} : p ≠ [] → Touching word done p →
      Emitted word (done ++ ' ' :: p) ps out → Emitted word done (p :: ps) out

/-- Put a character in front of the first word. -/
def consWord (c : Char) : List Str → List Str
  | w :: ws => (c :: w) :: ws
  | [] => [[c]]

/-- The maximal runs of word characters of a text, in order. -/
def wordsOf (word : Char → Bool) : Str → List Str
  | [] => []
  | [c] => if word c then [[c]] else []
  | c :: d :: cs =>
    if word c then
      if word d then consWord c (wordsOf word (d :: cs)) else [c] :: wordsOf word (d :: cs)
    else wordsOf word (d :: cs)

end Oaks.Spec
