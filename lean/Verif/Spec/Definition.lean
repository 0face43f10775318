import Verif.Model.Definition
import Verif.Spec.Tree
import Verif.Spec.Text

/-
Which file an import means, and what is under the cursor.
-/
namespace Oaks.Spec
open Oaks

/-- `c` is the first of the candidates that exists. -/
def FirstExisting (exist : Str → Bool) (cands : List Str) (c : Str) : Prop :=
  ∃ before after, cands = before ++ c :: after ∧ exist c = true ∧ ∀ b ∈ before, exist b = false

/-- `p` is the path `q` seen from the directory `dir`: `q` itself when absolute, else `dir`, a slash
(unless `dir` is empty or brings one), and `q`. -/
inductive SeenFrom (dir : Str) : Str → Str → Prop where
  | absolute {rest} : SeenFrom dir ('/' :: rest) ('/' :: rest)
  | root {q d} : (∀ rest, q ≠ '/' :: rest) → dir = d ++ ['/'] → SeenFrom dir q (dir ++ q)
  | empty {q} : (∀ rest, q ≠ '/' :: rest) → dir = [] → SeenFrom dir q q
  | relative {q d c} : (∀ rest, q ≠ '/' :: rest) → dir = d ++ [c] → c ≠ '/' → SeenFrom dir q (dir ++ '/' :: q)

/-- A child `c` of the node `r` over the offset `off`: it starts at `o` and contains `off`. -/
def ChildOver (r : RedNode) (off : Nat) (c : Green) (o : Nat) : Prop :=
  ∃ a b, r.children = a ++ c :: b ∧ o = r.offset + bytesBelowList a ∧ o ≤ off ∧ off < o + bytesBelow c

end Oaks.Spec
