import Verif.Model.Golden
import Verif.Spec.Tree

/-
Tests against files: which files are tested, where the expected result of one lies, and what of a result is compared.
-/
namespace Oaks.Spec
open Oaks Oaks.Golden

/-- A name that ends in one of the four endings of results. -/
def ResultName (name : Str) : Prop :=
  ∃ e ∈ [".parsed.json".toList, ".lexed.json".toList, ".built.json".toList, ".expected.json".toList], e <:+ name

/-- A name with one of the extensions that is not the name of a result. -/
def TestName (exts : List Str) (name : Str) : Prop :=
  (∃ stem ext, name = stem ++ '.' :: ext ∧ stem ≠ [] ∧ '.' ∉ ext ∧ ext ∈ exts) ∧ ¬ ResultName name

/-- The file beside `p` with this ending. -/
def beside (p : FPath) (ending : Str) : FPath := ⟨p.dir, p.name ++ ending⟩

/-- Every tested file has an expected result, and it is that of `f`. -/
def Settled (dec : Str → Option R) (ending : Str) (f : Str → R) (exts : List Str) (d : Files) : Prop :=
  ∀ p text, TestName exts p.name → d.get p = some text → ∃ s, d.get (beside p ending) = some s ∧ dec s = some (f text)

/-- The tokens that are not ignored, and the messages. -/
def lexerSeen (ign : Nat → Bool) : Except Str (List Tok) × List Str → List Tok × List Str
  | (.ok ts, ms) => (ts.filter fun t => ign t.kind = false, ms)
  | (.error e, ms) => ([], ms ++ [e])

/-- Number and bytes of the leaves in a list. -/
def leavesHere (cs : List Green) : Nat × Nat :=
  ((cs.filter fun c => match c with | .leaf _ _ _ => true | .node _ _ _ => false).length,
    ((cs.filter fun c => match c with | .leaf _ _ _ => true | .node _ _ _ => false).map Green.len).sum)

/-- Number of the nodes in a list. -/
def nodesHere (cs : List Green) : Nat := (cs.filter fun c => match c with | .leaf _ _ _ => false | .node _ _ _ => true).length

mutual
/-- The nodes of a tree from the root on, each before those below it: kind, length, how many nodes and how many leaves it has, and how
many bytes these leaves have. -/
def outline : Green → List (Nat × Nat × Nat × Nat × Nat)
  | .node k n cs => (k, n, nodesHere cs, leavesHere cs) :: outlineList cs
  | .leaf _ _ _ => []
/-- The same for the trees of a list. -/
def outlineList : List Green → List (Nat × Nat × Nat × Nat × Nat)
  | [] => []
  | c :: cs => outline c ++ outlineList cs
end

end Oaks.Spec
