import Verif.Model.Tree

/-
Visitors over red trees (`projects/oak-core/src/visitor/mod.rs`), as objects with a state.
-/
namespace Oaks

/-- The `match` of `walk_node` (visitor/mod.rs:21-24) for a visitor with state `S`. -/
def visitChild {S : Type} (visitNode : RedNode → S → Run S) (token : Nat × Nat × Nat → S → Run S) (s : S) :
    Red → Run S
  | .node n => visitNode n s
  | .leaf k a b => token (k, a, b) s

/-- A visitor whose `visit_node` does `enter` and then `walk_node` (visitor/mod.rs:19-26), and whose
`visit_token` is `token` on `(kind, start, end)`; fuel for the recursion. -/
def visitWith {S : Type} (enter : RedNode → S → Run S) (token : Nat × Nat × Nat → S → Run S) :
    Nat → RedNode → S → Run S
  | 0, _, _ => .error .spin
  | fuel + 1, r, s => do
    let s ← enter r s
    let cs ← r.childIter.collect (r.children.length + 1)
    cs.foldlM (visitChild (visitWith enter token fuel) token) s

end Oaks
