import Verif.Spec.Pratt

/-
Specification of the tree of an operator expression whose nodes have kinds that depend on the operand or the operator.
-/
namespace Oaks.Spec
open Oaks

/-- The syntax tree of an expression: an operand is a node of its token (with the trivia after it), an operation a node of its two
operands with the operator between them. -/
def Expr.drawn (operand operation : Nat → Nat) : Expr → Green
  | .atom w => .node (operand w.tok.kind) (toksLen w.toks) w.leaves
  | .bin l op r => .node (operation op.word.tok.kind) (toksLen (Expr.bin l op r).toks)
      (l.drawn operand operation :: op.word.leaves ++ [r.drawn operand operation])

end Oaks.Spec
