import Verif.Model.Pratt
import Verif.Spec.Tree

/-
Specification of operator expressions: trees over operands and operators, when such a tree respects
precedence and associativity, and which syntax tree represents it.
-/
namespace Oaks.Spec
open Oaks

/-- A significant token and the trivia following it. -/
structure Word where
  tok : Tok
  trivia : List Tok

/-- An operator: the word, its precedence and associativity. -/
structure Op where
  word : Word
  prec : Nat
  assoc : Assoc

inductive Expr where
  | atom (w : Word)
  | bin (l : Expr) (op : Op) (r : Expr)

/-- The first operand. -/
def Expr.first : Expr → Word
  | .atom w => w
  | .bin l _ _ => l.first

/-- The operators with the operand after each, in order. -/
def Expr.items : Expr → List (Op × Word)
  | .atom _ => []
  | .bin l op r => l.items ++ (op, r.first) :: r.items

/-- The operators reached from the root by going to the left operand repeatedly. -/
def Expr.leftSpine : Expr → List Op
  | .atom _ => []
  | .bin l op _ => op :: l.leftSpine

/-- The operators reached from the root by going to the right operand repeatedly. -/
def Expr.rightSpine : Expr → List Op
  | .atom _ => []
  | .bin _ op r => op :: r.rightSpine

/-- `o`, standing before `p` in the text, keeps the operand between them: it binds tighter, or equally
tight and groups to the left. -/
def keepsFrom (o p : Op) : Prop := p.prec < o.prec ∨ (p.prec = o.prec ∧ o.assoc ≠ .right)

/-- `p`, standing after `o`, takes the operand between them: it binds tighter, or equally tight and `o`
groups to the right. -/
def takesFrom (p o : Op) : Prop := o.prec < p.prec ∨ (o.prec = p.prec ∧ o.assoc = .right)

/-- Precedence and associativity are respected everywhere. -/
def Respects : Expr → Prop
  | .atom _ => True
  | .bin l op r => Respects l ∧ Respects r ∧ (∀ o ∈ l.rightSpine, keepsFrom o op) ∧
      (∀ p ∈ r.leftSpine, takesFrom p op)

/-- Tokens of a word. -/
def Word.toks (w : Word) : List Tok := w.tok :: w.trivia

/-- Tokens of a row of operators and operands. -/
def itemToks : List (Op × Word) → List Tok
  | [] => []
  | (op, w) :: is => op.word.toks ++ (w.toks ++ itemToks is)

/-- Total length of tokens. -/
def toksLen (ts : List Tok) : Nat := (ts.map Tok.length).sum

/-- The leaves for a word. -/
def Word.leaves (w : Word) : List Green := w.toks.map (fun t => .leaf t.kind t.length none)

/-- All tokens of an expression, in order. -/
def Expr.toks : Expr → List Tok
  | .atom w => w.toks
  | .bin l op r => l.toks ++ (op.word.toks ++ r.toks)

/-- The syntax tree of an expression. -/
def Expr.green (tb : OpTable) : Expr → Green
  | .atom w => .node tb.atomKind (toksLen w.toks) w.leaves
  | .bin l op r => .node tb.exprKind (toksLen (Expr.bin l op r).toks) (l.green tb :: op.word.leaves ++ [r.green tb])

/-- A word as the token stream has it: the token significant, what follows trivia. -/
def Word.Ok (ign : Nat → Bool) (w : Word) : Prop := ign w.tok.kind = false ∧ ∀ t ∈ w.trivia, ign t.kind = true

/-- An operator as the table has it; its precedence is a `u8` and can be increased if it must be. -/
def Op.Ok (ign : Nat → Bool) (tb : OpTable) (o : Op) : Prop :=
  o.word.Ok ign ∧ tb.info o.word.tok.kind = some (o.prec, o.assoc) ∧ o.prec < 256 ∧
    (o.assoc ≠ .right → o.prec < 255)

/-- What follows the expression does not continue it. -/
def Ends (ign : Nat → Bool) (tb : OpTable) : List Tok → Prop
  | [] => True
  | t :: _ => ign t.kind = false ∧ tb.info t.kind = none

end Oaks.Spec
