import Verif.Model.Parser

/-
The Pratt parser, oak-core/src/parser/pratt.rs.

`prefix`, `primary` and `infix` are supplied by the user of the trait; modelled here is the
implementation given in the documentation (lines 195-218): `primary` bumps one token into a node, `infix`
looks the current token up in an operator table, stops below `min_precedence` and calls `binary`.
-/
namespace Oaks

/-- `Associativity` (pratt.rs:5-12). -/
inductive Assoc where
  | left | right | none
deriving DecidableEq, Repr

/-- The operator table of the `infix` implementation (pratt.rs:204-208) and the kinds of the nodes. -/
structure OpTable where
  info : Nat → Option (Nat × Assoc)
  atomKind : Nat
  exprKind : Nat

/-- `next_prec` (pratt.rs:112-116), on `u8`: the sum panics past 255 (overflow checks on). -/
def nextPrec (a : Assoc) (p : Nat) : Run Nat :=
  match a with
  | .left => if p + 1 < 256 then .ok (p + 1) else .error .panic
  | .right => .ok p
  | .none => if p + 1 < 256 then .ok (p + 1) else .error .panic

/-- `primary` as documented (pratt.rs:196-200). -/
def prattPrimary (ign : Nat → Bool) (tb : OpTable) (s : PState) : Run (Entry × PState) := do
  let cp := s.checkpoint
  let s ← s.bump ign
  s.finishAt cp tb.atomKind

/-- `binary` (pratt.rs:102-120). -/
def prattBinary (ign : Nat → Bool) (parseExpr : PState → Nat → Run (Entry × PState)) (s : PState) (left : Entry)
    (opKind prec : Nat) (a : Assoc) (kind : Nat) : Run (Entry × PState) := do
  let cp := s.checkpointBefore left
  let (_, s) ← s.expect ign opKind
  let next ← nextPrec a prec
  let (_, s) ← parseExpr s next
  s.finishAt cp kind

/-- `infix` as documented (pratt.rs:202-211). -/
def prattInfix (ign : Nat → Bool) (tb : OpTable) (parseExpr : PState → Nat → Run (Entry × PState)) (s : PState)
    (left : Entry) (min : Nat) : Run (Option (Entry × PState)) :=
  match s.peekKind with
  | none => .ok none
  | some k =>
    match tb.info k with
    | none => .ok none
    | some (prec, a) =>
      if prec < min then .ok none
      else do return some (← prattBinary ign parseExpr s left k prec a tb.exprKind)

/-- The `while` loop of `parse` (pratt.rs:239-242). -/
def prattWhile (ign : Nat → Bool) (tb : OpTable) (parseExpr : PState → Nat → Run (Entry × PState)) :
    Nat → PState → Entry → Nat → Run (Entry × PState)
  | 0, _, _, _ => .error .spin
  | fuel + 1, s, left, min => do
    match ← prattInfix ign tb parseExpr s left min with
    | none => return (left, s)
    | some (node, s) => prattWhile ign tb parseExpr fuel s node min

/-- `parse` (pratt.rs:237-243); `prefix` defaults to `primary` (89-91). The fuel bounds the nesting. -/
def prattParse (ign : Nat → Bool) (tb : OpTable) : Nat → PState → Nat → Run (Entry × PState)
  | 0, _, _ => .error .spin
  | fuel + 1, s, min => do
    let (left, s) ← prattPrimary ign tb s
    prattWhile ign tb (prattParse ign tb fuel) (s.tokens.length + 1) s left min

/-- `PrattParser::parse_expr` from a state (oak-core/src/parser/pratt.rs:237-243): the nesting cannot exceed the
number of tokens. -/
def pratt (ign : Nat → Bool) (tb : OpTable) (s : PState) (min : Nat) : Run (Entry × PState) :=
  prattParse ign tb (s.tokens.length + 2) s min

end Oaks
