import Verif.Model.Parser

/-
The language in which the example parsers (`examples/*/src/parser/`) are written down: programs over the methods of `ParserState`
(`projects/oak-core/src/parser/state.rs`).

A part of a parser answers a value, or nothing if it returns an error (`Err`, passed on by `?`); a panic or a loop without end is
a failure of the run. Loops get one turn per token left and one more: what a parser does next depends on the tokens ahead only, so a
longer loop has a turn that consumed nothing and never ends. The depth of the call stack is not limited.
-/
namespace Oaks

/-- A part of a parser: a function that takes `&mut ParserState` and returns a `Result` or a plain value (as in oak-ini
parser/parse_top_level.rs:11-36). -/
def Prs (α : Type) : Type := PState → Run (Option α × PState)

namespace Prs

/-- Statements one after another, with `?` after those that may return an error (as in oak-ini parser/parse_top_level.rs:38-50). -/
instance : Monad Prs where
  pure a := fun s => .ok (some a, s)
  bind p f := fun s =>
    match p s with
    | .error e => .error e
    | .ok (none, s') => .ok (none, s')
    | .ok (some a, s') => f a s'

/-- `state.at(kind)` (state.rs:380-382). -/
def sees (k : Nat) : Prs Bool := fun s => .ok (some (s.atKind k), s)

/-- `state.peek_kind()` (state.rs:336-338). -/
def kind : Prs (Option Nat) := fun s => .ok (some s.peekKind, s)

/-- `state.not_at_end()` (state.rs:385-387). -/
def more : Prs Bool := fun s => .ok (some (decide (s.index < s.tokens.length)), s)

/-- `state.bump()` (state.rs:424-429). -/
def bump (ign : Nat → Bool) : Prs Unit := fun s => do return (some (), ← s.bump ign)

/-- `state.advance()` (state.rs:391-394). -/
def advance (ign : Nat → Bool) : Prs Unit := fun s => do return (some (), ← s.advance ign)

/-- `state.eat(kind)` (state.rs:433-441). -/
def eat (ign : Nat → Bool) (k : Nat) : Prs Bool := fun s => do
  let (b, s) ← s.eat ign k
  return (some b, s)

/-- `state.expect(kind).ok()` (state.rs:445-454). -/
def want (ign : Nat → Bool) (k : Nat) : Prs Unit := fun s => do
  let (_, s) ← s.expect ign k
  return (some (), s)

/-- `state.expect(kind)?` (state.rs:445-454). -/
def need (ign : Nat → Bool) (k : Nat) : Prs Unit := fun s => do
  let (b, s) ← s.expect ign k
  return (if b then some () else none, s)

/-- `state.errors.push(err)` with an offset made of the state (state.rs:209). -/
def report (code : Nat) (offset : PState → Nat) : Prs Unit := fun s => .ok (some (), { s with errors := s.errors ++ [⟨code, offset s⟩] })

/-- `return Err(…)` (as in oak-ini parser/parse_top_level.rs:66). -/
def fail {α : Type} : Prs α := fun s => .ok (none, s)

/-- `let cp = state.checkpoint(); …; state.finish_at(cp, kind)` (state.rs:493-506). -/
def node {α : Type} (k : Nat) (p : Prs α) : Prs α := fun s => do
  let (r, s') ← p s
  match r with
  | none => return (none, s')
  | some a => do
    let (_, s') ← s'.finishAt s.checkpoint k
    return (some a, s')

/-- The turns of a loop (as in oak-ini parser/parse_top_level.rs:56-77). -/
def turns (turn : Prs Bool) : Nat → Prs Unit
  | 0 => fun _ => .error .spin
  | fuel + 1 => do
    if ← turn then turns turn fuel else pure ()

/-- A loop: each turn answers whether to go on (as in oak-ini parser/parse_top_level.rs:56-77). -/
def loop_ (turn : Prs Bool) : Prs Unit := fun s => turns turn (s.tokens.length - s.index + 1) s

/-- `while cond { body }` (as in oak-ini parser/parse_top_level.rs:116-123). -/
def while_ (cond : Prs Bool) (body : Prs Unit) : Prs Unit :=
  loop_ do
    if ← cond then do body; return true else return false

/-- `Parser::parse` in a session without an old tree, from the tokens (`parse_with_lexer`, oak-core parser/mod.rs:77-120): `root` is the
kind given to the last `finish_at`; the tree (or nothing, if an error is returned) and the recorded errors. -/
def parse (ign : Nat → Bool) (root : Nat) (p : Prs Unit) (toks : List Tok) (srcLen : Nat) : Run (Option Green × List PErr) := do
  let s ← PState.new ign toks srcLen
  let (r, s') ← p s
  match r with
  | none => return (none, s'.errors)
  | some () => do
    let (e, s') ← s'.finishAt s.checkpoint root
    return (some e.tree, s'.errors)

end Prs
end Oaks
