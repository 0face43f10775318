import Verif.Model.LexCode

/-
The function `lex` of the example lexers: it makes a `LexerState`, with or without the tokens of the last run, lets
`run` (Model/HandLex) work on it and adds the end token.

Simplification: of the edits only where they start is given, the rest is not used; the result of `run` is `Ok`, as
no modelled `run` answers otherwise.
-/
namespace Oaks.Lc

/-- How `lex` makes its state (as in examples/oak-java/src/lexer/mod.rs:16, and the lines below). -/
inductive Entry where
  /-- `State::new(source)` (examples/oak-java/src/lexer/mod.rs:16) -/
  | new
  /-- `State::new_with_cache(source, 0, cache)` (examples/oak-go/src/lexer/mod.rs:16) -/
  | zero
  /-- `edits.iter().map(|e| e.span.start).min().unwrap_or(0)` (examples/oak-typescript/src/lexer/mod.rs:23-24) -/
  | edits
  /-- `….min().unwrap_or(source.length())`, and `fully_reused` is asked (examples/oak-smalltalk/src/lexer/mod.rs:20-25) -/
  | reuse
deriving DecidableEq

/-- The smallest of the starts of the edits: `edits.iter().map(|e| e.span.start).min()`
(examples/oak-typescript/src/lexer/mod.rs:23). -/
def firstEdit : List Nat → Option Nat
  | [] => none
  | n :: ns =>
    match firstEdit ns with
    | none => some n
    | some m => some (min n m)

/-- The state `run` begins with (examples/oak-java/src/lexer/mod.rs:16, oak-go/src/lexer/mod.rs:16,
oak-typescript/src/lexer/mod.rs:23-24, oak-smalltalk/src/lexer/mod.rs:20-21). -/
def Entry.start (e : Entry) (src : Source) (edits : List Nat) (cache : List Tok) : Run Lex :=
  match e with
  | .new => Lex.new src
  | .zero => Lex.newWithCache src 0 cache
  | .edits => Lex.newWithCache src ((firstEdit edits).getD 0) cache
  | .reuse => Lex.newWithCache src ((firstEdit edits).getD src.length) cache

/-- `lex(source, edits, cache)` (examples/oak-go/src/lexer/mod.rs:15-22, oak-smalltalk/src/lexer/mod.rs:19-28): the
tokens it answers and puts into the cache. `eof` tells whether `add_eof` is called (not in oak-smalltalk and
oak-msil/src/lexer/mod.rs:295-299). -/
def lexAgain (src : Source) (u : Uni) (ω : Nat → Nat) (e : Entry) (eof : Bool) (p : Code) (edits : List Nat) (cache : List Tok) :
    Run (List Tok) := do
  let lex ← e.start src edits cache
  if e = .reuse ∧ src.length ≤ lex.pos then pure lex.toks
  else do
    let (st, _) ← exec src u ω p ⟨lex, fun _ => 0, 0⟩
    pure (if eof then st.lex.addEof 0 else st.lex).toks

end Oaks.Lc
