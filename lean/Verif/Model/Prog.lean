import Verif.Model.Parser

/-
The language in which the hand-written example parsers (`examples/*/src/parser/`) are written down as data: statements over the methods of
`ParserState` (`projects/oak-core/src/parser/state.rs`), and what they do.

Simplifications: loops get one turn for every token left, one more, and `slack` further ones, calls a depth that is made of the tokens
left, the number of functions and `slack`; after that the run is a failure (`spin`). Every theorem is for all `slack`. The stack of the
machine is not limited. Local variables that are not checkpoints are registers that hold numbers. A leaf has the kind of its token and a
node the kind it is given; the conversion from kinds of tokens to kinds of elements is not modelled.
-/
namespace Oaks

/-- What conditions and assignments of a parser can look at: the text, the local variables, the number of the token at the innermost
checkpoint, the tokens, the number of the next one (state.rs:198-212). -/
structure View where
  src : Source
  regs : Nat → Nat
  cp : Nat
  toks : List Tok
  index : Nat

namespace View

/-- `peek_kind_at` (state.rs:363-365). -/
def kindAt (v : View) (n : Nat) : Option Nat := (v.toks[v.index + n]?).map (·.kind)

/-- `peek_non_trivia_kind_at` (state.rs:347-359, 368-370), for the kinds `is_ignored` says. -/
def solidAt (v : View) (ign : List Nat) (n : Nat) : Option Nat :=
  (((v.toks.drop v.index).filter (fun t => !ign.contains t.kind))[n]?).map (·.kind)

/-- `source.get_text_in(a..b)` (as in oak-org-mode parser/mod.rs:29). Simplification: where this panics (`str` and `SourceText` never do,
a rope or a stream does inside a character) the model answers nothing and goes on. -/
def textBetween (v : View) (a b : Nat) : Str :=
  match v.src.textIn a b with
  | .ok t => t
  | .error _ => []

/-- `peek_text` (state.rs:251-253), empty at the end (as in oak-svelte parser/mod.rs:117). -/
def text (v : View) : Str :=
  match v.toks[v.index]? with
  | some t => v.textBetween t.start t.stop
  | none => []

/-- `peek_text() == Some(word)` for a word that is not empty (as in oak-msil parser/parse_top_level.rs:116). -/
def textIs (v : View) (word : String) : Bool := v.text == word.toList

/-- `current_offset` (state.rs:273-275). -/
def offset (v : View) : Nat :=
  match v.toks[v.index]? with
  | some t => t.start
  | none => v.src.length

end View

/-- Statements and conditions, which are statements with a truth value (as in oak-bash parser/mod.rs:27-70). -/
inductive Prog where
  /-- `true`, `false`, or no statement (as in oak-j parser/mod.rs:72). -/
  | val (b : Bool)
  /-- `state.at(kind)` (state.rs:380-382). -/
  | sees (k : Nat)
  /-- `state.not_at_end()` (state.rs:385-387). -/
  | more
  /-- Any other condition (as in oak-r parser/parse_top_level.rs:21). -/
  | ask (f : View → Bool)
  /-- `state.bump()` (state.rs:424-429). -/
  | bump
  /-- `state.advance()` (state.rs:391-394). -/
  | advance
  /-- `state.eat(kind)` (state.rs:433-441). -/
  | eat (k : Nat)
  /-- `state.expect(kind).ok()`, `state.expect(kind).is_ok()` (state.rs:445-454). -/
  | expect (k : Nat)
  /-- `state.expect(kind)?` (state.rs:445-454). -/
  | need (k : Nat)
  /-- `state.errors.push(err); return Err(err)` (as in oak-handlebars parser/parse_top_level.rs:25-27). -/
  | fail (code : Nat) (offset : View → Nat)
  /-- An assignment to a local variable (as in oak-typst parser/parse_top_level.rs:62). -/
  | set (r : Nat) (f : View → Nat)
  /-- `state.finish_at(checkpoint, kind)` with the innermost checkpoint (state.rs:504-506). -/
  | finish (kind : (Nat → Nat) → Nat)
  /-- `let checkpoint = state.checkpoint(); …` (state.rs:493-495). -/
  | mark (p : Prog)
  /-- `state.incremental_node(kind, |state| { … })` (state.rs:629-641) in a session without an old tree, where there is nothing to reuse;
  the closures do not use `return`. -/
  | within (k : Nat) (p : Prog)
  /-- `checkpoint = state.checkpoint()`, of the innermost checkpoint (as in oak-llvm-ir parser/parse_top_level.rs:132). -/
  | remark
  /-- `state.push_child(node)` (state.rs:525-527) of the node the last `finish_at` has made (as in oak-zig parser/mod.rs:108). -/
  | again
  /-- `checkpoint = state.checkpoint_before(node)` (state.rs:509-522) of the node the last `finish_at` has made (as in oak-core
  parser/pratt.rs:110), for the innermost checkpoint. -/
  | back
  /-- One after another (as in oak-bash parser/mod.rs:31-36). -/
  | seq (a b : Prog)
  /-- `if c { a } else { b }` (as in oak-bash parser/mod.rs:28-40). -/
  | ite (c a b : Prog)
  /-- `while c { body }` (as in oak-bash parser/mod.rs:33-35). -/
  | loop (c body : Prog)
  /-- `break` (as in oak-tcl parser/parse_top_level.rs:44). -/
  | brk
  /-- `continue` (as in oak-tcl parser/parse_top_level.rs:15). -/
  | cont
  /-- `return b` (as in oak-nginx parser/mod.rs:28). -/
  | ret (b : Bool)
  /-- `p.ok()` (as in oak-bash parser/mod.rs:65). -/
  | catch_ (p : Prog)
  /-- `self.function(state)?`, `self.function(state)` (as in oak-bash parser/mod.rs:39). -/
  | call (f : Nat)

namespace Prog

/-- How a statement ends: with a value, with `break`, `continue`, `return`, or with an error that is passed on (as in oak-tcl
parser/parse_top_level.rs:34-52). -/
inductive Out where
  | val (b : Bool)
  | brk
  | cont
  | ret (b : Bool)
  | err
deriving DecidableEq, Repr

/-- The local variables: the innermost checkpoint and the others (as in oak-llvm-ir parser/parse_top_level.rs:121-122). -/
structure Loc where
  cp : Nat × Nat
  regs : Nat → Nat

/-- What can be looked at (state.rs:198-212). -/
def view (src : Source) (l : Loc) (s : PState) : View := ⟨src, l.regs, l.cp.1, s.tokens, s.index⟩

/-- The turns of `while` (as in oak-bash parser/mod.rs:33-35). -/
def turns (c body : Loc → PState → Run (Out × Loc × PState)) : Nat → Loc → PState → Run (Out × Loc × PState)
  | 0, _, _ => .error .spin
  | fuel + 1, l, s =>
    match c l s with
    | .ok (.val true, l, s) =>
      match body l s with
      | .ok (.val _, l, s) => turns c body fuel l s
      | .ok (.cont, l, s) => turns c body fuel l s
      | .ok (.brk, l, s) => .ok (.val true, l, s)
      | r => r
    | .ok (.val false, l, s) => .ok (.val true, l, s)
    | r => r

/-- The node the last `finish_at` has made (state.rs:127-134): it is in the sink until the next one is made. -/
def _root_.Oaks.PState.lastMade (s : PState) : Option Entry := s.sink.reverse.find? (·.isNodeAt (s.fresh - 1))

/-- What a statement does (state.rs:336-506, as cited at the statements); `calls` is what the functions do. -/
def exec (ign : Nat → Bool) (src : Source) (slack : Nat) (calls : Nat → PState → Run (Out × PState)) :
    Prog → Loc → PState → Run (Out × Loc × PState)
  | val b, l, s => .ok (.val b, l, s)
  | sees k, l, s => .ok (.val (s.atKind k), l, s)
  | more, l, s => .ok (.val (decide (s.index < s.tokens.length)), l, s)
  | ask f, l, s => .ok (.val (f (view src l s)), l, s)
  | bump, l, s => do return (.val true, l, ← s.bump ign)
  | advance, l, s => do return (.val true, l, ← s.advance ign)
  | eat k, l, s => do
    let (b, s) ← s.eat ign k
    return (.val b, l, s)
  | expect k, l, s => do
    let (b, s) ← s.expect ign k
    return (.val b, l, s)
  | need k, l, s => do
    let (b, s) ← s.expect ign k
    return (if b then .val true else .err, l, s)
  | fail code offset, l, s => .ok (.err, l, { s with errors := s.errors ++ [⟨code, offset (view src l s)⟩] })
  | set r f, l, s => .ok (.val true, { l with regs := fun i => if i = r then f (view src l s) else l.regs i }, s)
  | finish k, l, s => do
    let (_, s) ← s.finishAt l.cp (k l.regs)
    return (.val true, l, s)
  | mark p, l, s =>
    match exec ign src slack calls p { l with cp := s.checkpoint } s with
    | .ok (o, l', s') => .ok (o, { l' with cp := l.cp }, s')
    | .error e => .error e
  | within k p, l, s =>
    match exec ign src slack calls p { l with cp := s.checkpoint } s with
    | .ok (o, l', s') =>
      match s'.finishAt s.checkpoint k with
      | .ok (_, s'') => .ok (o, { l' with cp := l.cp }, s'')
      | .error e => .error e
    | .error e => .error e
  | remark, l, s => .ok (.val true, { l with cp := s.checkpoint }, s)
  | again, l, s =>
    match s.lastMade with
    | some e => .ok (.val true, l, s.pushChild e)
    | none => .error .panic
  | back, l, s => .ok (.val true, { l with cp := (l.cp.1, (s.checkpointBefore ⟨.leaf 0 0 none, s.fresh - 1⟩).2) }, s)
  | seq a b, l, s =>
    match exec ign src slack calls a l s with
    | .ok (.val _, l, s) => exec ign src slack calls b l s
    | r => r
  | ite c a b, l, s =>
    match exec ign src slack calls c l s with
    | .ok (.val true, l, s) => exec ign src slack calls a l s
    | .ok (.val false, l, s) => exec ign src slack calls b l s
    | r => r
  | loop c body, l, s =>
    turns (exec ign src slack calls c) (exec ign src slack calls body) (slack + (s.tokens.length - s.index + 1)) l s
  | brk, l, s => .ok (.brk, l, s)
  | cont, l, s => .ok (.cont, l, s)
  | ret b, l, s => .ok (.ret b, l, s)
  | catch_ p, l, s =>
    match exec ign src slack calls p l s with
    | .ok (.err, l, s) => .ok (.val false, l, s)
    | r => r
  | call f, l, s =>
    match calls f s with
    | .ok (o, s) => .ok (o, l, s)
    | .error e => .error e

/-- What a function does, up to a depth of calls (as in oak-nginx parser/mod.rs:51-72): its local variables are its own, `return` ends
it. -/
def calls (ign : Nat → Bool) (src : Source) (slack : Nat) (procs : List Prog) : Nat → Nat → PState → Run (Out × PState)
  | 0, _, _ => .error .spin
  | depth + 1, f, s =>
    match procs[f]? with
    | none => .error .panic
    | some p =>
      match exec ign src slack (calls ign src slack procs depth) p ⟨s.checkpoint, fun _ => 0⟩ s with
      | .ok (.ret b, _, s) => .ok (.val b, s)
      | .ok (o, _, s) => .ok (o, s)
      | .error e => .error e

/-! ### Abbreviations -/

/-- `a && b` (as in oak-bash parser/mod.rs:33). -/
def and_ (a b : Prog) : Prog := ite a b (val false)
/-- `a || b` (as in oak-bash parser/mod.rs:61). -/
def or_ (a b : Prog) : Prog := ite a (val true) b
/-- `!a` (as in oak-bash parser/mod.rs:33). -/
def not_ (a : Prog) : Prog := ite a (val false) (val true)
/-- `if c { a }` (as in oak-nginx parser/mod.rs:44-46). -/
def when_ (c a : Prog) : Prog := ite c a (val true)
/-- `state.finish_at(checkpoint, kind)` with a constant (as in oak-bash parser/mod.rs:36). -/
def close (k : Nat) : Prog := finish (fun _ => k)
/-- `matches!(state.peek_kind(), Some(…))` (as in oak-nginx parser/mod.rs:31). -/
def seesAny : List Nat → Prog
  | [] => val false
  | k :: ks => or_ (sees k) (seesAny ks)
/-- Statements one after another (as in oak-bash parser/mod.rs:31-36). -/
def block : List Prog → Prog
  | [] => val true
  | [p] => p
  | p :: ps => seq p (block ps)
/-- `state.skip_trivia()` (state.rs:397-407), and functions of the parsers that do the same (as in oak-go parser/mod.rs:23-33):
`ParserState::new`, `bump` and `advance` have passed the ignored tokens already (state.rs:198-212, 391-429). -/
def trivia : Prog := val true
/-- `if prec < min_precedence { return None; } …` in `infix` (as in oak-swift parser/mod.rs:229-231). -/
def level (min prec : Nat) (p : Prog) : Prog := if prec < min then val false else p
/-- `state.record_expected(…)`, `state.record_unexpected_token(…)` (state.rs:285-295). -/
def record (code : Nat) : Prog := catch_ (fail code (fun v => v.offset))
/-- `state.record_unexpected_eof()` (state.rs:312-316). -/
def recordEnd : Prog := catch_ (fail 4 (fun v => v.src.length))

end Prog

/-- A parser: the kinds `is_ignored` says (oak-core language/mod.rs:298-300 and its overrides), whether the root begins with the first
token (`let cp = (0, 0)`, as in oak-dart parser/parse_top_level.rs:10) or at the checkpoint, the kind of the root, the statements between
the checkpoint and the last `finish_at`, and the functions they call. -/
structure HandParser where
  ign : List Nat
  fromStart : Bool
  root : Nat
  main : Prog
  procs : List Prog

namespace HandParser

/-- Where the root begins (as in oak-dart parser/parse_top_level.rs:10, oak-bash parser/mod.rs:78). -/
def begins (h : HandParser) (s : PState) : Nat × Nat := if h.fromStart then (0, 0) else s.checkpoint

/-- The last `finish_at`, or the error that is returned (as in oak-bash parser/mod.rs:87). -/
def done (h : HandParser) (cp : Nat × Nat) : Prog.Out × Prog.Loc × PState → Run (Option Green × List PErr)
  | (.err, _, s) => .ok (none, s.errors)
  | (_, _, s) => do
    let (e, s) ← s.finishAt cp h.root
    return (some e.tree, s.errors)

/-- `Parser::parse` in a session without an old tree, from the tokens (`parse_with_lexer`, oak-core parser/mod.rs:77-120): the tree (or
nothing, if an error is returned) and the recorded errors. -/
def parse (h : HandParser) (slack : Nat) (src : Source) (toks : List Tok) : Run (Option Green × List PErr) := do
  let s ← PState.new (fun k => h.ign.contains k) toks src.length
  let r ← h.main.exec (fun k => h.ign.contains k) src slack
    (Prog.calls (fun k => h.ign.contains k) src slack h.procs (slack + ((toks.length + 1) * (h.procs.length + 1) + 1)))
    ⟨h.begins s, fun _ => 0⟩ s
  h.done (h.begins s) r

end HandParser
end Oaks
