import Verif.Model.Lexer

/-
The language in which the scanners of the example lexers (`examples/*/src/lexer/mod.rs`) are written down: programs over the
methods of `LexerState` (`projects/oak-core/src/lexer/mod.rs`), and their execution.

A program carries one position, `start`, as the scanners do (`let start = state.get_position()`); `add_token` is always
called with `start` and the current position, and a scanner that goes on after it takes a new `start`. Loops carry one number
(flags and depths are coded in it) and get one turn per byte of the source plus two.
-/
namespace Oaks

/-- Programs over `LexerState` (oak-core lexer/mod.rs:252-260, 395-640): what scanners such as those of oak-toml (lexer/mod.rs:75-300) do. -/
inductive Scn : Type → Type 1 where
  /-- the end, with an answer -/
  | ret {α} (a : α) : Scn α
  /-- `peek` and `current` (lexer/mod.rs:395-397, 704-706) -/
  | peek {α} (k : Option Char → Scn α) : Scn α
  /-- `peek_next_n` (lexer/mod.rs:407-409) -/
  | peekN {α} (n : Nat) (k : Option Char → Scn α) : Scn α
  /-- `starts_with` (lexer/mod.rs:599-601) -/
  | starts {α} (p : Str) (k : Bool → Scn α) : Scn α
  /-- `advance` (lexer/mod.rs:413-415) -/
  | adv {α} (n : Nat) (k : Scn α) : Scn α
  /-- `get_text_in(start..get_position())` (lexer/mod.rs:589-591) -/
  | text {α} (k : Str → Scn α) : Scn α
  /-- `get_position() > start` -/
  | moved {α} (k : Bool → Scn α) : Scn α
  /-- `set_position(start)` (lexer/mod.rs:579-581) -/
  | reset {α} (k : Scn α) : Scn α
  /-- `let start = state.get_position()` -/
  | mark {α} (k : Scn α) : Scn α
  /-- `add_token(kind, start, get_position())` (lexer/mod.rs:638-640) -/
  | emit {α} (kind : Nat) (k : Scn α) : Scn α
  /-- a `while` loop: the body answers whether to go on -/
  | loop {α} (i : Nat) (body : Nat → Scn (Bool × Nat)) (k : Nat → Scn α) : Scn α
  /-- `take_while` (lexer/mod.rs:874-880) -/
  | takeWhile {α} (p : Char → Bool) (k : Scn α) : Scn α
  /-- `WhitespaceConfig::scan` (scan_white_space.rs:15-26) -/
  | space {α} (ws : Char → Bool) (unicode : Bool) (kind : Nat) (k : Bool → Scn α) : Scn α
  /-- `StringConfig::scan` (scan_string.rs:17-91) -/
  | quoted {α} (cfg : StringCfg) (kind : Nat) (k : Bool → Scn α) : Scn α
  /-- `CommentConfig::scan` (scan_comment.rs:18-51) -/
  | comment {α} (cfg : CommentCfg) (lineKind blockKind : Nat) (k : Bool → Scn α) : Scn α
  /-- a part that adds tokens of its own; if it ends with `false`, a token is added from where it began, over all of them
  (as in oak-regex lexer/lex.rs:88-133) -/
  | within {α} (kind : Nat) (p : Scn Bool) (k : Scn α) : Scn α

/-- How a turn of the main loop ends: `continue`, falling through to `advance_if_dead_lock`, `break`
(as in oak-ini lexer/mod.rs:37-75). -/
inductive Next where
  | again | guard | stop
deriving DecidableEq, Repr

namespace Scn

/-- One program after another: statements separated by `;` (as in oak-toml lexer/mod.rs:97-116). -/
def bind {α β : Type} : Scn α → (α → Scn β) → Scn β
  | ret a, f => f a
  | peek k, f => peek fun c => bind (k c) f
  | peekN n k, f => peekN n fun c => bind (k c) f
  | starts p k, f => starts p fun b => bind (k b) f
  | adv n k, f => adv n (bind k f)
  | text k, f => text fun s => bind (k s) f
  | moved k, f => moved fun b => bind (k b) f
  | reset k, f => reset (bind k f)
  | mark k, f => mark (bind k f)
  | emit n k, f => emit n (bind k f)
  | loop i b k, f => loop i b fun s => bind (k s) f
  | takeWhile p k, f => takeWhile p (bind k f)
  | space w u n k, f => space w u n fun b => bind (k b) f
  | quoted c n k, f => quoted c n fun b => bind (k b) f
  | comment c n n' k, f => comment c n n' fun b => bind (k b) f
  | within n p k, f => within n p (bind k f)

instance : Monad Scn where
  pure := ret
  bind := bind

/-- The turns of a loop (as in oak-toml lexer/mod.rs:126-140). -/
def loopRun (body : Nat → Nat → Lex → Run ((Bool × Nat) × Nat × Lex)) : Nat → Nat → Nat → Lex → Run (Nat × Nat × Lex)
  | 0, _, _, _ => .error .spin
  | fuel + 1, s, start, st => do
    let ((go, s), start, st) ← body s start st
    if go then loopRun body fuel s start st else pure (s, start, st)

/-- Executing a program in a state (oak-core lexer/mod.rs:395-640): its answer, the new `start`, the new state. -/
def run (src : Source) {α : Type} : Scn α → Nat → Lex → Run (α × Nat × Lex)
  | ret a, start, st => pure (a, start, st)
  | peek k, start, st => do
    let (st, c) ← st.peek src
    run src (k c) start st
  | peekN n k, start, st => do
    let c ← st.peekNextN src n
    run src (k c) start st
  | starts p k, start, st => do
    let (st, b) ← st.startsWith src p
    run src (k b) start st
  | adv n k, start, st => run src k start (st.advance src n)
  | text k, start, st => do
    let s ← src.textIn start st.pos
    run src (k s) start st
  | moved k, start, st => run src (k (decide (st.pos > start))) start st
  | reset k, start, st => run src k start { st with cur := st.cur.setPosition src start }
  | mark k, _, st => run src k st.pos st
  | emit n k, start, st => run src k st.pos (st.addToken n start st.pos)
  | loop i b k, start, st => do
    let (s, start, st) ← loopRun (fun i => run src (b i)) (src.length + 2) i start st
    run src (k s) start st
  | takeWhile p k, start, st => do
    let st ← st.takeWhile src p
    run src k start st
  | space w u n k, _, st => do
    let (st, b) ← scanWhitespace w u src st n
    run src (k b) st.pos st
  | quoted cfg n k, _, st => do
    let (st, b) ← cfg.scan src st n
    run src (k b) st.pos st
  | comment cfg n n' k, _, st => do
    let (st, b) ← cfg.scan src st n n'
    run src (k b) st.pos st
  | within n p k, _, st => do
    let (b, _, st') ← run src p st.pos st
    let st' := if b then st' else st'.addToken n st.pos st'.pos
    run src k st'.pos st'

/-- `while state.not_at_end() { let safe_point = state.get_position(); <turn>; state.advance_if_dead_lock(safe_point) }`,
where a turn may `continue` (then there is no check) or `break` (as in oak-ini lexer/mod.rs:37-75; oak-core lexer/mod.rs:971-979). -/
def drive (src : Source) (step : Scn Next) : Nat → Lex → Run Lex
  | fuel, st =>
    if st.notAtEnd src then
      match fuel with
      | 0 => .error .spin
      | fuel + 1 => do
        let (n, _, st') ← step.run src st.pos st
        match n with
        | .again => drive src step fuel st'
        | .guard => do
          let st'' ← st'.advanceIfDeadLock src st.pos
          drive src step fuel st''
        | .stop => pure st'
    else pure st

/-- `lex`: `State::new(source)`, the main loop, `add_eof` (the same lines in every lexer, e.g. examples/oak-ini/src/lexer/mod.rs:21-28).
The tokens; `finish_with_cache` is `C13`'s. -/
def lex (src : Source) (step : Scn Next) (eof : Nat) : Run (List Tok) := do
  let st ← Lex.new src
  let st ← drive src step src.length st
  pure (st.addEof eof).toks

/-! ### The idioms of the scanners -/

/-- `state.peek()` (lexer/mod.rs:395-397). -/
def look : Scn (Option Char) := peek ret
/-- `state.peek_next_n(n)` (lexer/mod.rs:407-409). -/
def lookN (n : Nat) : Scn (Option Char) := peekN n ret
/-- `state.starts_with(p)` (lexer/mod.rs:599-601). -/
def sees (p : Str) : Scn Bool := starts p ret
/-- `state.advance(n)` (lexer/mod.rs:413-415). -/
def skip (n : Nat) : Scn Unit := adv n (ret ())
/-- `state.get_text_in(start..state.get_position())` (lexer/mod.rs:589-591). -/
def word : Scn Str := text ret
/-- `state.get_position() > start` (as in oak-toml lexer/mod.rs:88). -/
def hasMoved : Scn Bool := moved ret
/-- `state.set_position(start)` (lexer/mod.rs:579-581). -/
def back : Scn Unit := reset (ret ())
/-- `let start = state.get_position()` (as in oak-toml lexer/mod.rs:77). -/
def here : Scn Unit := mark (ret ())
/-- `state.add_token(kind, start, state.get_position())` (lexer/mod.rs:638-640). -/
def tok (kind : Nat) : Scn Unit := emit kind (ret ())
/-- `state.take_while(p)` (lexer/mod.rs:874-880). -/
def eatWhile (p : Char → Bool) : Scn Unit := takeWhile p (ret ())
/-- A part covered by a token if it fails (as in oak-regex lexer/lex.rs:88-133). -/
def covered (kind : Nat) (p : Scn Bool) : Scn Unit := within kind p (ret ())
/-- A `while` loop that carries a number (as in oak-toml lexer/mod.rs:126-140). -/
def while_ (i : Nat) (body : Nat → Scn (Bool × Nat)) : Scn Nat := loop i body ret

/-- A turn of the loop below (as in oak-toml lexer/mod.rs:79-86). -/
def peekTurn (p : Char → Bool) (n : Char → Nat) (i : Nat) : Scn (Bool × Nat) := do
  match ← look with
  | some c => if p c then do skip (n c); return (true, i) else return (false, i)
  | none => return (false, i)

/-- `while let Some(ch) = state.peek() { if p(ch) { state.advance(n(ch)) } else { break } }` (as in oak-toml lexer/mod.rs:79-86). -/
def whilePeek (p : Char → Bool) (n : Char → Nat) : Scn Unit := do
  let _ ← while_ 0 (peekTurn p n)

/-- Scanners tried one after another: `if self.a(state) { continue } if self.b(state) { continue } …`; each takes its own `start`
(as in oak-ini lexer/mod.rs:41-70). -/
def firstOf : List (Scn Bool) → Scn Next
  | [] => ret .guard
  | p :: ps => do
    here
    if ← p then return .again else firstOf ps

end Scn
end Oaks
