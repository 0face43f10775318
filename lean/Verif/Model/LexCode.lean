import Verif.Model.Lexer

/-
A small language for the scanning loops of the lexers in `examples/*/src/lexer/mod.rs`, and what its programs do
with a `LexerState` (`projects/oak-core/src/lexer/mod.rs`, modelled in Model/Lexer.lean).

A lexer of the examples is a function `run` over `&mut LexerState` that loops while there is text left, trying
private functions (`skip_whitespace`, `lex_string`, …) in turn. Every such function only uses a handful of calls
of the state; each statement below is one of those calls or a construct of the language. Local variables are
numbered registers. A call of a private function is its body in place, under `scope`.

Simplifications: every token gets kind 0 (which kind a token gets never decides where the lexer goes on);
conditions on something else than characters, positions, counters and flags (the text of a word, a configuration
value) are answered by an oracle, over which all statements are quantified; a `loop` gets one turn per byte of the
text plus one and spins after that; the end marker `lex` adds after `run` is left out. A lexer that begins with `new_with_cache` is modelled for a cache
without tokens, where that is `new` (lexer/mod.rs:284-287).
-/
namespace Oaks.Lc

/-- What the standard library answers for characters beyond ASCII: `char::is_alphabetic`, `is_numeric`,
`is_whitespace`, `is_uppercase`, `is_lowercase`, `is_control`, as called for instance in
examples/oak-d/src/lexer/mod.rs:128. -/
structure Uni where
  alpha : Char → Bool
  num : Char → Bool
  white : Char → Bool
  upper : Char → Bool
  lower : Char → Bool
  ctrl : Char → Bool

/-- Tests of a character as the lexers write them: `c == 'x'`, `matches!(c, 'a'..='z' | '_')`,
`c.is_ascii_digit()` (a range), `c.is_alphabetic()`, … and their combinations, as in
examples/oak-java/src/lexer/mod.rs:290. -/
inductive CSet where
  | rg (a b : Nat)
  | alpha
  | num
  | alnum
  | white
  | upper
  | lower
  | ctrl
  | or (x y : CSet)
  | and (x y : CSet)
  | not (x : CSet)

/-- `a <= n && n <= b`, the range `'a'..='b'` of a pattern (`char::is_ascii_alphabetic` in
examples/oak-java/src/lexer/mod.rs:290 is two of them). -/
def between (a b n : Nat) : Bool := Nat.ble a n && Nat.ble n b

/-- `char::is_alphabetic` (standard library), called in examples/oak-d/src/lexer/mod.rs:128. -/
def isAlpha (u : Uni) (c : Char) : Bool :=
  if c.toNat < 128 then between 65 90 c.toNat || between 97 122 c.toNat else u.alpha c

/-- `char::is_numeric` (standard library), called within `is_alphanumeric` in examples/oak-go/src/lexer/mod.rs:115. -/
def isNum (u : Uni) (c : Char) : Bool := if c.toNat < 128 then between 48 57 c.toNat else u.num c

/-- `char::is_whitespace` (standard library), called in projects/oak-core/src/lexer/scan_white_space.rs:15-26. -/
def isWhite (u : Uni) (c : Char) : Bool :=
  if c.toNat < 128 then between 9 13 c.toNat || between 32 32 c.toNat else u.white c

/-- The characters that pass a test; `is_alphanumeric` is `is_alphabetic() || is_numeric()` (standard
library). The tests stand in the lexers, as in examples/oak-java/src/lexer/mod.rs:290. -/
def CSet.has (u : Uni) : CSet → Char → Bool
  | rg a b, c => between a b c.toNat
  | alpha, c => isAlpha u c
  | num, c => isNum u c
  | alnum, c => isAlpha u c || isNum u c
  | white, c => isWhite u c
  | upper, c => if c.toNat < 128 then between 65 90 c.toNat else u.upper c
  | lower, c => if c.toNat < 128 then between 97 122 c.toNat else u.lower c
  | ctrl, c => if c.toNat < 128 then between 0 31 c.toNat || between 127 127 c.toNat else u.ctrl c
  | or x y, c => x.has u c || y.has u c
  | and x y, c => x.has u c && y.has u c
  | not x, c => !x.has u c

/-- What a register holds for an `Option<char>`, the value of `peek` (lexer/mod.rs:395-397): 0 for `None`. -/
def code : Option Char → Nat
  | none => 0
  | some c => c.toNat + 1

/-- The `Option<char>` of `peek` (lexer/mod.rs:395-397) that a register holds. -/
def uncode (n : Nat) : Option Char := if n = 0 then none else some (Char.ofNat (n - 1))

/-- `r.len_utf8()` of a character in a register, the argument of `advance` (lexer/mod.rs:413-415). -/
def charLen (n : Nat) : Nat :=
  match uncode n with
  | none => 0
  | some c => c.utf8Size

/-- The statements of the lexers (`run` and the functions it calls, as examples/oak-java/src/lexer/mod.rs:31-78). A
statement may be used as a condition: it leaves an answer. -/
inductive Code where
  /-- a value `true`, `false` or `()` -/
  | val (b : Bool)
  /-- a condition that is not followed -/
  | any
  /-- a condition on the counter `r` -/
  | ask (r : Nat) (f : Nat → Bool)
  /-- `state.not_at_end()` (lexer/mod.rs:387-389) -/
  | more
  /-- `let r = state.peek()`, `state.current()` (lexer/mod.rs:395-397, 704-706) -/
  | look (r : Nat)
  /-- `let r = state.peek_next_n(n)` (lexer/mod.rs:407-409) -/
  | lookN (r n : Nat)
  /-- a value that is not followed is put into `r` -/
  | havoc (r : Nat)
  /-- `r = f(q)`: arithmetic on a counter -/
  | comp (r q : Nat) (f : Nat → Nat)
  /-- `r = n` for a literal -/
  | put (r n : Nat)
  /-- `r = c` for a literal -/
  | putc (r : Nat) (c : Char)
  /-- the flag `r` -/
  | flag (r : Nat)
  /-- `let r = q` -/
  | copy (r q : Nat)
  /-- `r` holds a character that passes the test -/
  | chr (r : Nat) (x : CSet)
  /-- `a == b` on characters -/
  | same (a b : Nat)
  /-- `state.starts_with(s)` (lexer/mod.rs:599-601) -/
  | starts (s : Str)
  /-- `state.rest().starts_with(s)` (lexer/mod.rs:354-356) -/
  | restStarts (s : Str)
  /-- `state.advance(n)` (lexer/mod.rs:413-415) -/
  | adv (n : Nat)
  /-- `state.advance(r.len_utf8())` -/
  | advc (r : Nat)
  /-- `state.advance(r)` of a counter -/
  | advBy (r : Nat)
  /-- `let r = state.get_position()` (lexer/mod.rs:379-381) -/
  | mark (r : Nat)
  /-- `state.set_position(r)` (lexer/mod.rs:579-581) -/
  | goto (r : Nat)
  /-- `state.add_token(_, r, state.get_position())` (lexer/mod.rs:638-640) -/
  | tok (r : Nat)
  /-- `state.add_token(_, r, q)` -/
  | tokTo (r q : Nat)
  /-- `state.add_token(_, r, r + n)` -/
  | tokLen (r n : Nat)
  /-- `state.take_while(x)` (lexer/mod.rs:874-880) -/
  | take (x : CSet)
  /-- `WhitespaceConfig { unicode_whitespace }.scan(state, _)` (scan_white_space.rs:15-26) -/
  | space (unicode : Bool)
  /-- `CommentConfig { … }.scan(state, _, _)` (scan_comment.rs:18-51) -/
  | comment (cfg : CommentCfg)
  /-- `StringConfig { … }.scan(state, _)` (scan_string.rs:17-91) -/
  | quoted (cfg : StringCfg)
  /-- `state.advance_if_dead_lock(r)` (lexer/mod.rs:971-984) -/
  | guard (r : Nat)
  /-- `state.get_position() > r` -/
  | moved (r : Nat)
  /-- `p; q` -/
  | seq (p q : Code)
  /-- `if c { p } else { q }` -/
  | ite (c p q : Code)
  /-- `while c { p }`; register `g` keeps where the turn began (no such variable in the code); `peel` is a hint for
  the analysis of Proofs/LexCodeCheck.lean and means nothing here -/
  | loop (g : Nat) (peel : Bool) (c p : Code)
  /-- `break` -/
  | brk
  /-- `continue` -/
  | cont
  /-- `return b` -/
  | ret (b : Bool)
  /-- the body of a function in place of its call; its variables are the registers from `lo` on -/
  | scope (lo : Nat) (p : Code)

@[inherit_doc] scoped infixr:60 " ;; " => Code.seq

/-- How a statement ends: with a value, or by `break`, `continue`, `return` (as in
examples/oak-java/src/lexer/mod.rs:31-78). -/
inductive Out where
  | val (b : Bool)
  | brk
  | cont
  | ret (b : Bool)
deriving DecidableEq, Repr

/-- The lexer's state (`LexerState`, lexer/mod.rs:252-256), the variables, and how many questions the oracle was asked. -/
structure LSt where
  lex : Lex
  regs : Nat → Nat
  asked : Nat

/-- `r = n`, an assignment (as in examples/oak-java/src/lexer/mod.rs:31-78). -/
def LSt.set (st : LSt) (r n : Nat) : LSt := { st with regs := fun q => if q = r then n else st.regs q }

/-- The turns of `while c { p }`, as the loop of `run` in examples/oak-java/src/lexer/mod.rs:31-78. -/
def turns (c p : LSt → Run (LSt × Out)) (g : Nat) : Nat → LSt → Run (LSt × Out)
  | 0, _ => .error .spin
  | n + 1, st => do
    let (st, o) ← c (st.set g st.lex.pos)
    match o with
    | .val true => do
      let (st, o) ← p st
      match o with
      | .brk => pure (st, .val true)
      | .ret b => pure (st, .ret b)
      | _ => turns c p g n st
    | .ret b => pure (st, .ret b)
    | _ => pure (st, .val true)

/-- What a program does to the state (the calls are those of lexer/mod.rs:354-984). `ω`
answers the questions that are not followed. -/
def exec (src : Source) (u : Uni) (ω : Nat → Nat) : Code → LSt → Run (LSt × Out)
  | .val b, st => pure (st, .val b)
  | .any, st => pure ({ st with asked := st.asked + 1 }, .val (ω st.asked != 0))
  | .ask r f, st => pure (st, .val (f (st.regs r)))
  | .more, st => pure (st, .val (st.lex.notAtEnd src))
  | .look r, st => do
    let (lex, c) ← st.lex.peek src
    pure ({ st with lex := lex }.set r (code c), .val true)
  | .lookN r n, st => do
    let c ← st.lex.peekNextN src n
    pure (st.set r (code c), .val true)
  | .havoc r, st => pure ({ st with asked := st.asked + 1 }.set r (ω st.asked), .val true)
  | .comp r q f, st => pure (st.set r (f (st.regs q)), .val true)
  | .put r n, st => pure (st.set r n, .val true)
  | .putc r c, st => pure (st.set r (code (some c)), .val true)
  | .flag r, st => pure (st, .val (st.regs r != 0))
  | .copy r q, st => pure (st.set r (st.regs q), .val true)
  | .chr r x, st =>
    pure (st, .val (match uncode (st.regs r) with
      | none => false
      | some c => x.has u c))
  | .same a b, st => pure (st, .val (st.regs a == st.regs b))
  | .starts s, st => do
    let (lex, b) ← st.lex.startsWith src s
    pure ({ st with lex := lex }, .val b)
  | .restStarts s, st => do
    let (lex, x) ← st.lex.rest src
    pure ({ st with lex := lex }, .val (s.isPrefixOf x))
  | .adv n, st => pure ({ st with lex := st.lex.advance src n }, .val true)
  | .advc r, st =>
    pure ({ st with lex := st.lex.advance src (charLen (st.regs r)) }, .val true)
  | .advBy r, st => pure ({ st with lex := st.lex.advance src (st.regs r) }, .val true)
  | .mark r, st => pure (st.set r st.lex.pos, .val true)
  | .goto r, st => pure ({ st with lex := { st.lex with cur := st.lex.cur.setPosition src (st.regs r) } }, .val true)
  | .tok r, st => pure ({ st with lex := st.lex.addToken 0 (st.regs r) st.lex.pos }, .val true)
  | .tokTo r q, st => pure ({ st with lex := st.lex.addToken 0 (st.regs r) (st.regs q) }, .val true)
  | .tokLen r n, st => pure ({ st with lex := st.lex.addToken 0 (st.regs r) (st.regs r + n) }, .val true)
  | .take x, st => do
    let lex ← st.lex.takeWhile src (x.has u)
    pure ({ st with lex := lex }, .val true)
  | .space unicode, st => do
    let (lex, b) ← scanWhitespace (isWhite u) unicode src st.lex 0
    pure ({ st with lex := lex }, .val b)
  | .comment cfg, st => do
    let (lex, b) ← cfg.scan src st.lex 0 0
    pure ({ st with lex := lex }, .val b)
  | .quoted cfg, st => do
    let (lex, b) ← cfg.scan src st.lex 0
    pure ({ st with lex := lex }, .val b)
  | .guard r, st => do
    let lex ← st.lex.advanceIfDeadLock src (st.regs r)
    pure ({ st with lex := lex }, .val true)
  | .moved r, st => pure (st, .val (decide (st.regs r < st.lex.pos)))
  | .seq p q, st => do
    let (st, o) ← exec src u ω p st
    match o with
    | .val _ => exec src u ω q st
    | o => pure (st, o)
  | .ite c p q, st => do
    let (st, o) ← exec src u ω c st
    match o with
    | .val true => exec src u ω p st
    | .val false => exec src u ω q st
    | o => pure (st, o)
  | .loop g _ c p, st => turns (exec src u ω c) (exec src u ω p) g (src.length + 1) st
  | .brk, st => pure (st, .brk)
  | .cont, st => pure (st, .cont)
  | .ret b, st => pure (st, .ret b)
  | .scope _ p, st => do
    let (st, o) ← exec src u ω p st
    match o with
    | .val b => pure (st, .val b)
    | .ret b => pure (st, .val b)
    | _ => pure (st, .val true)

/-- `let mut state = LexerState::new(source); self.run(&mut state)`: the tokens `run` records
(as in examples/oak-java/src/lexer/mod.rs:15-22). -/
def scanAll (src : Source) (u : Uni) (ω : Nat → Nat) (p : Code) : Run (List Tok) := do
  let lex ← Lex.new src
  let (st, _) ← exec src u ω p ⟨lex, fun _ => 0, 0⟩
  pure st.lex.toks

end Oaks.Lc
