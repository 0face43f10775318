import Verif.Model.Tree
import Verif.Model.Source
import Verif.Base.Sort

/-
Model of `projects/oak-core/src/parser/state.rs` (`TokenSource`, `TreeSink`, `IncrementalContext`,
`ParserState`).

Simplifications: token kinds are numbers and `is_ignored` is a parameter `ign`; nodes allocated in the
arena get a number as their address (distinct allocations have distinct addresses, see C28), used only
for `std::ptr::eq`; errors are recorded as a number for the constructor used and the offset (messages
and source ids are not modelled); `usize` is unbounded.
-/
namespace Oaks

/-- `Token { kind, span }` (lexer/mod.rs:178-210). -/
structure Tok where
  kind : Nat
  start : Nat
  stop : Nat
deriving DecidableEq, Repr

/-- `Token::length` (lexer/mod.rs:207-209); spans are never reversed (`usize` subtraction would panic). -/
def Tok.length (t : Tok) : Nat := t.stop - t.start

/-- A child in the sink (`Vec<GreenTree>`, state.rs:84-87): the element, and the address if it is a node. -/
structure Entry where
  tree : Green
  addr : Nat

/-- A recorded error (`Vec<OakError>`, state.rs:209): which constructor, and its offset. -/
structure PErr where
  code : Nat
  offset : Nat
deriving DecidableEq, Repr

/-- `IncrementalContext` (state.rs:138-143): cursor into the old tree, and the sorted edits with the
cumulative delta after each (start, stop, delta). -/
structure Inc where
  cursor : TreeCur
  edits : List (Nat × Nat × Int)

/-- `ParserState` (state.rs:198-212) with its `TokenSource` (29-32) and `TreeSink` (84-87). `fresh` is
the next address of the arena, `srcLen` is `source.length()`. -/
structure PState where
  tokens : List Tok
  index : Nat
  sink : List Entry
  fresh : Nat
  inc : Option Inc
  errors : List PErr
  srcLen : Nat

/-- `TokenSource::peek_at` (state.rs:53-56). -/
def PState.peekAt (s : PState) (offset : Nat) : Option Tok := s.tokens[s.index + offset]?
/-- `TokenSource::current` (state.rs:48-50). -/
def PState.current (s : PState) : Option Tok := s.tokens[s.index]?

/-- `peek_kind` (state.rs:336-338). -/
def PState.peekKind (s : PState) : Option Nat := s.current.map (·.kind)

/-- `TreeSink::push_leaf` (state.rs:96-98), with the truncating cast. -/
def PState.pushLeaf (s : PState) (kind len : Nat) : PState :=
  { s with sink := s.sink ++ [⟨.leaf kind (len % 2 ^ 32) none, 0⟩] }

/-- `TokenSource::advance` (state.rs:60-62). -/
def PState.tokenAdvance (s : PState) : PState := { s with index := s.index + 1 }

/-- `skip_trivia` (state.rs:397-407), one turn per remaining token. -/
def skipTriviaLoop (ign : Nat → Bool) : Nat → PState → Run PState
  | 0, _ => .error .spin
  | fuel + 1, s =>
    match s.current with
    | some t => if ign t.kind then skipTriviaLoop ign fuel (s.pushLeaf t.kind t.length).tokenAdvance else .ok s
    | none => .ok s

/-- `skip_trivia` (state.rs:397-407). -/
def PState.skipTrivia (ign : Nat → Bool) (s : PState) : Run PState :=
  skipTriviaLoop ign (s.tokens.length - s.index + 1) s

/-- `advance` (state.rs:391-394). -/
def PState.advance (ign : Nat → Bool) (s : PState) : Run PState := s.tokenAdvance.skipTrivia ign

/-- `ParserState::new` (state.rs:232-242) for a lexer output with tokens and no errors. -/
def PState.new (ign : Nat → Bool) (tokens : List Tok) (srcLen : Nat) : Run PState :=
  (PState.mk tokens 0 [] 0 none [] srcLen).skipTrivia ign

/-- `current_offset` (state.rs:273-275). -/
def PState.currentOffset (s : PState) : Nat :=
  match s.current with
  | some t => t.start
  | none => s.srcLen

/-- The error recorders (state.rs:278-309) differ in the constructor only; `record_unexpected_eof` and
`unexpected_eof` (312-324) use the length of the source instead, see `recordEof` in Model/Json. -/
def PState.record (s : PState) (code : Nat) : PState :=
  { s with errors := s.errors ++ [⟨code, s.currentOffset⟩] }

/-- The loop of `peek_non_trivia_at` (state.rs:347-359). -/
def peekNonTriviaLoop (ign : Nat → Bool) (s : PState) : Nat → Nat → Nat → Run (Option Tok)
  | 0, _, _ => .error .spin
  | fuel + 1, n, offset =>
    match s.peekAt offset with
    | none => .ok none
    | some t =>
      if ign t.kind then peekNonTriviaLoop ign s fuel n (offset + 1)
      else
        match n with
        | 0 => .ok (some t)
        | n + 1 => peekNonTriviaLoop ign s fuel n (offset + 1)

/-- `peek_non_trivia_at` (state.rs:347-362). -/
def PState.peekNonTriviaAt (ign : Nat → Bool) (s : PState) (n : Nat) : Run (Option Tok) :=
  peekNonTriviaLoop ign s (s.tokens.length - s.index + 1) n 0

/-- `at` (state.rs:380-382). -/
def PState.atKind (s : PState) (kind : Nat) : Bool := s.peekKind == some kind

/-- `bump` (state.rs:424-429). -/
def PState.bump (ign : Nat → Bool) (s : PState) : Run PState :=
  match s.current with
  | some t => (s.pushLeaf t.kind t.length).advance ign
  | none => .ok s

/-- `eat` (state.rs:433-441). -/
def PState.eat (ign : Nat → Bool) (s : PState) (kind : Nat) : Run (Bool × PState) :=
  if s.atKind kind then do return (true, ← s.bump ign) else .ok (false, s)

/-- `expect` (state.rs:445-454). -/
def PState.expect (ign : Nat → Bool) (s : PState) (kind : Nat) : Run (Bool × PState) := do
  let (b, s') ← s.eat ign kind
  return if b then (true, s') else (false, s'.record 1)

/-- `advance_until` (state.rs:410-414). -/
def advanceUntilLoop (ign : Nat → Bool) (kind : Nat) : Nat → PState → Run PState
  | 0, _ => .error .spin
  | fuel + 1, s =>
    if s.index < s.tokens.length && !s.atKind kind then do
      advanceUntilLoop ign kind fuel (← s.advance ign)
    else .ok s

/-- `advance_until` (state.rs:410-414). -/
def PState.advanceUntil (ign : Nat → Bool) (s : PState) (kind : Nat) : Run PState :=
  advanceUntilLoop ign kind (s.tokens.length - s.index + 1) s

/-- `checkpoint` (state.rs:493-495). -/
def PState.checkpoint (s : PState) : Nat × Nat := (s.index, s.sink.length)

/-- `restore` (state.rs:498-501, 122-124). -/
def PState.restore (s : PState) (cp : Nat × Nat) : PState :=
  { s with index := cp.1, sink := s.sink.take cp.2 }

/-- `finish_at` (state.rs:504-506) with `finish_node` (127-134); the slice panics past the end. -/
def PState.finishAt (s : PState) (cp : Nat × Nat) (kind : Nat) : Run (Entry × PState) :=
  if cp.2 ≤ s.sink.length then do
    let g ← Green.mkNode kind ((s.sink.drop cp.2).map Entry.tree)
    let e : Entry := ⟨g, s.fresh⟩
    return (e, { s with sink := s.sink.take cp.2 ++ [e], fresh := s.fresh + 1 })
  else .error .panic

/-- `push_child` (state.rs:525-527). -/
def PState.pushChild (s : PState) (e : Entry) : PState := { s with sink := s.sink ++ [e] }

/-- Is this child the node at that address? (state.rs:514-517) -/
def Entry.isNodeAt (e : Entry) (addr : Nat) : Bool :=
  match e.tree with
  | .node _ _ _ => e.addr == addr
  | .leaf _ _ _ => false

/-- The loop of `checkpoint_before` (state.rs:512-520), from the last child down. -/
def findNodeRev (addr : Nat) : List Entry → Nat → Option Nat
  | _, 0 => none
  | l, i + 1 =>
    match l[i]? with
    | some e => if e.isNodeAt addr then some i else findNodeRev addr l i
    | none => findNodeRev addr l i

/-- `checkpoint_before` (state.rs:509-522). -/
def PState.checkpointBefore (s : PState) (node : Entry) : Nat × Nat :=
  match findNodeRev node.addr s.sink s.sink.length with
  | some i => (0, i)
  | none => (0, s.sink.length)

/-- `try_parse` / `try_parse_with_error` (state.rs:457-487; the two bodies are identical). -/
def PState.tryParse {α : Type} (s : PState) (body : PState → Run (Except PErr α × PState)) :
    Run (Except PErr α × PState) := do
  let cp := s.checkpoint
  let (r, s') ← body s
  match r with
  | .ok v => return (.ok v, s')
  | .error e => return (.error e, s'.restore cp)

/-! ## Incremental context -/

/-- Order by start (state.rs:149). -/
def byStart (e f : Edit) : Bool := decide (e.start ≤ f.start)

/-- The loop computing cumulative deltas (state.rs:151-159). -/
def processEdits (delta : Int) : List Edit → List (Nat × Nat × Int)
  | [] => []
  | e :: es =>
    let d := delta + ((blen e.text : Int) - ((e.stop - e.start : Nat) : Int))
    (e.start, e.stop, d) :: processEdits d es

/-- `IncrementalContext::new` (state.rs:147-162). -/
def Inc.new (root : Green) (edits : List Edit) : Inc :=
  ⟨TreeCur.new root, processEdits 0 (sortBy byStart edits)⟩

/-- `as usize` of an `isize` (state.rs:164-184); a negative value would wrap to a huge one, modelled as a panic (shown not
to happen for valid edits). -/
def toUsize (x : Int) : Run Nat := if 0 ≤ x then .ok x.toNat else .error .panic

/-- The loop of `map_new_to_old` (state.rs:164-184). -/
def mapLoop (pos : Nat) : List (Nat × Nat × Int) → Int → Run (Option Nat)
  | [], delta => do return some (← toUsize (pos - delta))
  | (start, stop, cum) :: es, delta => do
    let newStart ← toUsize (start + delta)
    let editDelta := cum - delta
    let newEnd ← toUsize (stop + delta + editDelta)
    if pos < newStart then return some (← toUsize (pos - delta))
    else if pos < newEnd then return none
    else mapLoop pos es cum

/-- `map_new_to_old` (state.rs:164-184). -/
def Inc.mapNewToOld (inc : Inc) (pos : Nat) : Run (Option Nat) := mapLoop pos inc.edits 0

/-- `is_dirty` (state.rs:186-194). -/
def Inc.isDirty (inc : Inc) (a b : Nat) : Bool :=
  inc.edits.any (fun e => decide (a < e.2.1) && decide (e.1 < b))

/-- The token check inside `try_reuse` (state.rs:565-589): walks the tokens from the current one;
answers the number of tokens consumed if their spans tile `[pos, target)`. -/
def tokenScan (target : Nat) : List Tok → Nat → Nat → Option Nat
  | [], _, _ => none
  | t :: ts, k, pos =>
    if t.start ≠ pos then none
    else if t.stop = target then some (k + 1)
    else if target < t.stop then none
    else tokenScan target ts (k + 1) t.stop

/-- The acceptance test of `try_reuse` at the cursor (state.rs:557-592): the node and the number of
tokens it stands for. -/
def reuseHere (s : PState) (inc : Inc) (kind newPos target : Nat) : Option (Green × Nat) :=
  if inc.cursor.offset = target then
    match inc.cursor.current with
    | .node k n cs =>
      if k = kind then
        if !inc.isDirty inc.cursor.offset (inc.cursor.offset + n) then
          (tokenScan (newPos + n) (s.tokens.drop s.index) 0 newPos).map (fun c => (.node k n cs, c))
        else none
      else none
    | .leaf _ _ _ => none
  else none

/-- Moving on when the element is not reused (state.rs:593-609): `none` is `return false`, with the
cursor as left behind. -/
def reuseMove (c : TreeCur) (target : Nat) : Option TreeCur × TreeCur :=
  let stepInOrNext : Option TreeCur × TreeCur :=
    match c.stepInto with
    | some c' => (some c', c')
    | none =>
      match c.stepNext with
      | (true, c') => (some c', c')
      | (false, c') => (none, c')
  if c.offset = target then stepInOrNext
  else if c.offset < target ∧ target < c.offset + c.current.len then stepInOrNext
  else if c.offset + c.current.len ≤ target then
    match c.stepNext with
    | (true, c') => (some c', c')
    | (false, c') => (none, c')
  else (none, c)

/-- The loop of `try_reuse` (state.rs:550-615); `steps` counts down from 100. -/
def reuseLoop (s : PState) (kind newPos target : Nat) : Nat → Inc → Run (Bool × PState)
  | steps, inc =>
    match reuseHere s inc kind newPos target with
    | some (node, consumed) => do
      let g ← deepClone node
      let c := inc.cursor.stepOver.getD inc.cursor
      return (true, { s with
        sink := s.sink ++ [⟨g, s.fresh⟩], fresh := s.fresh + 1, index := s.index + consumed
        inc := some { inc with cursor := c } })
    | none =>
      match reuseMove inc.cursor target with
      | (none, c) => .ok (false, { s with inc := some { inc with cursor := c } })
      | (some c, _) =>
        match steps with
        | 0 => .ok (false, { s with inc := some { inc with cursor := c } })
        | steps + 1 => reuseLoop s kind newPos target steps { inc with cursor := c }

/-- `try_reuse` (state.rs:531-616). -/
def PState.tryReuse (s : PState) (kind : Nat) : Run (Bool × PState) :=
  match s.inc with
  | none => .ok (false, s)
  | some inc => do
    match ← inc.mapNewToOld s.currentOffset with
    | none => return (false, s)
    | some target => reuseLoop s kind s.currentOffset target 100 inc

/-- `set_incremental` (state.rs:266-268). -/
def PState.setIncremental (s : PState) (old : Green) (edits : List Edit) : PState :=
  { s with inc := some (Inc.new old edits) }

end Oaks
