import Verif.Base.Str
import Verif.Base.Run

/-
Model of the line editor of `projects/oak-repl/src/lib.rs`: `LineBuffer` and the key handling of
`OakRepl::run`.

Simplifications: drawing the prompt and the line is left out, as are I/O errors; the language's handler
is any state machine with the three questions the loop asks it. Keys other than the ones handled, and
events that are not keys, do nothing.
-/
namespace Oaks

/-- `LineBuffer` (oak-repl/src/lib.rs:92-99). -/
structure LineBuf where
  lines : List Str
  current : Nat
  cursor : Nat
deriving DecidableEq

/-- `LineBuffer::new` (oak-repl/src/lib.rs:103-105) and what `clear` makes of any buffer (139-143). -/
def LineBuf.new : LineBuf := ⟨[[]], 0, 0⟩

/-- `String::insert` (standard library; oak-repl/src/lib.rs:109): panics when the byte index is not a character boundary. -/
def strInsert (s : Str) (i : Nat) (c : Char) : Run Str :=
  match splitAt? s i with
  | some (l, r) => .ok (l ++ c :: r)
  | none => .error .panic

/-- `String::remove` (standard library; oak-repl/src/lib.rs:116): panics off a boundary and at the end. -/
def strRemove (s : Str) (i : Nat) : Run Str :=
  match splitAt? s i with
  | some (l, _ :: r) => .ok (l ++ r)
  | _ => .error .panic

/-- `LineBuffer::insert` (oak-repl/src/lib.rs:108-111). -/
def LineBuf.insert (b : LineBuf) (c : Char) : Run LineBuf := do
  let line ← index b.lines b.current
  let line' ← strInsert line b.cursor c
  return ⟨b.lines.set b.current line', b.current, b.cursor + 1⟩

/-- `LineBuffer::backspace` (oak-repl/src/lib.rs:114-131); `Vec::remove` panics out of range. -/
def LineBuf.backspace (b : LineBuf) : Run (Bool × LineBuf) :=
  if b.cursor > 0 then do
    let line ← index b.lines b.current
    let line' ← strRemove line (b.cursor - 1)
    return (true, ⟨b.lines.set b.current line', b.current, b.cursor - 1⟩)
  else if b.current > 0 then do
    let cur ← index b.lines b.current
    let lines := b.lines.eraseIdx b.current
    let prev ← index lines (b.current - 1)
    return (true, ⟨lines.set (b.current - 1) (prev ++ cur), b.current - 1, prev.length⟩)
  else .ok (false, b)

/-- `self.lines.join("\n")` (oak-repl/src/lib.rs:135). -/
def joinLines : List Str → Str
  | [] => []
  | [l] => l
  | l :: ls => l ++ '\n' :: joinLines ls

/-- `full_text` (oak-repl/src/lib.rs:134-136). -/
def LineBuf.fullText (b : LineBuf) : Str := joinLines b.lines

/-- `is_empty` (oak-repl/src/lib.rs:146-148). -/
def LineBuf.isEmpty (b : LineBuf) : Bool := b.lines.length == 1 && (b.lines.head?.getD []).isEmpty

/-- The keys `run` looks at (oak-repl/src/lib.rs:190-252). -/
inductive Key where
  | char (c : Char) (ctrl : Bool)
  | enter
  | backspace
  | left
  | right
  | other
deriving DecidableEq

/-- A `ReplHandler` (oak-repl/src/lib.rs:68-89): a state and the three questions; `handle` also says
whether to exit. -/
structure Handler where
  State : Type
  complete : State → Str → Bool
  indent : State → Str → Nat
  handle : State → Str → State × Bool

/-- The variables of the loop (oak-repl/src/lib.rs:166-173): the buffer, the handler's state, the codes handed to the handler
so far. -/
structure ReplState (H : Handler) where
  buf : LineBuf
  handler : H.State
  submitted : List Str

/-- The auto-indent loop (oak-repl/src/lib.rs:233-235). -/
def insertSpaces : Nat → LineBuf → Run LineBuf
  | 0, b => .ok b
  | n + 1, b => do insertSpaces n (← b.insert ' ')

/-- One turn of the loop on a key (oak-repl/src/lib.rs:189-253); the flag says that the loop ends. -/
def replKey (H : Handler) (s : ReplState H) : Key → Run (Bool × ReplState H)
  | .char c ctrl =>
    if c = 'c' ∧ ctrl = true then .ok (false, { s with buf := LineBuf.new })
    else if c = 'd' ∧ ctrl = true then .ok (s.buf.isEmpty, s)
    else do return (false, { s with buf := ← s.buf.insert c })
  | .enter =>
    let code := s.buf.fullText
    if H.complete s.handler code then
      let (st, exit) := H.handle s.handler code
      if exit then .ok (true, ⟨s.buf, st, s.submitted ++ [code]⟩)
      else .ok (false, ⟨LineBuf.new, st, s.submitted ++ [code]⟩)
    else do
      let b : LineBuf := ⟨s.buf.lines ++ [[]], s.buf.current + 1, 0⟩
      return (false, { s with buf := ← insertSpaces (H.indent s.handler code) b })
  | .backspace => do
    let (_, b) ← s.buf.backspace
    return (false, { s with buf := b })
  | .left => if s.buf.cursor > 0 then .ok (false, { s with buf := { s.buf with cursor := s.buf.cursor - 1 } }) else .ok (false, s)
  | .right => do
    let line ← index s.buf.lines s.buf.current
    if s.buf.cursor < line.length then return (false, { s with buf := { s.buf with cursor := s.buf.cursor + 1 } })
    else return (false, s)
  | .other => .ok (false, s)

/-- The loop on a sequence of keys (oak-repl/src/lib.rs:173-254). -/
def replRun (H : Handler) (s : ReplState H) : List Key → Run (Bool × ReplState H)
  | [] => .ok (false, s)
  | k :: ks => do
    let (stop, s') ← replKey H s k
    if stop then return (true, s') else replRun H s' ks

end Oaks
