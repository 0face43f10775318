import Verif.Model.Cursor
import Verif.Spec.Cursor

/-! Driving the cursor: one method call per operation, and sequences of calls. -/

namespace Oaks
open Spec

/-- A range-returning method (`start..self.offset`, cursor.rs:141,162 and the like). -/
def rangeOf (cur : Cur) (r : Run Cur) : Run (Cur × CursorOut) := do
  let cur' ← r
  pure (cur', .range cur.offset cur'.offset)

/-- One call on a cursor (cursor.rs:40-454, each function cited in `Model/Cursor`); loops get `length + 1` iterations. -/
def Cur.step (src : Source) (cur : Cur) : CursorOp → Run (Cur × CursorOut)
  | .peek => do let (c, ch) ← cur.peekChar src; pure (c, .char ch)
  | .peekNext => do let (c, ch) ← cur.peekNextChar src; pure (c, .char ch)
  | .advance => do let (c, ch) ← cur.advanceChar src; pure (c, .char ch)
  | .takeWhile p => rangeOf cur (Cur.takeWhile src p (src.length + 1) cur)
  | .skipWhitespace => rangeOf cur (cur.skipAsciiWhitespace src (src.length + 1))
  | .skipDigits => rangeOf cur (cur.skipAsciiDigits src (src.length + 1))
  | .skipIdent => rangeOf cur (cur.skipAsciiIdentContinue src (src.length + 1))
  | .skipUntil b => rangeOf cur (cur.skipUntil src b (src.length + 1))
  | .startsWith p => do let (c, b) ← cur.startsWith src (src.length + 1) p; pure (c, .bool b)
  | .consume p => do let (c, b) ← cur.consumeIfStartsWith src (src.length + 1) p; pure (c, .bool b)
  | .moveTo o => pure (cur.setPosition src o, .unit)

/-- A sequence of calls by a client; the functions called are those of cursor.rs:40-454. -/
def Cur.run (src : Source) (cur : Cur) : List CursorOp → Run (List CursorOut)
  | [] => pure []
  | op :: ops => do
    let (cur, out) ← cur.step src op
    let outs ← Cur.run src cur ops
    pure (out :: outs)

/-- A client's `while let Some(b) = cursor.advance_byte()` (cursor.rs:274). -/
def Cur.readBytes (src : Source) : Nat → Cur → Run (List UInt8)
  | 0, _ => .error .spin
  | fuel + 1, cur => do
    let (cur, b) ← cur.advanceByte src
    match b with
    | none => pure []
    | some b => do
      let bs ← readBytes src fuel cur
      pure (b :: bs)

end Oaks
