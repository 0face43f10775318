import Verif.Spec.Search

/-
Specification of a cursor: a text split in two, `(before, after)`.
-/
namespace Oaks.Spec
open Oaks

/-- What a user can ask a cursor. -/
inductive CursorOp where
  | peek
  | peekNext
  | advance
  | takeWhile (p : Char → Bool)
  | skipWhitespace
  | skipDigits
  | skipIdent
  | skipUntil (b : UInt8)
  | startsWith (p : Str)
  | consume (p : Str)
  | moveTo (offset : Nat)

/-- What it answers. -/
inductive CursorOut where
  | char (c : Option Char)
  | range (start stop : Nat)
  | bool (b : Bool)
  | unit
deriving DecidableEq

/-- Move over the longest prefix whose characters satisfy `p`. -/
def over (p : Char → Bool) (pos : Str × Str) : (Str × Str) × CursorOut :=
  ((pos.1 ++ pos.2.takeWhile p, pos.2.dropWhile p),
    .range (blen pos.1) (blen (pos.1 ++ pos.2.takeWhile p)))

def isWs (c : Char) : Bool := c == ' ' || c == '\t' || c == '\n' || c == '\r'
def isDigit (c : Char) : Bool := decide ('0' ≤ c) && decide (c ≤ '9')
def isIdent (c : Char) : Bool :=
  (decide ('a' ≤ c) && decide (c ≤ 'z')) || (decide ('A' ≤ c) && decide (c ≤ 'Z')) || isDigit c || c == '_'

/-- The meaning of each operation on a plain text. -/
def cursorStep (pos : Str × Str) : CursorOp → (Str × Str) × CursorOut
  | .peek => (pos, .char pos.2.head?)
  | .peekNext => (pos, .char pos.2.tail.head?)
  | .advance => match pos.2 with
    | [] => (pos, .char none)
    | c :: cs => ((pos.1 ++ [c], cs), .char (some c))
  | .takeWhile p => over p pos
  | .skipWhitespace => over isWs pos
  | .skipDigits => over isDigit pos
  | .skipIdent => over isIdent pos
  | .skipUntil b => over (fun c => c.toNat != b.toNat) pos
  | .startsWith p => (pos, .bool (p.isPrefixOf pos.2))
  | .consume p =>
    match p.isPrefixOf pos.2 with
    | true => ((pos.1 ++ p, pos.2.drop p.length), .bool true)
    | false => (pos, .bool false)
  | .moveTo o => ((splitAt? (pos.1 ++ pos.2) o).getD pos, .unit)

/-- Operands that make sense: positions on character boundaries, ASCII target bytes. -/
def CursorOp.Valid (t : Str) : CursorOp → Prop
  | .moveTo o => Boundary t o
  | .skipUntil b => b.toNat < 128
  | _ => True

def cursorRun (pos : Str × Str) : List CursorOp → List CursorOut
  | [] => []
  | op :: ops => (cursorStep pos op).2 :: cursorRun (cursorStep pos op).1 ops

end Oaks.Spec
