import Verif.Spec.Cursor
import Verif.Model.Lexer

/-
Specification of comments and string literals at the start of a text, of the operations of a scanner, and
of what cached tokens must satisfy.
-/
namespace Oaks.Spec
open Oaks

/-- `m` is the line comment at the start of `r`: the marker, and everything up to, not including, the next
newline. -/
def LineComment (marker r m : Str) : Prop :=
  ∃ body rest, r = marker ++ body ++ rest ∧ m = marker ++ body ∧ '\n' ∉ body ∧
    (rest = [] ∨ ∃ x, rest = '\n' :: x)

/-- `m` is the block comment at the start of `r`: it ends with the first `close` after `opener`, or with the
text if there is none. -/
def BlockComment (opener close r m : Str) : Prop :=
  ∃ after, r = opener ++ after ∧
    ((∃ body rest, after = body ++ close ++ rest ∧ m = opener ++ body ++ close ∧
        ∀ a b, after = a ++ close ++ b → body.length ≤ a.length) ∨
      ((∀ a b, after ≠ a ++ close ++ b) ∧ m = r))

/-- A piece of a text with block comments. -/
inductive Mark where
  | opens | closes | char (c : Char)
deriving DecidableEq

/-- Reading a text from the left: an opener where there is one, else a closer, else a character. -/
inductive Reads (opener close : Str) : Str → List Mark → Prop where
  | nil : Reads opener close [] []
  | opens {s ms} : Reads opener close s ms → Reads opener close (opener ++ s) (.opens :: ms)
  | closes {s ms} : ¬ opener <+: close ++ s → Reads opener close s ms → Reads opener close (close ++ s) (.closes :: ms)
  | char {c s ms} : ¬ opener <+: c :: s → ¬ close <+: c :: s → Reads opener close s ms →
      Reads opener close (c :: s) (.char c :: ms)

/-- The text of pieces. -/
def markText (opener close : Str) : List Mark → Str
  | [] => []
  | .opens :: ms => opener ++ markText opener close ms
  | .closes :: ms => close ++ markText opener close ms
  | .char c :: ms => c :: markText opener close ms

/-- `m` is the nested block comment at the start of `r`: after the opener it ends where, for the first time,
one closer more than openers has been read, or with the text if that never happens. -/
def NestedComment (opener close r m : Str) : Prop :=
  ∃ after pieces, r = opener ++ after ∧ Reads opener close after pieces ∧
    ((∃ inside rest, pieces = inside ++ rest ∧ m = opener ++ markText opener close inside ∧
        inside.count .closes = inside.count .opens + 1 ∧
        ∀ a b, inside = a ++ b → b ≠ [] → a.count .closes ≤ a.count .opens) ∨
      ((∀ a b, pieces = a ++ b → a.count .closes ≤ a.count .opens) ∧ m = r))

/-- What the comment scanner must do at the start of `r`, at position `pos`: consume `m`, record `new`,
answer `b`. Line comments are tried first; an empty marker is never there. -/
inductive CommentOutcome (cfg : CommentCfg) (lineKind blockKind pos : Nat) (r : Str) : Str → Bool → List Tok → Prop where
  | line {m} : cfg.line ≠ [] → LineComment cfg.line r m →
      CommentOutcome cfg lineKind blockKind pos r m true [⟨lineKind, pos, pos + blen m⟩]
  | block {m} : (cfg.line = [] ∨ ¬ cfg.line <+: r) → cfg.opener ≠ [] → cfg.close ≠ [] → cfg.nested = false →
      BlockComment cfg.opener cfg.close r m →
      CommentOutcome cfg lineKind blockKind pos r m true [⟨blockKind, pos, pos + blen m⟩]
  | nested {m} : (cfg.line = [] ∨ ¬ cfg.line <+: r) → cfg.opener ≠ [] → cfg.close ≠ [] → cfg.nested = true →
      NestedComment cfg.opener cfg.close r m →
      CommentOutcome cfg lineKind blockKind pos r m true [⟨blockKind, pos, pos + blen m⟩]
  | unclosable : (cfg.line = [] ∨ ¬ cfg.line <+: r) → cfg.opener ≠ [] → cfg.opener <+: r → cfg.close = [] →
      CommentOutcome cfg lineKind blockKind pos r r true [⟨blockKind, pos, pos + blen r⟩]
  | absent : (cfg.line = [] ∨ ¬ cfg.line <+: r) → (cfg.opener = [] ∨ ¬ cfg.opener <+: r) →
      CommentOutcome cfg lineKind blockKind pos r [] false []

/-- The inside of a string literal: ordinary characters, and escape characters each followed by any
character. -/
inductive LitBody (quote : Char) (escape : Option Char) : Str → Prop where
  | nil : LitBody quote escape []
  | plain {c s} : c ≠ quote → some c ≠ escape → LitBody quote escape s → LitBody quote escape (c :: s)
  | escaped {e c s} : escape = some e → LitBody quote escape s → LitBody quote escape (e :: c :: s)

/-- `m` is the string literal at the start of `r`, `closed` tells whether it is terminated: it ends with the
first quote that is not escaped, or with the text if there is none. -/
def Literal (quote : Char) (escape : Option Char) (r m : Str) (closed : Bool) : Prop :=
  if closed then ∃ body rest, r = quote :: (body ++ quote :: rest) ∧ LitBody quote escape body ∧ m = quote :: (body ++ [quote])
  else ∃ after, r = quote :: after ∧ m = r ∧ ∀ body rest, LitBody quote escape body → after ≠ body ++ quote :: rest

/-- What a lexer can ask of its state between two looks at the text. -/
inductive LexOp where
  | bump
  | takeWhile (p : Char → Bool)
  | skipWhitespace
  | skipIdent
  | skipUntil (b : UInt8)
  | consume (p : Str)
  | guard (safe : Nat)
  | identifier (kind : Nat)
  | lineComment (kind : Nat) (marker : Str)
  | blockComment (kind : Nat) (opener close : Str)
  | comment (cfg : CommentCfg) (lineKind blockKind : Nat)
  | string (cfg : StringCfg) (kind : Nat)
  | whitespace (ws : Char → Bool) (unicode : Bool) (kind : Nat)

/-- Markers are not empty; a target byte is ASCII. -/
def LexOp.Valid : LexOp → Prop
  | .skipUntil b => b.toNat < 128
  | .lineComment _ m => m ≠ []
  | .blockComment _ o c => o ≠ [] ∧ c ≠ []
  | _ => True

/-- Performing one operation; the answer is what the function returns (`true` where it returns a range or
nothing). -/
def LexOp.run (src : Source) (st : Lex) : LexOp → Run (Lex × Bool)
  | .bump => do let (st, c) ← st.bump src; return (st, c.isSome)
  | .takeWhile p => do return (← st.takeWhile src p, true)
  | .skipWhitespace => do return (← st.skipAsciiWhitespace src, true)
  | .skipIdent => do return (← st.skipAsciiIdentContinue src, true)
  | .skipUntil b => do return (← st.skipUntil src b, true)
  | .consume p => st.consumeIf src p
  | .guard safe => do return (← st.advanceIfDeadLock src safe, true)
  | .identifier k => st.scanAsciiIdentifier src k
  | .lineComment k m => st.scanLineComment src k m
  | .blockComment k o c => st.scanBlockComment src k o c
  | .comment cfg k k' => cfg.scan src st k k'
  | .string cfg k => cfg.scan src st k
  | .whitespace ws u k => scanWhitespace ws u src st k

/-- A lexer: it looks at the text, performs operations, decides by what it saw, and records what it
consumed as tokens. -/
inductive LexProg where
  | done
  | look (k : Option Char → LexProg)
  | sees (p : Str) (k : Bool → LexProg)
  | op (o : LexOp) (k : Bool → LexProg)
  /-- run `body`; if that moved, record a token over what was consumed; go on -/
  | spanned (kind : Nat) (body next : LexProg)

def LexProg.Valid : LexProg → Prop
  | .done => True
  | .look k => ∀ c, (k c).Valid
  | .sees _ k => ∀ b, (k b).Valid
  | .op o k => o.Valid ∧ ∀ b, (k b).Valid
  | .spanned _ body next => body.Valid ∧ next.Valid

def LexProg.run (src : Source) (st : Lex) : LexProg → Run Lex
  | .done => .ok st
  | .look k => do let (st, c) ← st.peek src; (k c).run src st
  | .sees p k => do let (st, b) ← st.startsWith src p; (k b).run src st
  | .op o k => do let (st, b) ← o.run src st; (k b).run src st
  | .spanned kind body next => do
    let st' ← body.run src st
    next.run src (if st.pos < st'.pos then st'.addToken kind st.pos st'.pos else st')

/-- A token that is not empty and lies between two positions. -/
def TokenWithin (lo hi : Nat) (t : Tok) : Prop := lo ≤ t.start ∧ t.start < t.stop ∧ t.stop ≤ hi

end Oaks.Spec
