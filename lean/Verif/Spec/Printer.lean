import Verif.Model.Printer

/-
What printing a document means, in lines; without columns, counters or an output buffer.
-/
namespace Oaks.Spec
open Oaks

/-- The texts of a document, in order. -/
def docText : Doc → Str
  | .text s => s
  | .concat [] => []
  | .concat (d :: ds) => docText d ++ docText (.concat ds)
  | .group d => docText d
  | .indent d => docText d
  | _ => []

/-- The document on one line; nothing when it contains a forced break. -/
def flatText : Doc → Option Str
  | .nil => some []
  | .text s => some s
  | .concat [] => some []
  | .concat (d :: ds) =>
    match flatText d, flatText (.concat ds) with
    | some a, some b => some (a ++ b)
    | _, _ => none
  | .group d => flatText d
  | .indent d => flatText d
  | .line => some [' ']
  | .softLine => some []
  | .softLineSpace => some [' ']
  | .hardLine => none

/-- The texts joined: each but the last followed by the separator. -/
def joinedText (sep : Str) : List Str → Str
  | [] => []
  | [t] => t
  | t :: u :: ts => t ++ sep ++ joinedText sep (u :: ts)

/-- A line under construction: how many indents it begins with, and its text after them. -/
abbrev PLine := Nat × Str

/-- The width of a line as the configuration counts it. -/
def lineWidth (cfg : FormatConfig) (l : PLine) : Nat := l.1 * cfg.indentSize + blen l.2

/-- `d` fits on the current line `l`. -/
def Fits (cfg : FormatConfig) (l : PLine) (d : Doc) : Prop :=
  ∃ f, flatText d = some f ∧ lineWidth cfg l + blen f ≤ cfg.maxWidth

/-- Printing: `Lays cfg broken k d ls ls'` means that `d`, standing inside `k` indents, with its own
breaks broken or not, takes the lines `ls` (newest first) to `ls'`. -/
inductive Lays (cfg : FormatConfig) : Bool → Nat → Doc → List PLine → List PLine → Prop where
  | nil {b k ls} : Lays cfg b k .nil ls ls
  | text {b k s l ls} : Lays cfg b k (.text s) (l :: ls) ((l.1, l.2 ++ s) :: ls)
  | none {b k ls} : Lays cfg b k (.concat []) ls ls
  | more {b k d ds ls ls' ls''} : Lays cfg b k d ls ls' → Lays cfg b k (.concat ds) ls' ls'' →
      Lays cfg b k (.concat (d :: ds)) ls ls''
  | fits {b k d l ls ls'} : Fits cfg l d → Lays cfg false k d (l :: ls) ls' →
      Lays cfg b k (.group d) (l :: ls) ls'
  | breaks {b k d l ls ls'} : ¬ Fits cfg l d → Lays cfg true k d (l :: ls) ls' →
      Lays cfg b k (.group d) (l :: ls) ls'
  | indent {b k d ls ls'} : Lays cfg b (k + 1) d ls ls' → Lays cfg b k (.indent d) ls ls'
  | lineFlat {k l ls} : Lays cfg false k .line (l :: ls) ((l.1, l.2 ++ [' ']) :: ls)
  | lineBroken {k ls} : Lays cfg true k .line ls ((k, []) :: ls)
  | softFlat {k ls} : Lays cfg false k .softLine ls ls
  | softBroken {k ls} : Lays cfg true k .softLine ls ((k, []) :: ls)
  | spaceFlat {k l ls} : Lays cfg false k .softLineSpace (l :: ls) ((l.1, l.2 ++ [' ']) :: ls)
  | spaceBroken {k ls} : Lays cfg true k .softLineSpace ls ((k, []) :: ls)
  | hard {b k ls} : Lays cfg b k .hardLine ls ((k, []) :: ls)

def isBlank (c : Char) : Prop := c = ' ' ∨ c = '\t'

/-- `t'` is `t` without the blanks at its end. -/
def Trimmed (t t' : Str) : Prop :=
  (∃ b, t = t' ++ b ∧ ∀ c ∈ b, isBlank c) ∧ ∀ c, t'.getLast? = some c → ¬ isBlank c

/-- `t` is the text of the line `l` with its indentation, without final blanks when these are to be
trimmed. -/
def LineText (cfg : FormatConfig) (l : PLine) (t : Str) : Prop :=
  if cfg.trimTrailing then Trimmed ((List.replicate l.1 cfg.indentText).flatten ++ l.2) t
  else t = (List.replicate l.1 cfg.indentText).flatten ++ l.2

/-- `t` is the text of the lines `ls` (newest first), separated by line endings. -/
inductive LinesText (cfg : FormatConfig) : List PLine → Str → Prop where
  | one {l t} : LineText cfg l t → LinesText cfg [l] t
  | more {l ls s t} : LinesText cfg ls s → LineText cfg l t → ls ≠ [] →
      LinesText cfg (l :: ls) (s ++ cfg.ending ++ t)

/-- Characters that are not blanks or parts of line endings. -/
def solid (s : Str) : Str := s.filter fun c => !(c = ' ' || c = '\t' || c = '\n' || c = '\r')

/-- The lines before the current one, each with its line ending. -/
def Before (cfg : FormatConfig) (ls : List PLine) (pre : Str) : Prop :=
  (ls = [] ∧ pre = []) ∨ (ls ≠ [] ∧ ∃ s, LinesText cfg ls s ∧ pre = s ++ cfg.ending)

/-- The printer is in the state given by the lines `ls`. -/
structure At (cfg : FormatConfig) (p : Printer) (k : Nat) (l : PLine) (ls : List PLine) : Prop where
  level : p.indentLevel = k
  column : p.column = lineWidth cfg l
  output : ∃ pre, Before cfg ls pre ∧
    p.output = pre ++ ((List.replicate l.1 cfg.indentText).flatten ++ l.2)

/-- `out` is `t`, with a line ending added when one is asked for, `t` has text and no newline at its end. -/
def Finished (cfg : FormatConfig) (t out : Str) : Prop :=
  if cfg.insertFinalNewline = true ∧ t ≠ [] ∧ t.getLast? ≠ some '\n' then out = t ++ cfg.ending else out = t

/-- How many breaks a document has of its own, outside groups inside it, forced breaks included. -/
def ownBreaks : Doc → Nat
  | .concat [] => 0
  | .concat (d :: ds) => ownBreaks d + ownBreaks (.concat ds)
  | .indent d => ownBreaks d
  | .line => 1
  | .softLine => 1
  | .softLineSpace => 1
  | .hardLine => 1
  | _ => 0

end Oaks.Spec
