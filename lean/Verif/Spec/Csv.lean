import Verif.Model.Csv
import Verif.Spec.Pieces
import Verif.Spec.Parser

/-
CSV texts: what the tokens of a text are, documents and how they are written, the rows a tree shows.
-/
namespace Oaks.Spec
open Oaks

/-- The inside of a quoted field: characters other than the quote, and doubled quotes. -/
inductive QuotedBody (q : Char) : Str → Prop where
  | nil : QuotedBody q []
  | plain {c s} : c ≠ q → QuotedBody q s → QuotedBody q (c :: s)
  | doubled {s} : QuotedBody q s → QuotedBody q (q :: q :: s)

def isCsvBlank (c : Char) : Prop := c = ' ' ∨ c = '\t'
def isCsvEol (c : Char) : Prop := c = '\n' ∨ c = '\r'

/-- `m`, followed by `rest`, is a token of kind `k`. -/
inductive CsvToken (sep q : Char) : Option Nat → Str → Str → Prop where
  | blank {m rest} : (∀ c ∈ m, isCsvBlank c) → (∀ c, rest.head? = some c → ¬ isCsvBlank c) →
      CsvToken sep q (some CsvLexer.whitespace) m rest
  | lf {rest} : CsvToken sep q (some CsvLexer.newline) ['\n'] rest
  | crlf {rest} : CsvToken sep q (some CsvLexer.newline) ['\r', '\n'] rest
  | cr {rest} : rest.head? ≠ some '\n' → CsvToken sep q (some CsvLexer.newline) ['\r'] rest
  | separator {rest} : ¬ isCsvBlank sep → ¬ isCsvEol sep → CsvToken sep q (some CsvLexer.comma) [sep] rest
  | quoted {body rest} : ¬ isCsvBlank q → ¬ isCsvEol q → q ≠ sep → QuotedBody q body → rest.head? ≠ some q →
      CsvToken sep q (some CsvLexer.field) (q :: (body ++ [q])) rest
  | unterminated {body} : ¬ isCsvBlank q → ¬ isCsvEol q → q ≠ sep → QuotedBody q body →
      CsvToken sep q (some CsvLexer.field) (q :: body) []
  | unquoted {c s rest} : ¬ isCsvBlank c → c ≠ q → (∀ d ∈ c :: s, d ≠ sep ∧ ¬ isCsvEol d) →
      (∀ d, rest.head? = some d → d = sep ∨ isCsvEol d) →
      CsvToken sep q (some CsvLexer.field) (c :: s) rest

/-- A field as a document has it. -/
inductive CsvField where
  | plain (s : Str)
  | quoted (s : Str)

/-- How it is written: quotes inside a quoted field are doubled. -/
def CsvField.text : CsvField → Str
  | .plain s => s
  | .quoted s => '"' :: (s.flatMap (fun c => if c = '"' then ['"', '"'] else [c]) ++ ['"'])

/-- A plain field has no separator and no line end, and does not begin with a quote or a blank. -/
def CsvField.Valid : CsvField → Prop
  | .plain s => (∀ c ∈ s, c ≠ ',' ∧ ¬ isCsvEol c) ∧ ∀ c, s.head? = some c → c ≠ '"' ∧ ¬ isCsvBlank c
  | .quoted _ => True

/-- A cell: blanks, then a field. -/
structure CsvCell where
  blanks : Str
  field : CsvField

def CsvCell.text (c : CsvCell) : Str := c.blanks ++ c.field.text
def CsvCell.Valid (c : CsvCell) : Prop := (∀ x ∈ c.blanks, isCsvBlank x) ∧ c.field.Valid

/-- A row: a first cell, more cells, and how the line ends. -/
structure CsvRow where
  first : CsvCell
  more : List CsvCell
  ending : Str

def CsvRow.cells (r : CsvRow) : List CsvCell := r.first :: r.more

/-- The cells with separators between them. -/
def CsvRow.line (r : CsvRow) : Str := r.first.text ++ r.more.flatMap (fun c => ',' :: c.text)

def CsvRow.text (r : CsvRow) : Str := r.line ++ r.ending

/-- The text of a document. -/
def csvText (rows : List CsvRow) : Str := rows.flatMap CsvRow.text

/-- Each row is written with a line end (a lone carriage return is not followed by a line feed); the last row
may have none, unless it is a single empty field: then nothing at all would be written for it. -/
inductive CsvRows : List CsvRow → Prop where
  | nil : CsvRows []
  | last {r} : (∀ c ∈ r.cells, c.Valid) → r.ending = [] → ¬ (r.more = [] ∧ r.first.field.text = []) → CsvRows [r]
  | cons {r rs} : (∀ c ∈ r.cells, c.Valid) → (r.ending = ['\n'] ∨ r.ending = ['\r', '\n'] ∨
      r.ending = ['\r'] ∧ (csvText rs).head? ≠ some '\n') → CsvRows rs → CsvRows (r :: rs)

/-- Of a row of siblings that begins at byte `o`, the elements of kind `k` that are nodes, each with the
offset it begins at. -/
def nodesAt (k : Nat) (o : Nat) : List Green → List (Green × Nat)
  | [] => []
  | .node k' n cs :: gs =>
    (if k' = k then [(Green.node k' n cs, o)] else []) ++ nodesAt k (o + bytesBelow (.node k' n cs)) gs
  | .leaf k' n m :: gs => nodesAt k (o + bytesBelow (.leaf k' n m)) gs

/-- The rows of a tree over a text: for each record node, for each field node in it, the bytes it covers. -/
def csvRowsOf (t : Str) (root : Green) : List (List (List UInt8)) :=
  (nodesAt CsvParser.record 0 (childrenOf root)).map fun (r, o) =>
    (nodesAt CsvParser.fieldNode o (childrenOf r)).map fun (f, o') => bytesAt t o' (bytesBelow f)

end Oaks.Spec
