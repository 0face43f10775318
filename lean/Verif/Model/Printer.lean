import Verif.Base.Str

/-
Model of `projects/oak-pretty-print/src/document/{mod,printer}.rs`: documents and the printer, and of
the parts of `config/mod.rs` the printer reads.

Strings are written newest character last, as in the code. `Cow` is not modelled.
-/
namespace Oaks

/-- `LineEnding` (config/mod.rs:22-29); `auto` carries whether the target is Windows (`cfg!`). -/
inductive LineEnding where
  | auto (windows : Bool)
  | unix
  | windows
deriving DecidableEq, Repr

/-- The fields of `FormatConfig` (config/mod.rs:40-63) that the printer reads. -/
structure FormatConfig where
  indentText : Str
  lineEnding : LineEnding
  maxWidth : Nat
  insertFinalNewline : Bool
  trimTrailing : Bool
  indentSize : Nat
deriving DecidableEq, Repr

/-- `line_ending_string` (config/mod.rs:120-132). -/
def FormatConfig.ending (c : FormatConfig) : Str :=
  match c.lineEnding with
  | .unix => ['\n']
  | .windows => ['\r', '\n']
  | .auto true => ['\r', '\n']
  | .auto false => ['\n']

/-- `IndentStyle` (config/mod.rs:6-11). -/
inductive IndentStyle where
  | spaces (count : Nat)
  | tabs
deriving DecidableEq, Repr

/-- `with_indent_style` (config/mod.rs:96-105). -/
def FormatConfig.withIndentStyle (c : FormatConfig) : IndentStyle → FormatConfig
  | .spaces n => { c with indentText := List.replicate n ' ', indentSize := n }
  | .tabs => { c with indentText := ['\t'], indentSize := 4 }

/-- `FormatConfig::default` (config/mod.rs:65-87), `LineEnding::default` being `Auto`. -/
def FormatConfig.default (windows : Bool) : FormatConfig :=
  ⟨List.replicate 4 ' ', .auto windows, 100, true, true, 4⟩

/-- `Document` (document/mod.rs:11-30). -/
inductive Doc where
  | nil
  | text (s : Str)
  | concat (docs : List Doc)
  | group (d : Doc)
  | indent (d : Doc)
  | line
  | softLine
  | softLineSpace
  | hardLine

/-- The loop of `join` (document/mod.rs:107-113): index and documents still to come, result so far. -/
def docJoinLoop (sep : Doc) : Nat → List Doc → List Doc → List Doc
  | _, [], result => result
  | i, d :: ds, result => docJoinLoop sep (i + 1) ds ((if i > 0 then result ++ [sep] else result) ++ [d])

/-- `Document::join` (document/mod.rs:103-115). -/
def docJoin (docs : List Doc) (sep : Doc) : Doc := .concat (docJoinLoop sep 0 docs [])

/-- `Printer { output, indent_level, column }` (printer.rs:5-10); the configuration is passed along. -/
structure Printer where
  output : Str
  indentLevel : Nat
  column : Nat
deriving DecidableEq, Repr

/-- `Printer::new` (printer.rs:14-16). -/
def Printer.new : Printer := ⟨[], 0, 0⟩

/-- Removing blanks from the end: the loop of `newline` (printer.rs:86-88), and
`trim_end_matches([' ', '\t'])` (printer.rs:27). -/
def trimEnd (s : Str) : Str := (s.reverse.dropWhile fun c => c = ' ' || c = '\t').reverse

/-- `write_indent` (printer.rs:95-99). -/
def Printer.writeIndent (cfg : FormatConfig) (p : Printer) : Printer :=
  { p with output := p.output ++ (List.replicate p.indentLevel cfg.indentText).flatten }

/-- `newline` (printer.rs:84-93). -/
def Printer.newline (cfg : FormatConfig) (p : Printer) : Printer :=
  let p := if cfg.trimTrailing then { p with output := trimEnd p.output } else p
  let p := { p with output := p.output ++ cfg.ending }
  let p := p.writeIndent cfg
  { p with column := p.indentLevel * cfg.indentSize }

mutual
/-- `check_width` (printer.rs:107-144): the answer and the width after it. -/
def checkWidth (maxWidth : Nat) : Doc → Nat → Bool × Nat
  | .nil, w => if w > maxWidth then (true, w) else (false, w)
  | .text s, w => if w > maxWidth then (true, w) else (decide (w + blen s > maxWidth), w + blen s)
  | .concat ds, w => if w > maxWidth then (true, w) else checkWidthAll maxWidth ds w
  | .group d, w => if w > maxWidth then (true, w) else checkWidth maxWidth d w
  | .indent d, w => if w > maxWidth then (true, w) else checkWidth maxWidth d w
  | .line, w => if w > maxWidth then (true, w) else (decide (w + 1 > maxWidth), w + 1)
  | .softLine, w => if w > maxWidth then (true, w) else (false, w)
  | .softLineSpace, w => if w > maxWidth then (true, w) else (decide (w + 1 > maxWidth), w + 1)
  | .hardLine, w => if w > maxWidth then (true, w) else (true, w)
/-- The loop of `check_width` over a concatenation (printer.rs:119-124). -/
def checkWidthAll (maxWidth : Nat) : List Doc → Nat → Bool × Nat
  | [], w => (false, w)
  | d :: ds, w =>
    match checkWidth maxWidth d w with
    | (true, w) => (true, w)
    | (false, w) => checkWidthAll maxWidth ds w
end

/-- `will_break` (printer.rs:102-105). -/
def Printer.willBreak (cfg : FormatConfig) (p : Printer) (d : Doc) : Bool :=
  (checkWidth cfg.maxWidth d p.column).1

/-- The `Text` branch of `render` (printer.rs:37-40), also used for a pushed space (62-63, 76-77). -/
def Printer.put (p : Printer) (s : Str) : Printer :=
  { p with output := p.output ++ s, column := p.column + blen s }

mutual
/-- `render` (printer.rs:34-82). -/
def render (cfg : FormatConfig) : Doc → Bool → Printer → Printer
  | .nil, _, p => p
  | .text s, _, p => p.put s
  | .concat ds, isBroken, p => renderAll cfg ds isBroken p
  | .group d, _, p => render cfg d (p.willBreak cfg d) p
  | .indent d, isBroken, p =>
    let p := { p with indentLevel := p.indentLevel + 1 }
    let p := render cfg d isBroken p
    { p with indentLevel := p.indentLevel - 1 }
  | .line, isBroken, p => if isBroken then p.newline cfg else p.put [' ']
  | .softLine, isBroken, p => if isBroken then p.newline cfg else p
  | .softLineSpace, isBroken, p => if isBroken then p.newline cfg else p.put [' ']
  | .hardLine, _, p => p.newline cfg
/-- The loop of `render` over a concatenation (printer.rs:42-44). -/
def renderAll (cfg : FormatConfig) : List Doc → Bool → Printer → Printer
  | [], _, p => p
  | d :: ds, isBroken, p => renderAll cfg ds isBroken (render cfg d isBroken p)
end

/-- `finalize` (printer.rs:25-32). -/
def finalize (cfg : FormatConfig) (output : Str) : Str :=
  let output := if cfg.trimTrailing then trimEnd output else output
  if cfg.insertFinalNewline && !output.isEmpty && !(output.getLast? == some '\n') then
    output ++ cfg.ending
  else output

/-- `print` (printer.rs:19-23), which is `Document::render` (document/mod.rs:78-80). -/
def printDoc (cfg : FormatConfig) (d : Doc) : Str := finalize cfg (render cfg d false Printer.new).output

end Oaks
