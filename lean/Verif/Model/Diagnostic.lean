import Verif.Model.LineMap
import Verif.Model.Highlight

/-
Model of `projects/oak-diagnostic/src/lib.rs`: labels for errors and the emitters.

Simplifications: the message is the one already chosen between localizer and default (225, 365, 470,
588); the text of error kinds and their i18n arguments are left out; `serde_json`'s printing of the
LSP value is not modelled, the value is.
-/
namespace Oaks

/-- `Label` (oak-diagnostic/src/lib.rs:29-37). -/
structure DLabel where
  message : Option Str
  start : Nat
  stop : Nat
  color : Option Str
deriving DecidableEq

/-- `Severity` (oak-diagnostic/src/lib.rs:18-25). -/
inductive Severity where
  | error | warning | advice
deriving DecidableEq

/-- `Diagnostic` (oak-diagnostic/src/lib.rs:41-56) with the chosen message. -/
structure Diag where
  code : Option Str
  message : Str
  severity : Severity
  labels : List DLabel
  help : Option Str
deriving DecidableEq

/-- The error kinds that `to_diagnostic` tells apart (oak-diagnostic/src/lib.rs:137-165): those with an
offset that get a label, `UnexpectedEof` (which has an offset, errors/mod.rs:146-150), and the others. -/
inductive ErrKind where
  | syntaxError (offset : Nat)
  | unexpectedCharacter (offset : Nat)
  | unexpectedToken (offset : Nat)
  | expectedToken (offset : Nat)
  | expectedName (offset : Nat)
  | trailingComma (offset : Nat)
  | unexpectedEof (offset : Nat)
  | other

/-- The label added at `offset` (oak-diagnostic/src/lib.rs:140-142 and the same lines below). -/
def errorLabel (src : Source) (offset : Nat) : DLabel :=
  let start := min offset src.length
  let stop := min (start + 1) src.length
  ⟨some (lit "here"), start, stop, none⟩

/-- The labels of `to_diagnostic` (oak-diagnostic/src/lib.rs:130-168). -/
def errorLabels (src : Source) : ErrKind → List DLabel
  | .syntaxError o => [errorLabel src o]
  | .unexpectedCharacter o => [errorLabel src o]
  | .unexpectedToken o => [errorLabel src o]
  | .expectedToken o => [errorLabel src o]
  | .expectedName o => [errorLabel src o]
  | .trailingComma o => [errorLabel src o]
  | .unexpectedEof _ => []
  | .other => []

/-- `str::split_inclusive('\n')` (standard library), the first half of `str::lines` (oak-diagnostic/src/lib.rs:211, 356, 463). -/
def splitInclusive : Str → List Str
  | [] => []
  | c :: s =>
    if c = '\n' then [c] :: splitInclusive s
    else
      match splitInclusive s with
      | [] => [[c]]
      | l :: ls => (c :: l) :: ls

/-- The closure of `str::lines` (standard library; oak-diagnostic/src/lib.rs:211): strip a final `\n`, and then a final `\r`. -/
def chompLine (l : Str) : Str :=
  if l.getLast? = some '\n' then
    if l.dropLast.getLast? = some '\r' then l.dropLast.dropLast else l.dropLast
  else l

/-- `str::lines` (standard library; oak-diagnostic/src/lib.rs:211, 356, 463). -/
def rustLines (s : Str) : List Str := (splitInclusive s).map chompLine

/-- `{:>width$}` (standard library; oak-diagnostic/src/lib.rs:289, 411). -/
def padLeft (width : Nat) (s : Str) : Str := List.replicate (width - s.length) ' ' ++ s

/-- `Characters` (oak-diagnostic/src/lib.rs:248-263). -/
structure Chars where
  vbar : Str
  hbar : Str
  ltop : Str
  lbot : Str

/-- `Characters::unicode`, `Characters::ascii` (oak-diagnostic/src/lib.rs:255-263). -/
def Chars.of (unicode : Bool) : Chars :=
  if unicode then ⟨lit "│", lit "─", lit "┌", lit "└"⟩ else ⟨lit "|", lit "_", lit "/", lit "|"⟩

/-- The variables `start_line`, `end_line`, `start_col`, `end_col` (oak-diagnostic/src/lib.rs:269-276, 392-399, 498-505). -/
structure SnipPos where
  startLine : Nat
  endLine : Nat
  startCol : Nat
  endCol : Nat

/-- Their computation, the same in the three emitters (oak-diagnostic/src/lib.rs:268-275, 391-398,
497-504). -/
def snipPos (src : Source) (m : LineMap) (full : Str) (l : DLabel) : Run SnipPos := do
  let s ← m.offsetToLineCol src l.start
  let e ← m.offsetToLineCol src l.stop
  let ss := (m.lineStart s.1).getD 0
  let es := (m.lineStart e.1).getD 0
  return ⟨s.1, e.1, ((strGet full ss (min l.start (blen full))).getD []).length,
    ((strGet full es (min l.stop (blen full))).getD []).length⟩

/-- `underline_len` of a single-line label (oak-diagnostic/src/lib.rs:292, 413, 523). -/
def underlineLen (full : Str) (l : DLabel) : Nat :=
  max ((strGet full (min l.start (blen full)) (min l.stop (blen full))).getD []).length 1

/-- `str::repeat` (standard library; oak-diagnostic/src/lib.rs:278, 291-293). -/
def times (n : Nat) (s : Str) : Str := (List.replicate n s).flatten

/-- `uri.unwrap_or("<anonymous>")` (oak-diagnostic/src/lib.rs:281, 404, 508). -/
def urlStr (uri : Option Str) : Str := uri.getD (lit "<anonymous>")

/-! ### Plain text -/

/-- The message part at the end of an underline (oak-diagnostic/src/lib.rs:416-421, 438-443). -/
def plainMsg (l : DLabel) : Str :=
  match l.message with
  | some msg => lit " " ++ msg ++ lit "\n"
  | none => lit "\n"

/-- Body of the multi-line loop (oak-diagnostic/src/lib.rs:425-449) for line `i`. -/
def plainRow (c : Chars) (lines : List Str) (p : SnipPos) (width : Nat) (l : DLabel) (i : Nat) : Str :=
  match lines[i]? with
  | none => []
  | some text =>
    if i = p.startLine then
      padLeft width (natStr (i + 1)) ++ lit " " ++ c.vbar ++ lit " " ++ c.ltop ++ text ++ lit "\n"
    else if i = p.endLine then
      padLeft width (natStr (i + 1)) ++ lit " " ++ c.vbar ++ lit " " ++ c.vbar ++ text ++ lit "\n" ++
      (times width (lit " ") ++ lit " " ++ c.vbar ++ lit " " ++ c.lbot ++ times p.endCol c.hbar ++
        times (max p.endCol 1) (lit "^")) ++ plainMsg l
    else
      padLeft width (natStr (i + 1)) ++ lit " " ++ c.vbar ++ lit " " ++ c.vbar ++ text ++ lit "\n"

/-- The part of `render_snippet` between the location and the last line, for a single-line label
(oak-diagnostic/src/lib.rs:410-422). -/
def plainSingle (c : Chars) (full : Str) (lines : List Str) (p : SnipPos) (width : Nat) (l : DLabel) : Str :=
  match lines[p.startLine]? with
  | none => []
  | some text =>
    padLeft width (natStr (p.startLine + 1)) ++ lit " " ++ c.vbar ++ lit " " ++ text ++ lit "\n" ++
    (times width (lit " ") ++ lit " " ++ c.vbar ++ lit " " ++ times p.startCol (lit " ") ++
      times (underlineLen full l) (lit "^")) ++ plainMsg l

/-- `PlainTextEmitter::render_snippet` (oak-diagnostic/src/lib.rs:389-452); what it appends. -/
def plainSnippet (unicode : Bool) (src : Source) (m : LineMap) (full : Str) (lines : List Str) (l : DLabel)
    (uri : Option Str) : Run Str := do
  let c := Chars.of unicode
  let p ← snipPos src m full l
  let width := (natStr (p.endLine + 1)).length
  let pad := times width (lit " ")
  return lit "  " ++ c.ltop ++ lit " at " ++ urlStr uri ++ lit ":" ++
      (natStr (p.startLine + 1) ++ lit ":" ++ natStr (p.startCol + 1)) ++ lit "\n" ++
    (pad ++ lit " " ++ c.vbar ++ lit "\n") ++
    (if p.startLine = p.endLine then plainSingle c full lines p width l
      else (List.range (p.endLine + 1 - p.startLine)).flatMap fun j => plainRow c lines p width l (p.startLine + j)) ++
    (pad ++ lit " " ++ c.vbar ++ lit "\n")

/-- `sev_name` (oak-diagnostic/src/lib.rs:214-218, 359-363, 464-468). -/
def sevName : Severity → Str
  | .error => lit "error"
  | .warning => lit "warning"
  | .advice => lit "advice"

/-- `PlainTextEmitter::render_localized` (oak-diagnostic/src/lib.rs:352-385). -/
def renderPlain (unicode : Bool) (src : Source) (d : Diag) (uri : Option Str) : Run Str := do
  let m ← LineMap.fromSource src src.length
  let full ← src.textIn 0 src.length
  let lines := rustLines full
  let header := lit "[" ++ d.code.getD (sevName d.severity) ++ lit "] " ++ d.message ++ lit "\n"
  let snippets ← d.labels.mapM fun l => plainSnippet unicode src m full lines l uri
  return header ++ snippets.flatten ++
    (match d.help with | some h => lit "\nhelp: " ++ h ++ lit "\n" | none => [])

/-! ### Console -/

/-- `\x1b[34m … \x1b[0m` around the bar (oak-diagnostic/src/lib.rs:283-335). -/
def blue (s : Str) : Str := lit "\x1b[34m" ++ s ++ lit "\x1b[0m"

/-- `label.color.as_deref().unwrap_or("\x1b[31;1m")` (oak-diagnostic/src/lib.rs:295, 308). -/
def labelColor (l : DLabel) : Str := l.color.getD (lit "\x1b[31;1m")

/-- Body of the multi-line loop (oak-diagnostic/src/lib.rs:309-333) for line `i`. -/
def consoleRow (c : Chars) (lines : List Str) (p : SnipPos) (width : Nat) (l : DLabel) (i : Nat) : Str :=
  match lines[i]? with
  | none => []
  | some text =>
    if i = p.startLine then
      padLeft width (natStr (i + 1)) ++ lit " " ++ blue c.vbar ++ lit " " ++ labelColor l ++ c.ltop ++ lit "\x1b[0m" ++
        lit " " ++ text ++ lit "\n"
    else if i = p.endLine then
      padLeft width (natStr (i + 1)) ++ lit " " ++ blue c.vbar ++ lit " " ++ labelColor l ++ c.vbar ++ lit "\x1b[0m" ++
        lit " " ++ text ++ lit "\n" ++
      (times width (lit " ") ++ lit " " ++ blue c.vbar ++ lit " " ++ labelColor l ++ c.lbot ++ times p.endCol c.hbar ++
        times (max p.endCol 1) (lit "^")) ++
      (match l.message with
        | some msg => lit " " ++ msg ++ lit "\x1b[0m\n"
        | none => lit "\x1b[0m\n")
    else
      padLeft width (natStr (i + 1)) ++ lit " " ++ blue c.vbar ++ lit " " ++ labelColor l ++ c.vbar ++ lit "\x1b[0m" ++
        lit " " ++ text ++ lit "\n"

/-- The part for a single-line label (oak-diagnostic/src/lib.rs:288-304). -/
def consoleSingle (c : Chars) (full : Str) (lines : List Str) (p : SnipPos) (width : Nat) (l : DLabel) : Str :=
  match lines[p.startLine]? with
  | none => []
  | some text =>
    padLeft width (natStr (p.startLine + 1)) ++ lit " " ++ blue c.vbar ++ lit " " ++ text ++ lit "\n" ++
    (times width (lit " ") ++ lit " " ++ blue c.vbar ++ lit " " ++ times p.startCol (lit " ") ++ labelColor l ++
      times (underlineLen full l) (lit "^") ++ lit "\x1b[0m") ++ plainMsg l

/-- `ConsoleEmitter::render_snippet` (oak-diagnostic/src/lib.rs:266-336). -/
def consoleSnippet (unicode : Bool) (src : Source) (m : LineMap) (full : Str) (lines : List Str) (l : DLabel)
    (uri : Option Str) : Run Str := do
  let c := Chars.of unicode
  let p ← snipPos src m full l
  let width := (natStr (p.endLine + 1)).length
  let pad := times width (lit " ")
  return lit "  " ++ blue c.ltop ++ lit " at " ++ urlStr uri ++ lit ":" ++
      (natStr (p.startLine + 1) ++ lit ":" ++ natStr (p.startCol + 1)) ++ lit "\n" ++
    (pad ++ lit " " ++ blue c.vbar ++ lit "\n") ++
    (if p.startLine = p.endLine then consoleSingle c full lines p width l
      else (List.range (p.endLine + 1 - p.startLine)).flatMap fun j => consoleRow c lines p width l (p.startLine + j)) ++
    (pad ++ lit " " ++ blue c.vbar ++ lit "\n")

/-- `sev_color` (oak-diagnostic/src/lib.rs:219-223). -/
def sevColor : Severity → Str
  | .error => lit "\x1b[31;1m"
  | .warning => lit "\x1b[33;1m"
  | .advice => lit "\x1b[36;1m"

/-- `ConsoleEmitter::render_localized` (oak-diagnostic/src/lib.rs:207-245). -/
def renderConsole (unicode : Bool) (src : Source) (d : Diag) (uri : Option Str) : Run Str := do
  let m ← LineMap.fromSource src src.length
  let full ← src.textIn 0 src.length
  let lines := rustLines full
  let header := sevColor d.severity ++ lit "[" ++ d.code.getD (sevName d.severity) ++ lit "]\x1b[0m " ++ d.message ++ lit "\n"
  let snippets ← d.labels.mapM fun l => consoleSnippet unicode src m full lines l uri
  return header ++ snippets.flatten ++
    (match d.help with | some h => lit "\n\x1b[36;1mhelp\x1b[0m: " ++ h ++ lit "\n" | none => [])

/-! ### HTML -/

/-- The message part (oak-diagnostic/src/lib.rs:526-529, 546-549). -/
def htmlMsg (l : DLabel) : Str :=
  (match l.message with
    | some msg => lit " <span class=\"label-msg\">" ++ htmlEscapeDiag msg ++ lit "</span>"
    | none => []) ++ lit "\n"

/-- The start of a quoted line in HTML (oak-diagnostic/src/lib.rs:520, 537, 540, 552). -/
def htmlNum (width n : Nat) : Str :=
  lit "<span class=\"line-num\">" ++ padLeft width (natStr n) ++ lit "</span> <span class=\"vbar\">│</span> "

/-- Body of the multi-line loop (oak-diagnostic/src/lib.rs:533-555) for line `i`. -/
def htmlRow (lines : List Str) (p : SnipPos) (width : Nat) (l : DLabel) (i : Nat) : Str :=
  match lines[i]? with
  | none => []
  | some text =>
    if i = p.startLine then
      htmlNum width (i + 1) ++ lit "<span class=\"multiline\">┌</span>" ++ htmlEscapeDiag text ++ lit "\n"
    else if i = p.endLine then
      htmlNum width (i + 1) ++ lit "<span class=\"multiline\">│</span>" ++ htmlEscapeDiag text ++ lit "\n" ++
      (lit "<span class=\"padding\">" ++ times width (lit " ") ++
        lit "</span> <span class=\"vbar\">│</span> <span class=\"multiline\">└</span><span class=\"underline\">" ++
        times p.endCol (lit "─") ++ lit "</span>") ++
      (lit "<span class=\"underline\">" ++ times (max p.endCol 1) (lit "^") ++ lit "</span>") ++ htmlMsg l
    else
      htmlNum width (i + 1) ++ lit "<span class=\"multiline\">│</span>" ++ htmlEscapeDiag text ++ lit "\n"

/-- The part for a single-line label (oak-diagnostic/src/lib.rs:519-530). -/
def htmlSingle (full : Str) (lines : List Str) (p : SnipPos) (width : Nat) (l : DLabel) : Str :=
  match lines[p.startLine]? with
  | none => []
  | some text =>
    htmlNum width (p.startLine + 1) ++ htmlEscapeDiag text ++ lit "\n" ++
    (lit "<span class=\"padding\">" ++ times width (lit " ") ++
      lit "</span> <span class=\"vbar\">│</span> <span class=\"underline\">" ++ times p.startCol (lit " ") ++
      times (underlineLen full l) (lit "^") ++ lit "</span>") ++ htmlMsg l

/-- The line with the bar only (oak-diagnostic/src/lib.rs:516, 557). -/
def htmlBar (width : Nat) : Str :=
  lit "<span class=\"padding\">" ++ times width (lit " ") ++ lit "</span> <span class=\"vbar\">│</span>\n"

/-- `HtmlEmitter::render_snippet` (oak-diagnostic/src/lib.rs:496-560). -/
def htmlSnippet (src : Source) (m : LineMap) (full : Str) (lines : List Str) (l : DLabel) (uri : Option Str) : Run Str := do
  let p ← snipPos src m full l
  let width := (natStr (p.endLine + 1)).length
  return lit "  <div class=\"snippet\">\n" ++
    (lit "    <div class=\"location\">  ┌ at " ++ htmlEscapeDiag (urlStr uri) ++ lit ":" ++
      (natStr (p.startLine + 1) ++ lit ":" ++ natStr (p.startCol + 1)) ++ lit "</div>\n") ++
    lit "    <pre><code>" ++ htmlBar width ++
    (if p.startLine = p.endLine then htmlSingle full lines p width l
      else (List.range (p.endLine + 1 - p.startLine)).flatMap fun j => htmlRow lines p width l (p.startLine + j)) ++
    htmlBar width ++ lit "</code></pre>\n" ++ lit "  </div>\n"

/-- `HtmlEmitter::render_localized` (oak-diagnostic/src/lib.rs:459-492). -/
def renderHtml (src : Source) (d : Diag) (uri : Option Str) : Run Str := do
  let m ← LineMap.fromSource src src.length
  let full ← src.textIn 0 src.length
  let lines := rustLines full
  let header :=
    match d.code with
    | some code => lit "    <span class=\"code\">[" ++ code ++ lit "]</span> <span class=\"message\">" ++
        htmlEscapeDiag d.message ++ lit "</span>\n"
    | none => lit "    <span class=\"severity\">[" ++ sevName d.severity ++ lit "]</span> <span class=\"message\">" ++
        htmlEscapeDiag d.message ++ lit "</span>\n"
  let snippets ← d.labels.mapM fun l => htmlSnippet src m full lines l uri
  return lit "<div class=\"diagnostic\">\n" ++ (lit "  <div class=\"header " ++ sevName d.severity ++ lit "\">\n") ++
    header ++ lit "  </div>\n" ++ snippets.flatten ++
    (match d.help with | some h => lit "  <div class=\"help\">help: " ++ htmlEscapeDiag h ++ lit "</div>\n" | none => []) ++
    lit "</div>"

/-! ### LSP -/

/-- The value built by `LspEmitter` (oak-diagnostic/src/lib.rs:590-615). -/
structure LspDiag where
  range : (Nat × Nat) × (Nat × Nat)
  severity : Nat
  code : Str
  message : Str
  related : List (Str × ((Nat × Nat) × (Nat × Nat)) × Str)
deriving DecidableEq

/-- The two conversions of a label's ends (oak-diagnostic/src/lib.rs:574-575, 601-602). -/
def lspRange (src : Source) (m : LineMap) (l : DLabel) : Run ((Nat × Nat) × (Nat × Nat)) := do
  let s ← m.offsetToLineCol src l.start
  let e ← m.offsetToLineCol src l.stop
  return (s, e)

/-- The closure of `filter_map` (oak-diagnostic/src/lib.rs:599-613). -/
def lspRelated (src : Source) (m : LineMap) (uri : Option Str) : List DLabel →
    Run (List (Str × ((Nat × Nat) × (Nat × Nat)) × Str))
  | [] => .ok []
  | l :: ls =>
    match l.message with
    | none => lspRelated src m uri ls
    | some msg => do
      let r ← lspRange src m l
      return (uri.getD [], r, msg) :: (← lspRelated src m uri ls)

/-- `LspEmitter::render_localized` (oak-diagnostic/src/lib.rs:571-618) up to printing. -/
def renderLsp (src : Source) (d : Diag) (uri : Option Str) : Run LspDiag := do
  let m ← LineMap.fromSource src src.length
  let range ← match d.labels with
    | l :: _ => lspRange src m l
    | [] => pure ((0, 0), (0, 0))
  let severity := match d.severity with | .error => 1 | .warning => 2 | .advice => 3
  return ⟨range, severity, d.code.getD [], d.message, ← lspRelated src m uri d.labels⟩

end Oaks
