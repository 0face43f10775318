import Verif.Base.Str
import Verif.Model.Visit

/-
Model of `projects/oak-highlight/src/{highlighter,exporters}/mod.rs`, and of `html_escape` of
`projects/oak-diagnostic/src/lib.rs`. Paths below without a crate are in `oak-highlight/src`.

`Cow` is not modelled. A theme's style table is a function from scope to style.
-/
namespace Oaks

/-! ## Escaping -/

/-- `char::is_control` (standard library; exporters/mod.rs:19): general category Cc, which is U+0000-U+001F and U+007F-U+009F. -/
def isControl (c : Char) : Bool := decide (c.toNat < 0x20) || (decide (0x7f ≤ c.toNat) && decide (c.toNat ≤ 0x9f))

/-- A lower case hexadecimal digit of `{:04x}` (standard library; exporters/mod.rs:19). -/
def hexDigit (n : Nat) : Char := Char.ofNat (if n < 10 then 48 + n else 87 + n)

/-- `format!("{:04x}", n)` for `n < 65536`; it is used for control characters only. -/
def hex4 (n : Nat) : Str := [hexDigit (n / 4096 % 16), hexDigit (n / 256 % 16), hexDigit (n / 16 % 16), hexDigit (n % 16)]

/-- One step of the loop of `json_escape` (exporters/mod.rs:11-21). -/
def jsonEscapeChar (c : Char) : Str :=
  if c = '"' then ['\\', '"']
  else if c = '\\' then ['\\', '\\']
  else if c = '\x08' then ['\\', 'b']
  else if c = '\x0c' then ['\\', 'f']
  else if c = '\n' then ['\\', 'n']
  else if c = '\r' then ['\\', 'r']
  else if c = '\t' then ['\\', 't']
  else if isControl c then '\\' :: 'u' :: hex4 c.toNat
  else [c]

/-- `json_escape` (exporters/mod.rs:8-24). -/
def jsonEscape (s : Str) : Str := s.flatMap jsonEscapeChar

/-- The closure of `html_escape` (exporters/mod.rs:266-273). -/
def htmlEscapeChar (c : Char) : Str :=
  if c = '<' then ['&', 'l', 't', ';']
  else if c = '>' then ['&', 'g', 't', ';']
  else if c = '&' then ['&', 'a', 'm', 'p', ';']
  else if c = '"' then ['&', 'q', 'u', 'o', 't', ';']
  else if c = '\'' then ['&', '#', '3', '9', ';']
  else [c]

/-- `html_escape` (exporters/mod.rs:264-275). -/
def htmlEscape (s : Str) : Str := s.flatMap htmlEscapeChar

/-- `str::replace(char, &str)` (standard library; oak-diagnostic/src/lib.rs:564). -/
def replaceCh (ch : Char) (by' : Str) (s : Str) : Str := s.flatMap fun c => if c = ch then by' else [c]

/-- `html_escape` of oak-diagnostic/src/lib.rs:563-565. -/
def htmlEscapeDiag (s : Str) : Str :=
  replaceCh '\'' ['&', '#', '3', '9', ';'] (replaceCh '"' ['&', 'q', 'u', 'o', 't', ';']
    (replaceCh '>' ['&', 'g', 't', ';'] (replaceCh '<' ['&', 'l', 't', ';']
      (replaceCh '&' ['&', 'a', 'm', 'p', ';'] s))))

/-! ## Themes -/

/-- `HighlightStyle` (highlighter/mod.rs:22-33). -/
structure Style where
  color : Option Str
  background : Option Str
  bold : Bool
  italic : Bool
  underline : Bool
deriving DecidableEq, Repr

/-- `HighlightStyle::default` (highlighter/mod.rs:36-38). -/
def Style.default : Style := ⟨none, none, false, false, false⟩

/-- `HighlightTheme::styles` (highlighter/mod.rs:48). -/
abbrev Theme := Str → Option Style

/-- `current_scope.rfind('.')` and `&current_scope[..pos]` (highlighter/mod.rs:91, 115-116). -/
def parentScope (s : Str) : Option Str :=
  match s.reverse.dropWhile (fun c => decide (c ≠ '.')) with
  | [] => none
  | _ :: r => some r.reverse

/-- `self.styles.get("none").cloned().unwrap_or_default()` (highlighter/mod.rs:93, 125). -/
def noneStyle (t : Theme) : Style := (t ['n', 'o', 'n', 'e']).getD Style.default

/-- The loop of `resolve_style` (highlighter/mod.rs:86-92); fuel for the turns. -/
def resolveLoop (t : Theme) : Nat → Str → Run (Option Style)
  | 0, _ => .error .spin
  | fuel + 1, cur =>
    if cur = [] then .ok none
    else match t cur with
      | some st => .ok (some st)
      | none =>
        match parentScope cur with
        | some p => resolveLoop t fuel p
        | none => .ok none

/-- `resolve_style` (highlighter/mod.rs:85-94). -/
def resolveStyle (t : Theme) (scope : Str) : Run Style := do
  match ← resolveLoop t (scope.length + 1) scope with
  | some st => return st
  | none => return noneStyle t

/-- The inner loop of `resolve_styles` for one scope (highlighter/mod.rs:107-122), on the best style
and depth so far. `i32` depths are unbounded integers here. -/
def resolveInner (t : Theme) : Nat → Str → Int → Option Style × Int → Run (Option Style × Int)
  | 0, _, _, _ => .error .spin
  | fuel + 1, cur, depth, best =>
    if cur = [] then .ok best
    else match t cur with
      | some st => .ok (if depth > best.2 then (some st, depth) else best)
      | none =>
        match parentScope cur with
        | some p => resolveInner t fuel p (depth - 1) best
        | none => .ok best

/-- `scope.split('.').count()` (highlighter/mod.rs:105). -/
def splitCount (s : Str) : Nat := (s.filter (· = '.')).length + 1

/-- `resolve_styles` (highlighter/mod.rs:98-126). -/
def resolveStyles (t : Theme) (scopes : List Str) : Run Style := do
  let best ← scopes.foldlM (fun best sc => resolveInner t (sc.length + 1) sc (splitCount sc) best) (none, -1)
  match best.1 with
  | some st => return st
  | none => return noneStyle t

/-- `get_token_scopes` and `get_element_scopes` (highlighter/mod.rs:140-172, 175-207) on the names they
read; `cat` is the category prefix. -/
def tokenScopes (specific universal language cat : Str) : List Str :=
  [specific ++ '.' :: language] ++ (if specific ≠ universal then [specific] else []) ++
    [cat ++ '.' :: universal, universal, cat ++ '.' :: language]

/-! ## Segments -/

/-- `HighlightSegment` (highlighter/mod.rs:243-250). -/
structure Segment where
  start : Nat
  stop : Nat
  style : Style
  text : Str
deriving DecidableEq, Repr

/-- `HighlightVisitor::visit_token` (highlighter/mod.rs:283-291); the scopes of a token kind are given.
Slicing panics outside character boundaries. -/
def visitToken (t : Theme) (scopesOf : Nat → List Str) (source : Str) (l : Nat × Nat × Nat) (segs : List Segment) :
    Run (List Segment) := do
  let style ← resolveStyles t (scopesOf l.1)
  match strGet source l.2.1 l.2.2 with
  | none => .error .panic
  | some text => return segs ++ [⟨l.2.1, l.2.2, style, text⟩]

/-- `HighlightVisitor` run on a root as in `highlight_with_language` (highlighter/mod.rs:370-377);
`visit_node` (272-281) is the plain walk. -/
def highlightTree (t : Theme) (scopesOf : Nat → List Str) (source : Str) (fuel : Nat) (r : RedNode) :
    Run (List Segment) :=
  visitWith (fun _ s => .ok s) (visitToken t scopesOf source) fuel r []

/-- `OakHighlighter::highlight` (highlighter/mod.rs:347-356). -/
def highlightPlain (t : Theme) (source : Str) : Run (List Segment) := do
  return [⟨0, blen source, ← resolveStyle t ['n', 'o', 'n', 'e'], source⟩]

/-! ## Exporters -/

/-- `[str]::join` (standard library; exporters/mod.rs:120, 141, 198, 259). -/
def joinStr (sep : Str) (l : List Str) : Str := (l.intersperse sep).flatten

/-- A literal of the code as a list of characters (exporters/mod.rs:66-275 and oak-diagnostic/src/lib.rs). -/
def lit (s : String) : Str := s.toList

/-- `segment_to_html_inline` (exporters/mod.rs:95-121). -/
def htmlInline (s : Segment) : Str :=
  let attrs := (match s.style.color with | some c => [lit "color: " ++ c] | none => []) ++
    (match s.style.background with | some c => [lit "background-color: " ++ c] | none => []) ++
    (if s.style.bold then [lit "font-weight: bold"] else []) ++
    (if s.style.italic then [lit "font-style: italic"] else []) ++
    (if s.style.underline then [lit "text-decoration: underline"] else [])
  if attrs.isEmpty then htmlEscape s.text
  else lit "<span style=\"" ++ joinStr (lit "; ") attrs ++ lit "\">" ++ htmlEscape s.text ++ lit "</span>"

/-- `segment_to_html_class` (exporters/mod.rs:123-142). -/
def htmlClass (s : Segment) : Str :=
  let classes := (if s.style.bold then [lit "bold"] else []) ++ (if s.style.italic then [lit "italic"] else []) ++
    (if s.style.underline then [lit "underline"] else [])
  if classes.isEmpty then htmlEscape s.text
  else lit "<span class=\"" ++ joinStr (lit " ") classes ++ lit "\">" ++ htmlEscape s.text ++ lit "</span>"

/-- The `<style>` block (exporters/mod.rs:69-76). -/
def htmlCss : Str :=
  lit "<style>\n" ++ lit ".highlight { font-family: 'Courier New', monospace; white-space: pre }\n" ++
  lit ".highlight .bold { font-weight: bold }\n" ++ lit ".highlight .italic { font-style: italic }\n" ++
  lit ".highlight .underline { text-decoration: underline }\n" ++ lit "</style>\n"

/-- `HtmlExporter::export` (exporters/mod.rs:66-91). -/
def exportHtml (includeCss inlineStyles : Bool) (segs : List Segment) : Str :=
  (if includeCss then htmlCss else []) ++ lit "<div class=\"highlight\">" ++
    segs.flatMap (if inlineStyles then htmlInline else htmlClass) ++ lit "</div>"

/-- `usize::to_string` (standard library; exporters/mod.rs:180). -/
def natStr (n : Nat) : Str := (Nat.repr n).toList

/-- `format!("{}", bool)` (standard library; exporters/mod.rs:190-197). -/
def boolStr (b : Bool) : Str := if b then lit "true" else lit "false"

/-- The body of the loop of `JsonExporter::export` (exporters/mod.rs:180-201). -/
def jsonSegment (s : Segment) : Str :=
  lit "{\"span\":{\"start\":" ++ natStr s.start ++ lit ",\"end\":" ++ natStr s.stop ++ lit "},\"style\":{" ++
  joinStr (lit ",") ([lit "\"bold\":" ++ boolStr s.style.bold, lit "\"italic\":" ++ boolStr s.style.italic,
      lit "\"underline\":" ++ boolStr s.style.underline] ++
    (match s.style.color with | some c => [lit "\"color\":\"" ++ jsonEscape c ++ lit "\""] | none => []) ++
    (match s.style.background with | some c => [lit "\"background_color\":\"" ++ jsonEscape c ++ lit "\""] | none => [])) ++
  lit "},\"text\":\"" ++ jsonEscape s.text ++ lit "\"}"

/-- `JsonExporter::export` (exporters/mod.rs:172-209). -/
def exportJson (segs : List Segment) (source : Str) : Str :=
  lit "{\"segments\":[" ++ joinStr (lit ",") (segs.map jsonSegment) ++ lit "],\"source\":\"" ++ jsonEscape source ++
    lit "\"}"

/-- The colour table of `segment_to_ansi` (exporters/mod.rs:248-256). -/
def ansiColor (c : Str) : Str :=
  if c ∈ [lit "#FF0000", lit "#F44747", lit "#DC322F", lit "#FF5555"] then lit "31"
  else if c ∈ [lit "#00FF00", lit "#6A9955", lit "#859900"] then lit "32"
  else if c ∈ [lit "#FFFF00", lit "#F1FA8C", lit "#E6DB74"] then lit "33"
  else if c ∈ [lit "#0000FF", lit "#569CD6", lit "#005CC5"] then lit "34"
  else if c ∈ [lit "#FF00FF", lit "#FF79C6", lit "#D73A49"] then lit "35"
  else if c ∈ [lit "#00FFFF", lit "#9CDCFE", lit "#2AA198"] then lit "36"
  else lit "37"

/-- The codes collected by `segment_to_ansi` (exporters/mod.rs:229-257). -/
def ansiCodes (s : Segment) : List Str :=
  [lit "0"] ++ (if s.style.bold then [lit "1"] else []) ++ (if s.style.italic then [lit "3"] else []) ++
    (if s.style.underline then [lit "4"] else []) ++
    (match s.style.color with | some c => [ansiColor c] | none => [])

/-- `segment_to_ansi` (exporters/mod.rs:228-260). -/
def ansiSegment (s : Segment) : Str :=
  if (ansiCodes s).length > 1 then lit "\x1b[" ++ joinStr (lit ";") (ansiCodes s) ++ lit "m" ++ s.text ++ lit "\x1b[0m" else s.text

/-- `AnsiExporter::export` (exporters/mod.rs:216-224). -/
def exportAnsi (segs : List Segment) : Str := segs.flatMap ansiSegment

end Oaks
