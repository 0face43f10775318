import Verif.Model.Highlight

/-
What escaped texts, themes and highlighted pages mean: readers for JSON strings, HTML and terminal
escapes, and dotted prefixes.
-/
namespace Oaks.Spec
open Oaks

/-! ## JSON (RFC 8259) -/

/-- The value of a hexadecimal digit. -/
def hexVal (c : Char) : Option Nat :=
  if '0'.toNat ≤ c.toNat ∧ c.toNat ≤ '9'.toNat then some (c.toNat - 48)
  else if 'a'.toNat ≤ c.toNat ∧ c.toNat ≤ 'f'.toNat then some (c.toNat - 87)
  else if 'A'.toNat ≤ c.toNat ∧ c.toNat ≤ 'F'.toNat then some (c.toNat - 55)
  else none

/-- Four hexadecimal digits. -/
def hexVal4 (a b c d : Char) : Option Nat :=
  match hexVal a, hexVal b, hexVal c, hexVal d with
  | some a, some b, some c, some d => some (a * 4096 + b * 256 + c * 16 + d)
  | _, _, _, _ => none

/-- The character of a short escape. -/
def shortEscape (c : Char) : Option Char :=
  if c = '"' then some '"' else if c = '\\' then some '\\' else if c = '/' then some '/'
  else if c = 'b' then some '\x08' else if c = 'f' then some '\x0c' else if c = 'n' then some '\n'
  else if c = 'r' then some '\r' else if c = 't' then some '\t' else none

/-- Reading the inside of a JSON string up to its closing quote: the text read and what follows the
quote. Raw control characters below U+0020 are refused. A `\uXXXX` stands for that code point;
surrogates are refused (pairs are not needed below). -/
inductive ReadsString : Str → Str → Str → Prop where
  | close {rest} : ReadsString ('"' :: rest) [] rest
  | plain {c s t rest} : c ≠ '"' → c ≠ '\\' → 0x20 ≤ c.toNat → ReadsString s t rest →
      ReadsString (c :: s) (c :: t) rest
  | short {e c s t rest} : shortEscape e = some c → ReadsString s t rest → ReadsString ('\\' :: e :: s) (c :: t) rest
  | code {a b c d : Char} {n : Nat} {s t rest} : hexVal4 a b c d = some n → n.isValidChar →
      ReadsString s t rest → ReadsString ('\\' :: 'u' :: a :: b :: c :: d :: s) (Char.ofNat n :: t) rest

/-- JSON values, as far as the exporter needs them. -/
inductive JVal where
  | nat (n : Nat)
  | bool (b : Bool)
  | str (s : Str)
  | arr (vs : List JVal)
  | obj (fields : List (Str × JVal))

mutual
/-- `t` is a JSON text (without white space) of the value. -/
inductive JText : JVal → Str → Prop where
  | nat (n : Nat) : JText (.nat n) (natStr n)
  | true : JText (.bool true) (lit "true")
  | false : JText (.bool false) (lit "false")
  | str {s t} : ReadsString (t ++ ['"']) s [] → JText (.str s) ('"' :: t ++ ['"'])
  | arr {vs t} : JItems vs t → JText (.arr vs) ('[' :: t ++ [']'])
  | obj {fs t} : JFields fs t → JText (.obj fs) ('{' :: t ++ ['}'])
inductive JItems : List JVal → Str → Prop where
  | nil : JItems [] []
  | one {v t} : JText v t → JItems [v] t
  | more {v t vs ts} : JText v t → vs ≠ [] → JItems vs ts → JItems (v :: vs) (t ++ ',' :: ts)
inductive JFields : List (Str × JVal) → Str → Prop where
  | nil : JFields [] []
  | one {k kt v t} : JText (.str k) kt → JText v t → JFields [(k, v)] (kt ++ ':' :: t)
  | more {k kt v t fs ts} : JText (.str k) kt → JText v t → fs ≠ [] → JFields fs ts →
      JFields ((k, v) :: fs) (kt ++ ':' :: t ++ ',' :: ts)
end

/-- The value a list of segments and a source should be exported as. -/
def segVal (s : Segment) : JVal :=
  .obj [(lit "span", .obj [(lit "start", .nat s.start), (lit "end", .nat s.stop)]),
    (lit "style", .obj ([(lit "bold", .bool s.style.bold), (lit "italic", .bool s.style.italic),
      (lit "underline", .bool s.style.underline)] ++
      (match s.style.color with | some c => [(lit "color", .str c)] | none => []) ++
      (match s.style.background with | some c => [(lit "background_color", .str c)] | none => []))),
    (lit "text", .str s.text)]
def resultVal (segs : List Segment) (source : Str) : JVal :=
  .obj [(lit "segments", .arr (segs.map segVal)), (lit "source", .str source)]

/-! ## HTML -/

/-- What an HTML reader sees: a tag with what stands between `<` and `>`, a character, or an error. -/
inductive HTok where
  | tag (s : Str)
  | ch (c : Char)
  | bad
deriving DecidableEq, Repr

inductive HState where
  | text
  | tag (quoted : Bool) (sofar : Str)
  | entity (sofar : Str)

/-- The entities. -/
def entityChar (e : Str) : HTok :=
  if e = lit "lt" then .ch '<' else if e = lit "gt" then .ch '>' else if e = lit "amp" then .ch '&'
  else if e = lit "quot" then .ch '"' else if e = lit "#39" then .ch '\'' else .bad

/-- An HTML reader: tags end at the first `>` outside double quotes, `&...;` is an entity. -/
def readHtml : HState → Str → List HTok
  | .text, [] => []
  | _, [] => [.bad]
  | .text, c :: r =>
    if c = '<' then readHtml (.tag false []) r
    else if c = '&' then readHtml (.entity []) r
    else if c = '>' then .bad :: readHtml .text r
    else .ch c :: readHtml .text r
  | .tag q a, c :: r =>
    if c = '>' ∧ q = false then .tag a :: readHtml .text r
    else readHtml (.tag (if c = '"' then !q else q) (a ++ [c])) r
  | .entity a, c :: r =>
    if c = ';' then entityChar a :: readHtml .text r else readHtml (.entity (a ++ [c])) r

/-- The tag that opens a segment, when it has a style: by classes or with the style written out. -/
def classTag (s : Segment) : Option Str :=
  let cs := (if s.style.bold then [lit "bold"] else []) ++ (if s.style.italic then [lit "italic"] else []) ++
    (if s.style.underline then [lit "underline"] else [])
  if cs = [] then none else some (lit "span class=\"" ++ joinStr (lit " ") cs ++ lit "\"")
def inlineTag (s : Segment) : Option Str :=
  let as := (match s.style.color with | some c => [lit "color: " ++ c] | none => []) ++
    (match s.style.background with | some c => [lit "background-color: " ++ c] | none => []) ++
    (if s.style.bold then [lit "font-weight: bold"] else []) ++
    (if s.style.italic then [lit "font-style: italic"] else []) ++
    (if s.style.underline then [lit "text-decoration: underline"] else [])
  if as = [] then none else some (lit "span style=\"" ++ joinStr (lit "; ") as ++ lit "\"")

/-- What a reader should see of a segment: its text, between tags when it has a style. -/
def segTokens (tag : Option Str) (text : Str) : List HTok :=
  match tag with
  | none => text.map .ch
  | some t => .tag t :: text.map .ch ++ [.tag (lit "/span")]

/-- What a reader should see of a page without a style block. -/
def pageTokens (inline : Bool) (segs : List Segment) : List HTok :=
  .tag (lit "div class=\"highlight\"") ::
    segs.flatMap (fun s => segTokens (if inline then inlineTag s else classTag s) s.text) ++ [.tag (lit "/div")]

/-- The characters of a page. -/
def pageText (ts : List HTok) : Str := ts.flatMap fun | .ch c => [c] | _ => []

/-! ## Terminal escapes -/

inductive AState where
  | text
  | escape
  | params

/-- The text without the sequences `ESC [ ... m`. -/
def stripAnsi : AState → Str → Str
  | _, [] => []
  | .text, c :: r => if c = '\x1b' then stripAnsi .escape r else c :: stripAnsi .text r
  | .escape, c :: r => if c = '[' then stripAnsi .params r else c :: stripAnsi .text r
  | .params, c :: r => if c = 'm' then stripAnsi .text r else stripAnsi .params r

/-! ## Themes -/

/-- `p` is the scope itself, or what stands before one of its dots; not empty. -/
def ScopePrefix (p s : Str) : Prop := p ≠ [] ∧ (p = s ∨ ∃ r, s = p ++ '.' :: r)

/-- `p` is the most specific prefix of `s` in the theme, with its style. -/
def BestMatch (t : Theme) (s p : Str) (st : Style) : Prop :=
  ScopePrefix p s ∧ t p = some st ∧ ∀ q, ScopePrefix q s → (t q).isSome → q.length ≤ p.length

/-- The scope has no prefix in the theme. -/
def NoMatch (t : Theme) (s : Str) : Prop := ∀ q, ScopePrefix q s → t q = none

/-- How many parts a scope has. -/
def parts (s : Str) : Nat := (s.filter (· = '.')).length + 1

end Oaks.Spec
