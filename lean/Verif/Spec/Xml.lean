import Verif.Model.Xml
import Verif.Spec.Pieces

/-
XML: what the tokens of a text are.
-/
namespace Oaks.Spec
open Oaks

/-- The text up to the first `close`, with it, and what follows; nothing where there is no `close`. -/
def upTo (close : Str) : Str → Option (Str × Str)
  | [] => none
  | c :: s =>
    if close <+: c :: s then some (close, (c :: s).drop close.length)
    else (upTo close s).map (fun p => (c :: p.1, p.2))

/-- The text up to the first `>` with as many `[` as `]` before it, `depth` more `[` having been seen already. -/
def upToAngle (depth : Int) : Str → Option (Str × Str)
  | [] => none
  | c :: s =>
    if c = '>' ∧ depth = 0 then some (['>'], s)
    else (upToAngle (depth + (if c = '[' then 1 else 0) - (if c = ']' then 1 else 0)) s).map (fun p => (c :: p.1, p.2))

/-- What begins with `start` and ends as `stop` says; the whole text, of kind `bad`, where the end is missing. -/
def between (kind bad : Nat) (start : Str) (stop : Str → Option (Str × Str)) (s : Str) : Nat × Str × Str :=
  match stop (s.drop start.length) with
  | some (m, r) => (kind, s.take start.length ++ m, r)
  | none => (bad, s, [])

/-- The longest run of characters of a class after `n` characters. -/
def longest (kind n : Nat) (p : Char → Bool) (s : Str) : Nat × Str × Str :=
  (kind, s.take n ++ (s.drop n).takeWhile p, (s.drop n).dropWhile p)

/-- The first `n` characters. -/
def mark (kind n : Nat) (s : Str) : Nat × Str × Str := (kind, s.take n, s.drop n)

/-- A reference: after `n` characters at least one of the class, then a semicolon; an error otherwise. -/
def refPiece (kind n : Nat) (p : Char → Bool) (s : Str) : Nat × Str × Str :=
  let body := (s.drop n).takeWhile p
  let rest := (s.drop n).dropWhile p
  match rest with
  | ';' :: rest' => if body = [] then (Xml.error, s.take n ++ body, rest) else (kind, s.take n ++ body ++ [';'], rest')
  | rest => (Xml.error, s.take n ++ body, rest)

/-- `s` begins with these characters, in lower or upper case. -/
def beginsAnyCase (w s : Str) : Prop := w = (s.take w.length).map Char.toUpper

instance (w s : Str) : Decidable (beginsAnyCase w s) := inferInstanceAs (Decidable (_ = _))

/-- The kind and the text of the first piece of a text that is not empty, and what follows it. -/
def xmlPiece (ws : Char → Bool) (s : Str) : Nat × Str × Str :=
  if s.takeWhile ws ≠ [] then longest Xml.whitespace 0 ws s
  else if "<!--".toList <+: s then between Xml.comment Xml.comment "<!--".toList (upTo "-->".toList) s
  else if beginsAnyCase "<!DOCTYPE".toList s then between Xml.doctype Xml.error "<!DOCTYPE".toList (upToAngle 0) s
  else if "<![CDATA[".toList <+: s then between Xml.cdata Xml.error "<![CDATA[".toList (upTo [']', ']', '>']) s
  else if ['<', '?'] <+: s then between Xml.instruction Xml.error ['<', '?'] (upTo ['?', '>']) s
  else if ['<', '/'] <+: s then mark Xml.leftAngleSlash 2 s
  else if ['<'] <+: s then mark Xml.leftAngle 1 s
  else if ['/', '>'] <+: s then mark Xml.slashRightAngle 2 s
  else if ['>'] <+: s then mark Xml.rightAngle 1 s
  else if ['='] <+: s then mark Xml.equals 1 s
  else if ['&', '#', 'x'] <+: s then refPiece Xml.characterReference 3 Json.isHexDigit s
  else if ['&', '#'] <+: s then refPiece Xml.characterReference 2 Json.isDigit s
  else if ['&'] <+: s then refPiece Xml.entityReference 1 Xml.isAlnum s
  else if ['"'] <+: s then between Xml.stringLiteral Xml.stringLiteral ['"'] (upTo ['"']) s
  else if ['\''] <+: s then between Xml.stringLiteral Xml.stringLiteral ['\''] (upTo ['\'']) s
  else if (s.head?.map Xml.nameStart).getD false then longest Xml.identifier 1 Xml.nameChar s
  else if ['!'] <+: s then mark Xml.exclamation 1 s
  else if ['?'] <+: s then mark Xml.question 1 s
  else if [';'] <+: s then mark Xml.semicolon 1 s
  else longest Xml.text 0 (fun c => !Xml.textStop c) s

/-- `m`, followed by `rest`, is a piece of kind `k`. -/
def XmlToken (ws : Char → Bool) (k : Option Nat) (m rest : Str) : Prop :=
  ∃ kind, k = some kind ∧ xmlPiece ws (m ++ rest) = (kind, m, rest)

/-- What is used of `char::is_whitespace`: blanks, tabulators and line ends are white space, the characters of names and of
marks are not. -/
structure XmlSpaces (ws : Char → Bool) : Prop where
  space : ∀ c, c = ' ' ∨ c = '\t' ∨ c = '\n' ∨ c = '\r' → ws c = true
  visible : ∀ c, Xml.nameChar c = true ∨ c ∈ "<>/'=\"".toList → ws c = false

/-- A letter of ASCII. -/
def AsciiLetter (c : Char) : Prop := ('a' ≤ c ∧ c ≤ 'z') ∨ ('A' ≤ c ∧ c ≤ 'Z')

/-- A decimal digit. -/
def AsciiDigit (c : Char) : Prop := '0' ≤ c ∧ c ≤ '9'

end Oaks.Spec
