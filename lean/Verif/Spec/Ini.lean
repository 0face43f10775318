import Verif.Model.Ini
import Verif.Spec.Toml

/-
INI: what the tokens of a text are, and which sequences of tokens are documents.
-/
namespace Oaks.Spec
open Oaks

def IniBlank (c : Char) : Prop := c ∈ " \t\r".toList

instance : DecidablePred IniBlank := fun _ => inferInstanceAs (Decidable (_ ∈ _))

/-- What follows the opening quote, up to the first quote that no backslash escapes or to the end of the text; escaped characters are of
one byte. -/
inductive IniString (q : Char) : Str → Str → Prop where
  | close {rest} : IniString q [q] rest
  | open_ : IniString q [] []
  | last : IniString q ['\\'] []
  | escaped {e m rest} : Ascii e → IniString q m rest → IniString q ('\\' :: e :: m) rest
  | plain {c m rest} : c ≠ q → c ≠ '\\' → IniString q m rest → IniString q (c :: m) rest

def Digits (s : Str) : Prop := ∀ c ∈ s, AsciiDigit c

/-- Nothing, or a point and digits. -/
def IniFraction (s : Str) : Prop := s = [] ∨ ∃ ds, s = '.' :: ds ∧ Digits ds

/-- Nothing, or the letter with a sign and digits, both of which may be missing. -/
def IniExponent (s : Str) : Prop :=
  s = [] ∨ ∃ e sign ds, (e = 'e' ∨ e = 'E') ∧ (sign = [] ∨ sign = ['+'] ∨ sign = ['-']) ∧ s = e :: (sign ++ ds) ∧ Digits ds

/-- The number does not go on. -/
def IniNumberEnds (fraction exponent rest : Str) : Prop :=
  ∀ c ∈ rest.head?, ¬ AsciiDigit c ∧ (fraction = [] → exponent = [] → c ≠ '.') ∧ (exponent = [] → c ≠ 'e' ∧ c ≠ 'E') ∧
    (exponent.length = 1 → c ≠ '+' ∧ c ≠ '-')

/-- The marks of one character, with their kinds, but for the brackets. -/
def iniMarks : List (Char × Nat) :=
  [('{', Ini.leftBrace), ('}', Ini.rightBrace), (',', Ini.comma), ('.', Ini.dot), ('=', Ini.equal)]

/-- `true` and `false`, in small or capital letters. -/
def IniBoolean (s : Str) : Prop := s.map Char.toLower = "true".toList ∨ s.map Char.toLower = "false".toList

instance (s : Str) : Decidable (IniBoolean s) := inferInstanceAs (Decidable (_ ∨ _))

/-- `m`, followed by `rest`, is a piece of kind `k`; pieces without a kind get no token. -/
inductive IniToken : Option Nat → Str → Str → Prop where
  | blank {m rest} : m ≠ [] → LongRun IniBlank m rest → IniToken (some Ini.whitespace) m rest
  | newline {rest} : IniToken (some Ini.newline) ['\n'] rest
  /-- a semicolon or a hash and the rest of the line -/
  | comment {c m rest} : c = ';' ∨ c = '#' → LongRun (fun c => c ≠ '\n') m rest → IniToken (some Ini.comment) (c :: m) rest
  | string {q m rest} : q = '"' ∨ q = '\'' → IniString q m rest → IniToken (some Ini.string) (q :: m) rest
  /-- a sign, or none, and digits -/
  | number {sign ds fraction exponent rest} : sign = [] ∨ sign = ['+'] ∨ sign = ['-'] → ds ≠ [] → Digits ds → IniFraction fraction →
      IniExponent exponent → IniNumberEnds fraction exponent rest →
      IniToken (some (if fraction = [] ∧ exponent = [] then Ini.integer else Ini.float)) (sign ++ (ds ++ (fraction ++ exponent))) rest
  /-- a word, as long as it goes -/
  | word {c m rest} : TomlKeyStart c → LongRun TomlKeyChar (c :: m) rest →
      IniToken (some (if IniBoolean (c :: m) then Ini.boolean else Ini.identifier)) (c :: m) rest
  | open2 {rest} : IniToken (some Ini.doubleLeftBracket) ['[', '['] rest
  | open1 {rest} : rest.head? ≠ some '[' → IniToken (some Ini.leftBracket) ['['] rest
  | close2 {rest} : IniToken (some Ini.doubleRightBracket) [']', ']'] rest
  | close1 {rest} : rest.head? ≠ some ']' → IniToken (some Ini.rightBracket) [']'] rest
  | mark {c k rest} : (c, k) ∈ iniMarks → IniToken (some k) [c] rest
  /-- a sign without digits, or any other character: no token -/
  | other {c rest} : ¬ IniBlank c → ¬ TomlKeyStart c → ¬ AsciiDigit c → c ∉ "\n;#\"'[]{},.=".toList →
      (c = '+' ∨ c = '-' → ∀ d ∈ rest.head?, ¬ AsciiDigit d) → IniToken none [c] rest

/-- No backslash stands before a character of several bytes. -/
def IniEscapes (t : Str) : Prop := ∀ a e b, t = a ++ '\\' :: e :: b → Ascii e

/-! ### Documents -/

/-- What the parser calls white space. -/
def IniTrivia (k : Nat) : Prop := k = Ini.whitespace ∨ k = Ini.newline ∨ k = Ini.comment

instance (k : Nat) : Decidable (IniTrivia k) := inferInstanceAs (Decidable (_ ∨ _))

/-- The kinds of the tokens that carry a meaning. -/
def iniSignificant (toks : List Tok) : List Nat := (toks.map Tok.kind).filter (fun k => decide (¬ IniTrivia k))

inductive IniSort where
  | key | value | values | pair | pairs | lines | tables

/-- The grammar, over the kinds of the tokens. -/
inductive IniSyntax : IniSort → List Nat → Prop where
  | key {k} : k = Ini.identifier ∨ k = Ini.string → IniSyntax .key [k]
  | dotted {k ks} : k = Ini.identifier ∨ k = Ini.string → IniSyntax .key ks → IniSyntax .key (k :: Ini.dot :: ks)
  | scalar {k} : k ∈ [Ini.string, Ini.integer, Ini.float, Ini.boolean, Ini.dateTime] → IniSyntax .value [k]
  | array {vs} : IniSyntax .values vs → IniSyntax .value (Ini.leftBracket :: (vs ++ [Ini.rightBracket]))
  | inline {ps} : IniSyntax .pairs ps → IniSyntax .value (Ini.leftBrace :: (ps ++ [Ini.rightBrace]))
  | noValue : IniSyntax .values []
  /-- commas between values may be missing -/
  | value {v vs} : IniSyntax .value v → IniSyntax .values vs → IniSyntax .values (v ++ vs)
  | valueComma {v vs} : IniSyntax .value v → IniSyntax .values vs → IniSyntax .values (v ++ Ini.comma :: vs)
  | noPair : IniSyntax .pairs []
  | onePair {p ps} : IniSyntax .pair p → IniSyntax .pairs ps → IniSyntax .pairs (p ++ ps)
  | pairComma {p ps} : IniSyntax .pair p → IniSyntax .pairs ps → IniSyntax .pairs (p ++ Ini.comma :: ps)
  | pair {k v} : IniSyntax .key k → IniSyntax .value v → IniSyntax .pair (k ++ Ini.equal :: v)
  | noLine : IniSyntax .lines []
  | line {p ps} : IniSyntax .pair p → IniSyntax .lines ps → IniSyntax .lines (p ++ ps)
  | noTable : IniSyntax .tables []
  | table {k ls ts} : IniSyntax .key k → IniSyntax .lines ls → IniSyntax .tables ts →
      IniSyntax .tables (Ini.leftBracket :: (k ++ Ini.rightBracket :: (ls ++ ts)))
  | tableOf {k ls ts} : IniSyntax .key k → IniSyntax .lines ls → IniSyntax .tables ts →
      IniSyntax .tables (Ini.doubleLeftBracket :: (k ++ Ini.doubleRightBracket :: (ls ++ ts)))

/-- Lines, and tables after them. -/
def IniDocument (ks : List Nat) : Prop := ∃ ls ts, ks = ls ++ ts ∧ IniSyntax .lines ls ∧ IniSyntax .tables ts

end Oaks.Spec
