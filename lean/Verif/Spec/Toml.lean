import Verif.Model.Toml
import Verif.Spec.Json
import Verif.Spec.Xml

/-
TOML: what the tokens of a text are.
-/
namespace Oaks.Spec
open Oaks

/-- Characters of one byte. -/
def Ascii (c : Char) : Prop := c.toNat < 128

instance (c : Char) : Decidable (Ascii c) := inferInstanceAs (Decidable (_ < _))

def TomlBlank (c : Char) : Prop := c ∈ " \t\n\r".toList
def TomlKeyStart (c : Char) : Prop := AsciiLetter c ∨ c = '_'
def TomlKeyChar (c : Char) : Prop := AsciiLetter c ∨ AsciiDigit c ∨ c = '_' ∨ c = '-'

instance (c : Char) : Decidable (TomlBlank c) := inferInstanceAs (Decidable (_ ∈ _))
instance (c : Char) : Decidable (TomlKeyStart c) := by unfold TomlKeyStart AsciiLetter; infer_instance
instance (c : Char) : Decidable (TomlKeyChar c) := by unfold TomlKeyChar AsciiLetter AsciiDigit; infer_instance

/-- The marks of one character, with their kinds. -/
def tomlMarks : List (Char × Nat) :=
  [('{', Toml.leftBrace), ('}', Toml.rightBrace), (',', Toml.comma), ('.', Toml.dot), ('=', Toml.equal)]

/-- `m`, followed by `rest`, is a piece of kind `k`; pieces without a kind get no token. -/
inductive TomlToken : Option Nat → Str → Str → Prop where
  /-- as many blanks and line ends as there are -/
  | blank {m rest} : m ≠ [] → LongRun TomlBlank m rest → TomlToken (some Toml.whitespace) m rest
  /-- a hash and the rest of the line -/
  | comment {m rest} : LongRun (fun c => c ≠ '\n' ∧ c ≠ '\r') m rest → TomlToken (some Toml.comment) ('#' :: m) rest
  /-- up to the first quote that no backslash escapes, or to the end of the text -/
  | basic {m rest closed} : Literal '"' (some '\\') (m ++ rest) m closed → (∀ c ∈ m, Ascii c) → TomlToken (some Toml.basicString) m rest
  /-- up to the next apostrophe, or to the end of the text -/
  | literal {m rest closed} : Literal '\'' none (m ++ rest) m closed → (∀ c ∈ m, Ascii c) → TomlToken (some Toml.literalString) m rest
  /-- a sign or digits or both, where no point follows -/
  | integer {sign ds rest} : sign = [] ∧ ds ≠ [] ∨ sign = ['+'] ∨ sign = ['-'] → LongRun AsciiDigit ds rest → rest.head? ≠ some '.' →
      TomlToken (some Toml.integer) (sign ++ ds) rest
  /-- the same with a point and the digits after it, if any -/
  | float {sign ds fs rest} : sign = [] ∧ ds ≠ [] ∨ sign = ['+'] ∨ sign = ['-'] → (∀ c ∈ ds, AsciiDigit c) → LongRun AsciiDigit fs rest →
      TomlToken (some Toml.float) (sign ++ (ds ++ '.' :: fs)) rest
  | open2 {rest} : TomlToken (some Toml.doubleLeftBracket) ['[', '['] rest
  | open1 {rest} : rest.head? ≠ some '[' → TomlToken (some Toml.leftBracket) ['['] rest
  | close2 {rest} : TomlToken (some Toml.doubleRightBracket) [']', ']'] rest
  | close1 {rest} : rest.head? ≠ some ']' → TomlToken (some Toml.rightBracket) [']'] rest
  | mark {c k rest} : (c, k) ∈ tomlMarks → TomlToken (some k) [c] rest
  /-- a word, as long as it goes -/
  | word {c m rest} : TomlKeyStart c → LongRun TomlKeyChar (c :: m) rest →
      TomlToken (some (if c :: m = "true".toList ∨ c :: m = "false".toList then Toml.boolean else Toml.bareKey)) (c :: m) rest
  /-- any other character of one byte: no token -/
  | other {c rest} : Ascii c → ¬ TomlBlank c → ¬ TomlKeyStart c → ¬ AsciiDigit c → c ∉ "#\"'+-[]{},.=".toList → TomlToken none [c] rest

end Oaks.Spec
