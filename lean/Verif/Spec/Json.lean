import Verif.Model.Json
import Verif.Spec.Pieces
import Verif.Spec.Lexer
import Verif.Spec.Tree

/-
JSON: what the tokens of a text are, which rows of tokens are values, how a value is written.
-/
namespace Oaks.Spec
open Oaks

/-! ### Tokens -/

/-- The characters JSON allows between tokens. -/
def isJsonSpace (c : Char) : Prop := c = ' ' ∨ c = '\t' ∨ c = '\n' ∨ c = '\r'

instance (c : Char) : Decidable (isJsonSpace c) := inferInstanceAs (Decidable (_ ∨ _))

/-- What is used of the character classes of the standard library. -/
structure SoundClasses (cc : CharClass) : Prop where
  space : ∀ c, isJsonSpace c → cc.ws c = true
  visible : ∀ c, c ∈ "\"{}[],:-0123456789tfn".toList → cc.ws c = false
  letters : ∀ c, c ∈ "tfn".toList → cc.alpha c = true
  marks : ∀ c, c ∈ "\"{}[],:".toList → cc.alnum c = false

/-- The rules of the lexer, chosen by the first character. -/
inductive JsonRule where
  | space | quote | slash | number | mark (k : Nat) | word | single | key | other
deriving DecidableEq

/-- The rule a character begins. -/
def firstRule (cfg : JsonCfg) (cc : CharClass) (c : Char) : JsonRule :=
  if isJsonSpace c then .space
  else if c = '"' then .quote
  else if c = '/' ∧ cfg.comments = true then .slash
  else if c = '-' ∨ Json.isDigit c = true then .number
  else if c = '{' then .mark Json.leftBrace
  else if c = '}' then .mark Json.rightBrace
  else if c = '[' then .mark Json.leftBracket
  else if c = ']' then .mark Json.rightBracket
  else if c = ',' then .mark Json.comma
  else if c = ':' then .mark Json.colon
  else if c = 't' ∨ c = 'f' ∨ c = 'n' then .word
  else if c = '\'' ∧ cfg.singleQuotes = true then .single
  else if cfg.bareKeys = true ∧ (cc.alpha c = true ∨ c = '_' ∨ c = '$') then .key
  else .other

/-- `m` is the longest run of characters of a class. -/
def LongRun (p : Char → Prop) (m rest : Str) : Prop := (∀ c ∈ m, p c) ∧ ∀ c, rest.head? = some c → ¬ p c

def isJsonDigit (c : Char) : Prop := Json.isDigit c = true

instance (c : Char) : Decidable (isJsonDigit c) := inferInstanceAs (Decidable (_ = _))

def isJsonHex (c : Char) : Prop := Json.isHexDigit c = true ∨ c = '_'
def isJsonKey (cc : CharClass) (c : Char) : Prop := cc.alnum c = true ∨ c = '_' ∨ c = '$'

/-- Is this the start of a hexadecimal number? -/
def HexPrefix (cfg : JsonCfg) (x : Str) : Prop := cfg.hexNumbers = true ∧ (x = ['0', 'x'] ∨ x = ['0', 'X'])

/-- A fraction with digits `ds`: a point and the longest run of digits, or nothing where there is no point. -/
def Fraction (m ds rest : Str) : Prop :=
  (m = '.' :: ds ∧ LongRun isJsonDigit ds rest) ∨ (m = [] ∧ ds = [] ∧ rest.head? ≠ some '.')

/-- An exponent: the letter, a sign if there is one, and the longest run of digits, which may be empty; or nothing
where there is no letter. -/
def Exponent (m rest : Str) : Prop :=
  (∃ e sign ds, (e = 'e' ∨ e = 'E') ∧ m = e :: (sign ++ ds) ∧ LongRun isJsonDigit ds rest ∧
    (sign = ['+'] ∨ sign = ['-'] ∨ sign = [] ∧ (ds ++ rest).head? ≠ some '+' ∧ (ds ++ rest).head? ≠ some '-')) ∨
  (m = [] ∧ rest.head? ≠ some 'e' ∧ rest.head? ≠ some 'E')

/-- A number after its sign. A hexadecimal prefix without digits after it is kept in front of a decimal
number. Without any digit in its integer part and its fraction the piece has no token. -/
inductive NumBody (cfg : JsonCfg) : Option Nat → Str → Str → Prop where
  | hex {x ds rest} : HexPrefix cfg x → ds ≠ [] → LongRun isJsonHex ds rest → NumBody cfg (some Json.numberLiteral) (x ++ ds) rest
  | decimal {x int frac ds exp rest} :
      (x = [] ∧ (∀ y z, HexPrefix cfg y → int ++ (frac ++ (exp ++ rest)) ≠ y ++ z) ∨
        HexPrefix cfg x ∧ ∀ c, (int ++ (frac ++ (exp ++ rest))).head? = some c → ¬ isJsonHex c) →
      LongRun isJsonDigit int (frac ++ (exp ++ rest)) → Fraction frac ds (exp ++ rest) → Exponent exp rest →
      NumBody cfg (if int = [] ∧ ds = [] then none else some Json.numberLiteral) (x ++ (int ++ (frac ++ exp))) rest

def isKeyword (w : Str) (k : Nat) : Prop :=
  w = "true".toList ∧ k = Json.booleanLiteral ∨ w = "false".toList ∧ k = Json.booleanLiteral ∨
    w = "null".toList ∧ k = Json.nullLiteral

/-- What a rule makes of its first character `c`, the characters `s` after it and the text `rest` after that. -/
def ruleHolds (cfg : JsonCfg) (cc : CharClass) (k : Option Nat) (c : Char) (s rest : Str) : JsonRule → Prop
  | .space => k = some Json.whitespace ∧ LongRun (fun c => cc.ws c = true) s rest
  | .quote =>
    (k = some Json.stringLiteral ∧ Literal '"' (some '\\') (c :: (s ++ rest)) (c :: s) true) ∨
      (k = some Json.error ∧ Literal '"' (some '\\') (c :: (s ++ rest)) (c :: s) false)
  | .slash =>
    (k = some Json.comment ∧ (LineComment "//".toList (c :: (s ++ rest)) (c :: s) ∨
      BlockComment "/*".toList "*/".toList (c :: (s ++ rest)) (c :: s))) ∨
      (k = none ∧ s = [] ∧ rest.head? ≠ some '/' ∧ rest.head? ≠ some '*')
  | .number => if c = '-' then NumBody cfg k s rest else NumBody cfg k (c :: s) rest
  | .mark kind => k = some kind ∧ s = []
  | .word =>
    (∃ kind, isKeyword (c :: s) kind ∧ k = some kind) ∨
      ((∀ w kind x, isKeyword w kind → c :: (s ++ rest) ≠ w ++ x) ∧
        if cfg.bareKeys = true then k = some Json.bareKey ∧ LongRun (isJsonKey cc) s rest else k = none ∧ s = [])
  | .single => k = some Json.stringLiteral ∧ ∃ closed, Literal '\'' (some '\\') (c :: (s ++ rest)) (c :: s) closed
  | .key => k = some Json.bareKey ∧ LongRun (isJsonKey cc) s rest
  | .other => k = some Json.error ∧ s = []

/-- `m`, followed by `rest`, is a piece of kind `k`. -/
def JsonToken (cfg : JsonCfg) (cc : CharClass) (k : Option Nat) (m rest : Str) : Prop :=
  ∃ c s, m = c :: s ∧ ruleHolds cfg cc k c s rest (firstRule cfg cc c)

/-- The pieces that get no token: a sign or a hexadecimal prefix without digits after it, with a point and an exponent
if they follow; a slash that begins no comment; a letter that begins no keyword, where there are no bare keys. -/
inductive JsonGap (cfg : JsonCfg) : Str → Prop where
  | number {sign x point exp rest} : (sign = ['-'] ∧ (x = [] ∨ HexPrefix cfg x) ∨ sign = [] ∧ HexPrefix cfg x) →
      (point = [] ∨ point = ['.']) → Exponent exp rest → JsonGap cfg (sign ++ (x ++ (point ++ exp)))
  | slash : cfg.comments = true → JsonGap cfg ['/']
  | letter {c} : cfg.bareKeys = false → c = 't' ∨ c = 'f' ∨ c = 'n' → JsonGap cfg [c]

/-! ### Syntax -/

/-- Parts of a value: an element (`false`: of an array, that is a value; `true`: of an object, that is an entry), all the
elements between two brackets, the elements after the first. -/
inductive JsonPart where
  | item (b : Bool) | items (b : Bool) | more (b : Bool)

/-- Which rows of token kinds are a value. -/
inductive JsonSyntax (cfg : JsonCfg) : JsonPart → List Nat → Prop where
  | scalar {k} : k = Json.stringLiteral ∨ k = Json.numberLiteral ∨ k = Json.booleanLiteral ∨ k = Json.nullLiteral →
      JsonSyntax cfg (.item false) [k]
  | array {ks} : JsonSyntax cfg (.items false) ks → JsonSyntax cfg (.item false) (Json.leftBracket :: (ks ++ [Json.rightBracket]))
  | object {ks} : JsonSyntax cfg (.items true) ks → JsonSyntax cfg (.item false) (Json.leftBrace :: (ks ++ [Json.rightBrace]))
  | entry {k ks} : k = Json.stringLiteral ∨ cfg.bareKeys = true ∧ k = Json.bareKey → JsonSyntax cfg (.item false) ks →
      JsonSyntax cfg (.item true) (k :: Json.colon :: ks)
  | none {b} : JsonSyntax cfg (.items b) []
  | some {b ks ls} : JsonSyntax cfg (.item b) ks → JsonSyntax cfg (.more b) ls → JsonSyntax cfg (.items b) (ks ++ ls)
  | last {b} : JsonSyntax cfg (.more b) []
  | trailing {b} : cfg.trailingComma = true → JsonSyntax cfg (.more b) [Json.comma]
  | next {b ks ls} : JsonSyntax cfg (.item b) ks → JsonSyntax cfg (.more b) ls →
      JsonSyntax cfg (.more b) (Json.comma :: (ks ++ ls))

/-- Tokens that carry no meaning. -/
def JsonTrivia (k : Nat) : Prop := k = Json.whitespace ∨ k = Json.comment

instance (k : Nat) : Decidable (JsonTrivia k) := inferInstanceAs (Decidable (_ ∨ _))

/-- The kinds of the tokens that carry one. -/
def significant (toks : List (Nat × Nat)) : List Nat := (toks.map (·.1)).filter (fun k => decide (¬ JsonTrivia k))

/-! ### Values -/

def Spaces (w : Str) : Prop := ∀ c ∈ w, isJsonSpace c

instance (w : Str) : Decidable (Spaces w) := inferInstanceAs (Decidable (∀ c ∈ w, isJsonSpace c))

/-- A number as JSON writes it: a sign, digits, a fraction, an exponent. (Leading zeros are allowed here.) -/
def NumberText (m : Str) : Prop :=
  ∃ sign int frac exp, m = sign ++ (int ++ (frac ++ exp)) ∧ (sign = [] ∨ sign = ['-']) ∧
    int ≠ [] ∧ (∀ c ∈ int, isJsonDigit c) ∧
    (frac = [] ∨ ∃ ds, frac = '.' :: ds ∧ ∀ c ∈ ds, isJsonDigit c) ∧
    (exp = [] ∨ ∃ e sg ds, (e = 'e' ∨ e = 'E') ∧ (sg = [] ∨ sg = ['+'] ∨ sg = ['-']) ∧ exp = e :: (sg ++ ds) ∧
      ds ≠ [] ∧ ∀ c ∈ ds, isJsonDigit c)

/-- A string that is written as it is. -/
def PlainString (s : Str) : Prop := ∀ c ∈ s, c ≠ '"' ∧ c ≠ '\\'

instance (s : Str) : Decidable (PlainString s) := inferInstanceAs (Decidable (∀ c ∈ s, c ≠ '"' ∧ c ≠ '\\'))

mutual
/-- `m` is a way to write the value `v`: blanks may follow an array, an object, `null`, a bracket, a comma, a
key and a colon. -/
inductive Writes {ν : Type} (num : Str → Option ν) : JsonVal ν → Str → Prop where
  | null {w} : Spaces w → Writes num .null ("null".toList ++ w)
  | bool (b : Bool) : Writes num (.bool b) (if b then "true".toList else "false".toList)
  | num {m v} : NumberText m → num m = some v → Writes num (.num v) m
  | str {s} : PlainString s → Writes num (.str s) ('"' :: (s ++ ['"']))
  | arr {vs w m w'} : Spaces w → Spaces w' → WritesItems num vs m → Writes num (.arr vs) ('[' :: (w ++ (m ++ ']' :: w')))
  | obj {fs w m w'} : Spaces w → Spaces w' → WritesFields num fs m → Writes num (.obj fs) ('{' :: (w ++ (m ++ '}' :: w')))
inductive WritesItems {ν : Type} (num : Str → Option ν) : List (JsonVal ν) → Str → Prop where
  | none : WritesItems num [] []
  | one {v m} : Writes num v m → WritesItems num [v] m
  | cons {v m w u us m'} : Writes num v m → Spaces w → WritesItems num (u :: us) m' →
      WritesItems num (v :: u :: us) (m ++ ',' :: (w ++ m'))
inductive WritesFields {ν : Type} (num : Str → Option ν) : List (Str × JsonVal ν) → Str → Prop where
  | none : WritesFields num [] []
  | one {k w w' v m} : PlainString k → Spaces w → Spaces w' → Writes num v m →
      WritesFields num [(k, v)] ('"' :: (k ++ '"' :: (w ++ ':' :: (w' ++ m))))
  | cons {k w w' v m w'' u us m'} : PlainString k → Spaces w → Spaces w' → Writes num v m → Spaces w'' →
      WritesFields num (u :: us) m' →
      WritesFields num ((k, v) :: u :: us) (('"' :: (k ++ '"' :: (w ++ ':' :: (w' ++ m)))) ++ ',' :: (w'' ++ m'))
end

mutual
/-- Values that are written as they are: plain strings and keys, numbers that are `ok`. -/
def PlainVal {ν : Type} (ok : ν → Prop) : JsonVal ν → Prop
  | .null => True
  | .bool _ => True
  | .num x => ok x
  | .str s => PlainString s
  | .arr vs => PlainVals ok vs
  | .obj fs => PlainFields ok fs
def PlainVals {ν : Type} (ok : ν → Prop) : List (JsonVal ν) → Prop
  | [] => True
  | v :: vs => PlainVal ok v ∧ PlainVals ok vs
def PlainFields {ν : Type} (ok : ν → Prop) : List (Str × JsonVal ν) → Prop
  | [] => True
  | (k, v) :: fs => PlainString k ∧ PlainVal ok v ∧ PlainFields ok fs
end

end Oaks.Spec
