import Verif.Spec.Text

/-! Forms of words of any length: names, numbers, quotes, comments. -/
namespace Oaks.Spec

/-- A set of characters: ranges of code points. -/
abbrev Chars := List (Nat × Nat)

/-- The character is in one of the ranges. -/
def inR (s : Chars) (c : Char) : Prop := ∃ e ∈ s, e.1 ≤ c.toNat ∧ c.toNat ≤ e.2

/-- The words that begin with characters of `pre`, one of each set, go on with any number of characters of `mid`, and end with
characters of `post`, one of each set. -/
structure Form where
  pre : List Chars
  mid : Chars
  post : List Chars
deriving DecidableEq

/-- One character of each set. -/
def Suits : List Chars → Str → Prop
  | [], [] => True
  | s :: f, c :: w => inR s c ∧ Suits f w
  | _, _ => False

/-- The word has the form. -/
def Form.Has (f : Form) (w : Str) : Prop :=
  ∃ a m b, w = a ++ m ++ b ∧ Suits f.pre a ∧ (∀ c ∈ m, inR f.mid c) ∧ Suits f.post b

namespace Forms

/-- The character and no other. -/
def ch (c : Char) : Chars := [(c.toNat, c.toNat)]

def digits : Chars := [(48, 57)]
def hexDigits : Chars := [(48, 57), (97, 102), (65, 70)]
/-- Letters, digits and `_`. -/
def wordChars : Chars := [(97, 122), (65, 90), (48, 57), (95, 95)]
/-- Letters and digits. -/
def plainChars : Chars := [(97, 122), (65, 90), (48, 57)]
/-- What can be printed, and the blank. -/
def printed : Chars := [(32, 126)]
/-- What can be printed, and the blank; not `"` and not the backslash. -/
def inDouble : Chars := [(32, 33), (35, 91), (93, 126)]
/-- What can be printed, and the blank; not `"`, `#`, `$` and not the backslash. -/
def inFilled : Chars := [(32, 33), (37, 91), (93, 126)]
/-- What can be printed, and the blank; not the apostrophe and not the backslash. -/
def inSingle : Chars := [(32, 38), (40, 91), (93, 126)]

/-- Names that begin with a letter from `a` to `b`. -/
def name (a b : Char) : Form := ⟨[[(a.toNat, b.toNat)]], wordChars, []⟩
/-- Names without `_` that begin with a letter from `a` to `b`. -/
def plainName (a b : Char) : Form := ⟨[[(a.toNat, b.toNat)]], plainChars, []⟩
/-- Names that begin with a letter. -/
def anyName : Form := ⟨[[(97, 122), (65, 90)]], wordChars, []⟩
/-- Names without `_` that begin with a letter. -/
def anyPlainName : Form := ⟨[[(97, 122), (65, 90)]], plainChars, []⟩
/-- Numbers that do not begin with `0`. -/
def integer : Form := ⟨[[(49, 57)]], digits, []⟩
/-- A digit, a point and digits. -/
def decimal : Form := ⟨[[(49, 57)], ch '.'], digits, [digits]⟩
/-- `0x` and hexadecimal digits. -/
def hex : Form := ⟨[ch '0', ch 'x', hexDigits], hexDigits, []⟩
/-- The characters of the set between two `q`. -/
def quote (q : Char) (s : Chars) : Form := ⟨[ch q], s, [ch q]⟩
/-- The characters of the set, at least one, between two `q`. -/
def quoteSome (q : Char) (s : Chars) : Form := ⟨[ch q, s], s, [ch q]⟩
/-- A comment to the end of the line. -/
def line (o : Str) : Form := ⟨o.map ch, printed, []⟩
/-- A comment between two marks. -/
def block (o : Str) (s : Chars) (c : Str) : Form := ⟨o.map ch, s, c.map ch⟩
/-- Line breaks and what can be printed; not `*`. -/
def noStar : Chars := [(10, 10), (32, 41), (43, 126)]
/-- Line breaks and what can be printed; not `*` and `/`. -/
def noStarSlash : Chars := [(10, 10), (32, 41), (43, 46), (48, 126)]
/-- Line breaks and what can be printed; not `*`, `(` and `)`. -/
def noStarParen : Chars := [(10, 10), (32, 39), (43, 126)]
/-- Line breaks and what can be printed; not `-`, `{` and `}`. -/
def noDashBrace : Chars := [(10, 10), (32, 44), (46, 122), (124, 124), (126, 126)]
/-- Line breaks and what can be printed; not `$`, `{` and `}`. -/
def noBrace : Chars := [(10, 10), (32, 35), (37, 122), (124, 124), (126, 126)]
/-- Line breaks and what can be printed; not the backquote. -/
def noTick : Chars := [(10, 10), (32, 95), (97, 126)]
/-- What may come after a backslash: the quote, the backslash, `n`, `t`. -/
def escaped (q : Char) : Chars := [(q.toNat, q.toNat), (92, 92), (110, 110), (116, 116)]
/-- A quote that begins with an escape. -/
def escFirst (q : Char) (s : Chars) : Form := ⟨[ch q, ch '\\', escaped q], s, [ch q]⟩
/-- A quote that ends with an escape. -/
def escLast (q : Char) (s : Chars) : Form := ⟨[ch q], s, [ch '\\', escaped q, ch q]⟩
/-- A digit, `e` and digits. -/
def exponent : Form := ⟨[[(49, 57)], ch 'e', digits], digits, []⟩
/-- `0.` and digits. -/
def belowOne : Form := ⟨[ch '0', ch '.'], digits, [digits]⟩
/-- Numbers with an `L` at the end. -/
def long : Form := ⟨[[(49, 57)]], digits, [ch 'L']⟩
/-- Numbers with a `_` after the first digit. -/
def grouped : Form := ⟨[[(49, 57)], ch '_', digits], digits, []⟩
/-- `0b` and binary digits. -/
def binary : Form := ⟨[ch '0', ch 'b', [(48, 49)]], [(48, 49)], []⟩
/-- `0o` and octal digits. -/
def octal : Form := ⟨[ch '0', ch 'o', [(48, 55)]], [(48, 55)], []⟩
/-- Names with a mark before them. -/
def marked (c : Char) : Form := ⟨[ch c, [(97, 122), (65, 90)]], wordChars, []⟩
/-- Names with an apostrophe at the end. -/
def primed : Form := ⟨[[(97, 122)]], wordChars, [ch '\'']⟩

end Forms

end Oaks.Spec
