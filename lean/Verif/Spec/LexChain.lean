import Verif.Spec.LexForms

/-! Which characters may come right after a word, without a blank between them. -/
namespace Oaks.Spec.Chains

def openers : List Char := ['(', '[', '{']
def closers : List Char := [')', ']', '}']
def separators : List Char := [',', ';']
/-- Operators of one character. -/
def operators : List Char := ['=', '+', '*', '<', '>', '-', '/', '%', ':', '!', '?', '&', '|', '.']

/-- After a name or a number. -/
def afterWord : List Char := openers ++ closers ++ separators ++ operators
/-- After a quote. -/
def afterQuote : List Char := closers ++ separators ++ operators

/-- Signs that may come after a sign. -/
def afterSign (c : Char) : List Char :=
  if c ∈ openers then openers ++ closers
  else if c ∈ closers then openers ++ closers ++ separators ++ operators
  else if c ∈ separators then openers
  else ['(']

/-- After these signs a name, a number or a quote may come. -/
def leads : List Char := openers ++ separators ++ operators

def signs : List Char := openers ++ closers ++ separators ++ operators

/-- Where the words are in their text. -/
def spans (o : Nat) : List Str → List (Nat × Nat)
  | [] => []
  | w :: x => (o, o + blen w) :: spans (o + blen w) x

end Oaks.Spec.Chains
