import Verif.Spec.Text

/-! Phrases of languages: short pieces of code, as they are written without blanks, and the lexical elements they are made of
by the reference of the language. -/
namespace Oaks.Spec

/-- The lexical elements of a phrase. -/
abbrev Phrase := List Str

def Phrase.text (p : Phrase) : Str := p.flatten

/-- Where the elements begin and end. -/
def Phrase.spans (o : Nat) : Phrase → List (Nat × Nat)
  | [] => []
  | w :: p => (o, o + blen w) :: Phrase.spans (o + blen w) p

/-- Phrases, each on a line of its own. -/
def phraseText : List Phrase → Str
  | [] => []
  | p :: x => p.text ++ '\n' :: phraseText x

/-- Where the elements of the phrases and the line breaks begin and end. -/
def phraseSpans (o : Nat) : List Phrase → List (Nat × Nat)
  | [] => []
  | p :: x => p.spans o ++ (o + blen p.text, o + blen p.text + 1) :: phraseSpans (o + blen p.text + 1) x

namespace Phrases

/-- JLS, 3.10 to 3.12. -/
def javaP : List Phrase :=
  [[['a'], ['+'], ['1']], [['1'], ['+'], ['2']], [['f'], ['('], ['a'], [','], ['b'], [')']], [['a'], ['*'], ['b']], [['('], ['a'], [')']],
   [['a'], ['<'], ['b']], [['a', '_', '1']], [['a', 'B', '2']], [['a'], ['-'], ['1']], [['1'], ['-'], ['a']], [['a'], ['/'], ['b']],
   [['a'], ['.'], ['b']], [['a'], ['['], ['0'], [']']], [['a'], ['='], ['b']], [['a'], ['=', '='], ['b']], [['a'], ['!', '='], ['b']],
   [['a'], ['<', '='], ['b']], [['a'], ['>', '='], ['b']], [['a'], ['&', '&'], ['b']], [['a'], ['|', '|'], ['b']], [['!'], ['a']],
   [['-'], ['1']], [['a'], ['='], ['-'], ['1']], [['a'], ['+', '+']], [['a'], ['+', '+'], ['+'], ['b']], [['a'], ['+', '='], ['1']],
   [['a'], ['<', '<'], ['2']], [['a'], ['?'], ['b'], [':'], ['c']], [['{'], ['a'], [';'], ['}']], [['1', '.', '5'], ['+'], ['2']],
   [['1', 'e', '3'], ['-'], ['2']], [['"', 'a', ' ', 'b', '"']], [['"', '"']], [['"', 'a', '\\', '"', 'b', '"']], [['"', '\\', '\\', '"']],
   [['\'', 'a', '\'']], [['/', '/', ' ', 'a', ' ', 'b']], [['/', '/', 'a']], [['/', '*', ' ', 'a', ' ', '*', '/']], [['/', '*', '*', '/']],
   [['/', '*', ' ', '*', ' ', '*', '/']], [['a'], [' '], ['-'], [' '], ['b']], [['a'], [' '], ['/'], [' '], ['b']]]

/-- C# language specification, 6.4.6 Operators and punctuators. -/
def csharpP : List Phrase :=
  [[['a'], ['+'], ['1']], [['1'], ['+'], ['2']], [['f'], ['('], ['a'], [','], ['b'], [')']], [['a'], ['*'], ['b']], [['('], ['a'], [')']],
   [['a'], ['<'], ['b']], [['a', '_', '1']], [['a', 'B', '2']], [['a'], ['-'], ['1']], [['1'], ['-'], ['a']], [['a'], ['/'], ['b']],
   [['a'], ['.'], ['b']], [['a'], ['['], ['0'], [']']], [['a'], ['='], ['b']], [['a'], ['=', '='], ['b']], [['a'], ['!', '='], ['b']],
   [['a'], ['<', '='], ['b']], [['a'], ['>', '='], ['b']], [['a'], ['&', '&'], ['b']], [['a'], ['|', '|'], ['b']], [['!'], ['a']],
   [['-'], ['1']], [['a'], ['='], ['-'], ['1']], [['a'], ['+', '+']], [['a'], ['+', '+'], ['+'], ['b']], [['a'], ['+', '='], ['1']],
   [['a'], ['<', '<'], ['2']], [['a'], ['?'], ['b'], [':'], ['c']], [['{'], ['a'], [';'], ['}']], [['1'], ['.', '.'], ['2']],
   [['1', '.', '5'], ['+'], ['2']], [['1', 'e', '3'], ['-'], ['2']], [['a'], ['=', '>'], ['b']], [['"', 'a', ' ', 'b', '"']], [['"', '"']],
   [['"', 'a', '\\', '"', 'b', '"']], [['"', '\\', '\\', '"']], [['\'', 'a', '\'']], [['/', '/', ' ', 'a', ' ', 'b']], [['/', '/', 'a']],
   [['/', '*', ' ', 'a', ' ', '*', '/']], [['/', '*', '*', '/']], [['/', '*', ' ', '*', ' ', '*', '/']], [['a'], [' '], ['-'], [' '], ['b']],
   [['a'], [' '], ['/'], [' '], ['b']]]

/-- Dart language specification, Operators. -/
def dartP : List Phrase :=
  [[['a'], ['+'], ['1']], [['1'], ['+'], ['2']], [['f'], ['('], ['a'], [','], ['b'], [')']], [['a'], ['*'], ['b']], [['('], ['a'], [')']],
   [['a'], ['<'], ['b']], [['a', '_', '1']], [['a', 'B', '2']], [['a'], ['-'], ['1']], [['1'], ['-'], ['a']], [['a'], ['/'], ['b']],
   [['a'], ['.'], ['b']], [['a'], ['['], ['0'], [']']], [['a'], ['='], ['b']], [['a'], ['=', '='], ['b']], [['a'], ['!', '='], ['b']],
   [['a'], ['<', '='], ['b']], [['a'], ['>', '='], ['b']], [['a'], ['&', '&'], ['b']], [['a'], ['|', '|'], ['b']], [['!'], ['a']],
   [['-'], ['1']], [['a'], ['='], ['-'], ['1']], [['a'], ['+', '+']], [['a'], ['+', '+'], ['+'], ['b']], [['a'], ['+', '='], ['1']],
   [['a'], ['<', '<'], ['2']], [['a'], ['?'], ['b'], [':'], ['c']], [['{'], ['a'], [';'], ['}']], [['1', '.', '5'], ['+'], ['2']],
   [['1', 'e', '3'], ['-'], ['2']], [['a'], ['=', '>'], ['b']], [['"', 'a', ' ', 'b', '"']], [['"', '"']], [['"', 'a', '\\', '"', 'b', '"']],
   [['"', '\\', '\\', '"']], [['\'', 'a', ' ', 'b', '\'']], [['/', '/', ' ', 'a', ' ', 'b']], [['/', '/', 'a']],
   [['/', '*', ' ', 'a', ' ', '*', '/']], [['/', '*', '*', '/']], [['/', '*', ' ', '*', ' ', '*', '/']], [['a'], [' '], ['-'], [' '], ['b']],
   [['a'], [' '], ['/'], [' '], ['b']]]

/-- D Language Reference, Lexical: Tokens. -/
def dP : List Phrase :=
  [[['a'], ['+'], ['1']], [['1'], ['+'], ['2']], [['f'], ['('], ['a'], [','], ['b'], [')']], [['a'], ['*'], ['b']], [['('], ['a'], [')']],
   [['a'], ['<'], ['b']], [['a', '_', '1']], [['a', 'B', '2']], [['a'], ['-'], ['1']], [['1'], ['-'], ['a']], [['a'], ['/'], ['b']],
   [['a'], ['.'], ['b']], [['a'], ['['], ['0'], [']']], [['a'], ['='], ['b']], [['a'], ['=', '='], ['b']], [['a'], ['!', '='], ['b']],
   [['a'], ['<', '='], ['b']], [['a'], ['>', '='], ['b']], [['a'], ['&', '&'], ['b']], [['a'], ['|', '|'], ['b']], [['!'], ['a']],
   [['-'], ['1']], [['a'], ['='], ['-'], ['1']], [['a'], ['+', '+']], [['a'], ['+', '+'], ['+'], ['b']], [['a'], ['+', '='], ['1']],
   [['a'], ['<', '<'], ['2']], [['a'], ['?'], ['b'], [':'], ['c']], [['{'], ['a'], [';'], ['}']], [['1'], ['.', '.'], ['2']],
   [['1', '.', '5'], ['+'], ['2']], [['1', 'e', '3'], ['-'], ['2']], [['"', 'a', ' ', 'b', '"']], [['"', '"']],
   [['"', 'a', '\\', '"', 'b', '"']], [['"', '\\', '\\', '"']], [['\'', 'a', '\'']], [['/', '/', ' ', 'a', ' ', 'b']], [['/', '/', 'a']],
   [['/', '*', ' ', 'a', ' ', '*', '/']], [['/', '*', '*', '/']], [['/', '*', ' ', '*', ' ', '*', '/']], [['a'], [' '], ['-'], [' '], ['b']],
   [['a'], [' '], ['/'], [' '], ['b']]]

/-- Solidity grammar, SolidityLexer. -/
def solidityP : List Phrase :=
  [[['a'], ['+'], ['1']], [['1'], ['+'], ['2']], [['f'], ['('], ['a'], [','], ['b'], [')']], [['a'], ['*'], ['b']], [['('], ['a'], [')']],
   [['a'], ['<'], ['b']], [['a', '_', '1']], [['a', 'B', '2']], [['a'], ['-'], ['1']], [['1'], ['-'], ['a']], [['a'], ['/'], ['b']],
   [['a'], ['.'], ['b']], [['a'], ['['], ['0'], [']']], [['a'], ['='], ['b']], [['a'], ['=', '='], ['b']], [['a'], ['!', '='], ['b']],
   [['a'], ['<', '='], ['b']], [['a'], ['>', '='], ['b']], [['a'], ['&', '&'], ['b']], [['a'], ['|', '|'], ['b']], [['!'], ['a']],
   [['-'], ['1']], [['a'], ['='], ['-'], ['1']], [['a'], ['+', '+']], [['a'], ['+', '+'], ['+'], ['b']], [['a'], ['+', '='], ['1']],
   [['a'], ['<', '<'], ['2']], [['a'], ['?'], ['b'], [':'], ['c']], [['{'], ['a'], [';'], ['}']], [['"', 'a', ' ', 'b', '"']], [['"', '"']],
   [['"', 'a', '\\', '"', 'b', '"']], [['"', '\\', '\\', '"']], [['/', '/', ' ', 'a', ' ', 'b']], [['/', '/', 'a']],
   [['/', '*', ' ', 'a', ' ', '*', '/']], [['/', '*', '*', '/']], [['/', '*', ' ', '*', ' ', '*', '/']], [['a'], [' '], ['-'], [' '], ['b']],
   [['a'], [' '], ['/'], [' '], ['b']]]

/-- Vala Reference Manual, Lexical structure. -/
def valaP : List Phrase :=
  [[['a'], ['+'], ['1']], [['1'], ['+'], ['2']], [['f'], ['('], ['a'], [','], ['b'], [')']], [['a'], ['*'], ['b']], [['('], ['a'], [')']],
   [['a'], ['<'], ['b']], [['a', '_', '1']], [['a', 'B', '2']], [['a'], ['-'], ['1']], [['1'], ['-'], ['a']], [['a'], ['/'], ['b']],
   [['a'], ['.'], ['b']], [['a'], ['['], ['0'], [']']], [['a'], ['='], ['b']], [['a'], ['=', '='], ['b']], [['a'], ['!', '='], ['b']],
   [['a'], ['<', '='], ['b']], [['a'], ['>', '='], ['b']], [['a'], ['&', '&'], ['b']], [['a'], ['|', '|'], ['b']], [['!'], ['a']],
   [['-'], ['1']], [['a'], ['='], ['-'], ['1']], [['a'], ['+', '+']], [['a'], ['+', '+'], ['+'], ['b']], [['a'], ['+', '='], ['1']],
   [['a'], ['<', '<'], ['2']], [['a'], ['?'], ['b'], [':'], ['c']], [['{'], ['a'], [';'], ['}']], [['1', '.', '5'], ['+'], ['2']],
   [['1', 'e', '3'], ['-'], ['2']], [['a'], ['-', '>'], ['b']], [['a'], [' '], ['-'], [' '], ['b']], [['a'], [' '], ['/'], [' '], ['b']]]

/-- HLSL reference, Operators. -/
def hlslP : List Phrase :=
  [[['a'], ['+'], ['1']], [['1'], ['+'], ['2']], [['f'], ['('], ['a'], [','], ['b'], [')']], [['a'], ['*'], ['b']], [['('], ['a'], [')']],
   [['a'], ['<'], ['b']], [['a', '_', '1']], [['a', 'B', '2']], [['a'], ['-'], ['1']], [['1'], ['-'], ['a']], [['a'], ['/'], ['b']],
   [['a'], ['.'], ['b']], [['a'], ['['], ['0'], [']']], [['a'], ['='], ['b']], [['a'], ['=', '='], ['b']], [['a'], ['!', '='], ['b']],
   [['a'], ['<', '='], ['b']], [['a'], ['>', '='], ['b']], [['a'], ['&', '&'], ['b']], [['a'], ['|', '|'], ['b']], [['!'], ['a']],
   [['-'], ['1']], [['a'], ['='], ['-'], ['1']], [['a'], ['+', '+']], [['a'], ['+', '+'], ['+'], ['b']], [['a'], ['+', '='], ['1']],
   [['a'], ['<', '<'], ['2']], [['a'], ['?'], ['b'], [':'], ['c']], [['{'], ['a'], [';'], ['}']], [['1', '.', '5'], ['+'], ['2']],
   [['1', 'e', '3'], ['-'], ['2']], [['/', '/', ' ', 'a', ' ', 'b']], [['/', '/', 'a']], [['/', '*', ' ', 'a', ' ', '*', '/']],
   [['/', '*', '*', '/']], [['/', '*', ' ', '*', ' ', '*', '/']], [['a'], [' '], ['-'], [' '], ['b']], [['a'], [' '], ['/'], [' '], ['b']]]

/-- ISO C 6.4.6 Punctuators; Objective-C adds `@`. -/
def objectiveCP : List Phrase :=
  [[['a'], ['+'], ['1']], [['1'], ['+'], ['2']], [['f'], ['('], ['a'], [','], ['b'], [')']], [['a'], ['*'], ['b']], [['('], ['a'], [')']],
   [['a'], ['<'], ['b']], [['a', '_', '1']], [['a', 'B', '2']], [['a'], ['-'], ['1']], [['1'], ['-'], ['a']], [['a'], ['/'], ['b']],
   [['a'], ['.'], ['b']], [['a'], ['['], ['0'], [']']], [['a'], ['='], ['b']], [['a'], ['=', '='], ['b']], [['a'], ['!', '='], ['b']],
   [['a'], ['<', '='], ['b']], [['a'], ['>', '='], ['b']], [['a'], ['&', '&'], ['b']], [['a'], ['|', '|'], ['b']], [['!'], ['a']],
   [['-'], ['1']], [['a'], ['='], ['-'], ['1']], [['a'], ['+', '+']], [['a'], ['+', '+'], ['+'], ['b']], [['a'], ['+', '='], ['1']],
   [['a'], ['<', '<'], ['2']], [['a'], ['?'], ['b'], [':'], ['c']], [['{'], ['a'], [';'], ['}']], [['1', '.', '5'], ['+'], ['2']],
   [['1', 'e', '3'], ['-'], ['2']], [['a'], ['-', '>'], ['b']], [['"', 'a', ' ', 'b', '"']], [['"', '"']], [['"', 'a', '\\', '"', 'b', '"']],
   [['"', '\\', '\\', '"']], [['\'', 'a', '\'']], [['/', '/', ' ', 'a', ' ', 'b']], [['/', '/', 'a']], [['/', '*', ' ', 'a', ' ', '*', '/']],
   [['/', '*', '*', '/']], [['/', '*', ' ', '*', ' ', '*', '/']], [['a'], [' '], ['-'], [' '], ['b']], [['a'], [' '], ['/'], [' '], ['b']]]

/-- ActionScript 3.0 language reference, Operators. -/
def actionscriptP : List Phrase :=
  [[['a'], ['+'], ['1']], [['1'], ['+'], ['2']], [['f'], ['('], ['a'], [','], ['b'], [')']], [['a'], ['*'], ['b']], [['('], ['a'], [')']],
   [['a'], ['<'], ['b']], [['a', '_', '1']], [['a', 'B', '2']], [['a'], ['-'], ['1']], [['1'], ['-'], ['a']], [['a'], ['/'], ['b']],
   [['a'], ['.'], ['b']], [['a'], ['['], ['0'], [']']], [['a'], ['='], ['b']], [['a'], ['=', '='], ['b']], [['a'], ['!', '='], ['b']],
   [['a'], ['<', '='], ['b']], [['a'], ['>', '='], ['b']], [['a'], ['&', '&'], ['b']], [['a'], ['|', '|'], ['b']], [['!'], ['a']],
   [['-'], ['1']], [['a'], ['='], ['-'], ['1']], [['a'], ['+', '+']], [['a'], ['+', '+'], ['+'], ['b']], [['a'], ['+', '='], ['1']],
   [['a'], ['<', '<'], ['2']], [['a'], ['?'], ['b'], [':'], ['c']], [['{'], ['a'], [';'], ['}']], [['1', '.', '5'], ['+'], ['2']],
   [['1', 'e', '3'], ['-'], ['2']], [['a'], [' '], ['-'], [' '], ['b']], [['a'], [' '], ['/'], [' '], ['b']]]

/-- ISO C, 6.4.6 Punctuators. -/
def cP : List Phrase :=
  [[['a'], ['+'], ['1']], [['1'], ['+'], ['2']], [['f'], ['('], ['a'], [','], ['b'], [')']], [['a'], ['*'], ['b']], [['('], ['a'], [')']],
   [['a'], ['<'], ['b']], [['a', '_', '1']], [['a', 'B', '2']], [['a'], ['-'], ['1']], [['1'], ['-'], ['a']], [['a'], ['/'], ['b']],
   [['a'], ['.'], ['b']], [['a'], ['['], ['0'], [']']], [['a'], ['='], ['b']], [['a'], ['=', '='], ['b']], [['a'], ['!', '='], ['b']],
   [['a'], ['<', '='], ['b']], [['a'], ['>', '='], ['b']], [['a'], ['&', '&'], ['b']], [['a'], ['|', '|'], ['b']], [['!'], ['a']],
   [['-'], ['1']], [['a'], ['='], ['-'], ['1']], [['a'], ['+', '+']], [['a'], ['+', '+'], ['+'], ['b']], [['a'], ['+', '='], ['1']],
   [['a'], ['<', '<'], ['2']], [['a'], ['?'], ['b'], [':'], ['c']], [['{'], ['a'], [';'], ['}']], [['1', '.', '5'], ['+'], ['2']],
   [['1', 'e', '3'], ['-'], ['2']], [['a'], ['-', '>'], ['b']], [['"', 'a', ' ', 'b', '"']], [['"', '"']], [['"', 'a', '\\', '"', 'b', '"']],
   [['"', '\\', '\\', '"']], [['\'', 'a', '\'']], [['/', '/', ' ', 'a', ' ', 'b']], [['/', '/', 'a']], [['/', '*', ' ', 'a', ' ', '*', '/']],
   [['/', '*', '*', '/']], [['/', '*', ' ', '*', ' ', '*', '/']], [['a'], [' '], ['-'], [' '], ['b']], [['a'], [' '], ['/'], [' '], ['b']]]

/-- ISO C++, [lex.operators]. -/
def cppP : List Phrase :=
  [[['a'], ['+'], ['1']], [['1'], ['+'], ['2']], [['f'], ['('], ['a'], [','], ['b'], [')']], [['a'], ['*'], ['b']], [['('], ['a'], [')']],
   [['a'], ['<'], ['b']], [['a', '_', '1']], [['a', 'B', '2']], [['a'], ['-'], ['1']], [['1'], ['-'], ['a']], [['a'], ['/'], ['b']],
   [['a'], ['.'], ['b']], [['a'], ['['], ['0'], [']']], [['a'], ['='], ['b']], [['a'], ['=', '='], ['b']], [['a'], ['!', '='], ['b']],
   [['a'], ['<', '='], ['b']], [['a'], ['>', '='], ['b']], [['a'], ['&', '&'], ['b']], [['a'], ['|', '|'], ['b']], [['!'], ['a']],
   [['-'], ['1']], [['a'], ['='], ['-'], ['1']], [['a'], ['+', '+']], [['a'], ['+', '+'], ['+'], ['b']], [['a'], ['+', '='], ['1']],
   [['a'], ['<', '<'], ['2']], [['a'], ['?'], ['b'], [':'], ['c']], [['{'], ['a'], [';'], ['}']], [['1', '.', '5'], ['+'], ['2']],
   [['1', 'e', '3'], ['-'], ['2']], [['a'], ['-', '>'], ['b']], [['"', 'a', ' ', 'b', '"']], [['"', '"']], [['"', 'a', '\\', '"', 'b', '"']],
   [['"', '\\', '\\', '"']], [['\'', 'a', '\'']], [['/', '/', ' ', 'a', ' ', 'b']], [['/', '/', 'a']], [['/', '*', ' ', 'a', ' ', '*', '/']],
   [['/', '*', '*', '/']], [['/', '*', ' ', '*', ' ', '*', '/']], [['a'], [' '], ['-'], [' '], ['b']], [['a'], [' '], ['/'], [' '], ['b']]]

/-- ECMAScript, Punctuators; TypeScript adds `@`. -/
def typescriptP : List Phrase :=
  [[['a'], ['+'], ['1']], [['1'], ['+'], ['2']], [['f'], ['('], ['a'], [','], ['b'], [')']], [['a'], ['*'], ['b']], [['('], ['a'], [')']],
   [['a'], ['<'], ['b']], [['a', '_', '1']], [['a', 'B', '2']], [['a'], ['-'], ['1']], [['1'], ['-'], ['a']], [['a'], ['/'], ['b']],
   [['a'], ['.'], ['b']], [['a'], ['['], ['0'], [']']], [['a'], ['='], ['b']], [['a'], ['=', '='], ['b']], [['a'], ['!', '='], ['b']],
   [['a'], ['<', '='], ['b']], [['a'], ['>', '='], ['b']], [['a'], ['&', '&'], ['b']], [['a'], ['|', '|'], ['b']], [['!'], ['a']],
   [['-'], ['1']], [['a'], ['='], ['-'], ['1']], [['a'], ['+', '+']], [['a'], ['+', '+'], ['+'], ['b']], [['a'], ['+', '='], ['1']],
   [['a'], ['<', '<'], ['2']], [['a'], ['?'], ['b'], [':'], ['c']], [['{'], ['a'], [';'], ['}']], [['1', '.', '5'], ['+'], ['2']],
   [['1', 'e', '3'], ['-'], ['2']], [['a'], ['=', '>'], ['b']], [['"', 'a', ' ', 'b', '"']], [['"', '"']], [['"', 'a', '\\', '"', 'b', '"']],
   [['"', '\\', '\\', '"']], [['\'', 'a', ' ', 'b', '\'']], [['/', '/', ' ', 'a', ' ', 'b']], [['/', '/', 'a']],
   [['/', '*', ' ', 'a', ' ', '*', '/']], [['/', '*', '*', '/']], [['/', '*', ' ', '*', ' ', '*', '/']], [['a'], [' '], ['-'], [' '], ['b']],
   [['a'], [' '], ['/'], [' '], ['b']]]

/-- PHP Language Specification, Operators and Punctuators. -/
def phpP : List Phrase :=
  [[['a'], ['+'], ['1']], [['1'], ['+'], ['2']], [['f'], ['('], ['a'], [','], ['b'], [')']], [['a'], ['*'], ['b']], [['('], ['a'], [')']],
   [['a'], ['<'], ['b']], [['a', '_', '1']], [['a', 'B', '2']], [['a'], ['-'], ['1']], [['1'], ['-'], ['a']], [['a'], ['/'], ['b']],
   [['a'], ['.'], ['b']], [['a'], ['['], ['0'], [']']], [['a'], ['='], ['b']], [['a'], ['=', '='], ['b']], [['a'], ['!', '='], ['b']],
   [['a'], ['<', '='], ['b']], [['a'], ['>', '='], ['b']], [['a'], ['&', '&'], ['b']], [['a'], ['|', '|'], ['b']], [['!'], ['a']],
   [['-'], ['1']], [['a'], ['='], ['-'], ['1']], [['a'], ['+', '+']], [['a'], ['+', '+'], ['+'], ['b']], [['a'], ['+', '='], ['1']],
   [['a'], ['<', '<'], ['2']], [['a'], ['?'], ['b'], [':'], ['c']], [['{'], ['a'], [';'], ['}']], [['1', '.', '5'], ['+'], ['2']],
   [['1', 'e', '3'], ['-'], ['2']], [['a'], ['-', '>'], ['b']], [['a'], ['=', '>'], ['b']], [['"', 'a', ' ', 'b', '"']], [['"', '"']],
   [['"', 'a', '\\', '"', 'b', '"']], [['"', '\\', '\\', '"']], [['\'', 'a', ' ', 'b', '\'']], [['/', '/', ' ', 'a', ' ', 'b']],
   [['/', '/', 'a']], [['#', ' ', 'a', ' ', 'b']], [['/', '*', ' ', 'a', ' ', '*', '/']], [['/', '*', '*', '/']],
   [['/', '*', ' ', '*', ' ', '*', '/']], [['a'], [' '], ['-'], [' '], ['b']], [['a'], [' '], ['/'], [' '], ['b']]]

/-- The Go Programming Language Specification, Operators and punctuation. -/
def goP : List Phrase :=
  [[['a'], ['+'], ['1']], [['1'], ['+'], ['2']], [['f'], ['('], ['a'], [','], ['b'], [')']], [['a'], ['*'], ['b']], [['('], ['a'], [')']],
   [['a'], ['<'], ['b']], [['a', '_', '1']], [['a', 'B', '2']], [['a'], ['-'], ['1']], [['1'], ['-'], ['a']], [['a'], ['/'], ['b']],
   [['a'], ['.'], ['b']], [['a'], ['['], ['0'], [']']], [['a'], ['='], ['b']], [['a'], ['=', '='], ['b']], [['a'], ['!', '='], ['b']],
   [['a'], ['<', '='], ['b']], [['a'], ['>', '='], ['b']], [['a'], [':', '='], ['b']], [['a'], ['&', '&'], ['b']], [['a'], ['|', '|'], ['b']],
   [['!'], ['a']], [['-'], ['1']], [['a'], ['='], ['-'], ['1']], [['a'], ['+', '+']], [['a'], ['+', '+'], ['+'], ['b']],
   [['a'], ['+', '='], ['1']], [['a'], ['<', '<'], ['2']], [['{'], ['a'], [';'], ['}']], [['1', '.', '5'], ['+'], ['2']],
   [['1', 'e', '3'], ['-'], ['2']], [['"', 'a', ' ', 'b', '"']], [['"', '"']], [['"', 'a', '\\', '"', 'b', '"']], [['"', '\\', '\\', '"']],
   [['\'', 'a', '\'']], [['/', '/', ' ', 'a', ' ', 'b']], [['/', '/', 'a']], [['/', '*', ' ', 'a', ' ', '*', '/']], [['/', '*', '*', '/']],
   [['/', '*', ' ', '*', ' ', '*', '/']], [['a'], [' '], ['-'], [' '], ['b']], [['a'], [' '], ['/'], [' '], ['b']],
   [['a'], [':', '='], ['f'], ['('], ['b'], [')']]]

/-- V documentation, Operators. -/
def vlangP : List Phrase :=
  [[['a'], ['+'], ['1']], [['1'], ['+'], ['2']], [['f'], ['('], ['a'], [','], ['b'], [')']], [['a'], ['*'], ['b']], [['('], ['a'], [')']],
   [['a'], ['<'], ['b']], [['a', '_', '1']], [['a', 'B', '2']], [['a'], ['-'], ['1']], [['1'], ['-'], ['a']], [['a'], ['/'], ['b']],
   [['a'], ['.'], ['b']], [['a'], ['['], ['0'], [']']], [['a'], ['='], ['b']], [['a'], ['=', '='], ['b']], [['a'], ['!', '='], ['b']],
   [['a'], ['<', '='], ['b']], [['a'], ['>', '='], ['b']], [['a'], [':', '='], ['b']], [['a'], ['&', '&'], ['b']], [['a'], ['|', '|'], ['b']],
   [['!'], ['a']], [['-'], ['1']], [['a'], ['='], ['-'], ['1']], [['a'], ['+', '+']], [['a'], ['+', '+'], ['+'], ['b']],
   [['a'], ['+', '='], ['1']], [['a'], ['<', '<'], ['2']], [['{'], ['a'], [';'], ['}']], [['1'], ['.', '.'], ['2']],
   [['1', '.', '5'], ['+'], ['2']], [['1', 'e', '3'], ['-'], ['2']], [['"', 'a', ' ', 'b', '"']], [['"', '"']],
   [['"', 'a', '\\', '"', 'b', '"']], [['"', '\\', '\\', '"']], [['/', '/', ' ', 'a', ' ', 'b']], [['/', '/', 'a']],
   [['/', '*', ' ', 'a', ' ', '*', '/']], [['/', '*', '*', '/']], [['/', '*', ' ', '*', ' ', '*', '/']], [['a'], [' '], ['-'], [' '], ['b']],
   [['a'], [' '], ['/'], [' '], ['b']]]

/-- Kotlin language specification, Lexical grammar. -/
def kotlinP : List Phrase :=
  [[['a'], ['+'], ['1']], [['1'], ['+'], ['2']], [['f'], ['('], ['a'], [','], ['b'], [')']], [['a'], ['*'], ['b']], [['('], ['a'], [')']],
   [['a'], ['<'], ['b']], [['a', '_', '1']], [['a', 'B', '2']], [['a'], ['-'], ['1']], [['1'], ['-'], ['a']], [['a'], ['/'], ['b']],
   [['a'], ['.'], ['b']], [['a'], ['['], ['0'], [']']], [['a'], ['='], ['b']], [['a'], ['=', '='], ['b']], [['a'], ['!', '='], ['b']],
   [['a'], ['<', '='], ['b']], [['a'], ['>', '='], ['b']], [['a'], ['&', '&'], ['b']], [['a'], ['|', '|'], ['b']], [['!'], ['a']],
   [['-'], ['1']], [['a'], ['='], ['-'], ['1']], [['a'], ['+', '+']], [['a'], ['+', '+'], ['+'], ['b']], [['a'], ['+', '='], ['1']],
   [['a'], ['<', '<'], ['2']], [['{'], ['a'], [';'], ['}']], [['1'], ['.', '.'], ['2']], [['1'], ['.', '.', '<'], ['2']],
   [['1', '.', '5'], ['+'], ['2']], [['1', 'e', '3'], ['-'], ['2']], [['"', 'a', ' ', 'b', '"']], [['"', '"']],
   [['"', 'a', '\\', '"', 'b', '"']], [['"', '\\', '\\', '"']], [['\'', 'a', '\'']], [['/', '/', ' ', 'a', ' ', 'b']], [['/', '/', 'a']],
   [['/', '*', ' ', 'a', ' ', '*', '/']], [['/', '*', '*', '/']], [['/', '*', ' ', '*', ' ', '*', '/']], [['a'], [' '], ['-'], [' '], ['b']],
   [['a'], [' '], ['/'], [' '], ['b']]]

/-- Zig Language Reference, Grammar. -/
def zigP : List Phrase :=
  [[['a'], ['+'], ['1']], [['1'], ['+'], ['2']], [['f'], ['('], ['a'], [','], ['b'], [')']], [['a'], ['*'], ['b']], [['('], ['a'], [')']],
   [['a'], ['<'], ['b']], [['a', '_', '1']], [['a', 'B', '2']], [['a'], ['-'], ['1']], [['1'], ['-'], ['a']], [['a'], ['/'], ['b']],
   [['a'], ['.'], ['b']], [['a'], ['['], ['0'], [']']], [['a'], ['='], ['b']], [['a'], ['=', '='], ['b']], [['a'], ['!', '='], ['b']],
   [['a'], ['<', '='], ['b']], [['a'], ['>', '='], ['b']], [['!'], ['a']], [['-'], ['1']], [['a'], ['='], ['-'], ['1']],
   [['a'], ['+', '='], ['1']], [['a'], ['<', '<'], ['2']], [['{'], ['a'], [';'], ['}']], [['1'], ['.', '.'], ['2']],
   [['1', '.', '5'], ['+'], ['2']], [['1', 'e', '3'], ['-'], ['2']], [['"', 'a', ' ', 'b', '"']], [['"', '"']],
   [['"', 'a', '\\', '"', 'b', '"']], [['"', '\\', '\\', '"']], [['\'', 'a', '\'']], [['/', '/', ' ', 'a', ' ', 'b']], [['/', '/', 'a']],
   [['a'], [' '], ['-'], [' '], ['b']], [['a'], [' '], ['/'], [' '], ['b']]]

/-- WGSL specification, 3.8 Syntactic Tokens. -/
def wgslP : List Phrase :=
  [[['a'], ['+'], ['1']], [['1'], ['+'], ['2']], [['f'], ['('], ['a'], [','], ['b'], [')']], [['a'], ['*'], ['b']], [['('], ['a'], [')']],
   [['a'], ['<'], ['b']], [['a', '_', '1']], [['a', 'B', '2']], [['a'], ['-'], ['1']], [['1'], ['-'], ['a']], [['a'], ['/'], ['b']],
   [['a'], ['.'], ['b']], [['a'], ['['], ['0'], [']']], [['a'], ['='], ['b']], [['a'], ['=', '='], ['b']], [['a'], ['!', '='], ['b']],
   [['a'], ['<', '='], ['b']], [['a'], ['>', '='], ['b']], [['a'], ['&', '&'], ['b']], [['a'], ['|', '|'], ['b']], [['!'], ['a']],
   [['-'], ['1']], [['a'], ['='], ['-'], ['1']], [['a'], ['+', '='], ['1']], [['a'], ['<', '<'], ['2']], [['{'], ['a'], [';'], ['}']],
   [['1', '.', '5'], ['+'], ['2']], [['1', 'e', '3'], ['-'], ['2']], [['/', '/', ' ', 'a', ' ', 'b']], [['/', '/', 'a']],
   [['a'], [' '], ['-'], [' '], ['b']], [['a'], [' '], ['/'], [' '], ['b']]]

/-- The Swift Programming Language, Lexical Structure; the operators of the standard library. -/
def swiftP : List Phrase :=
  [[['a'], ['+'], ['1']], [['1'], ['+'], ['2']], [['f'], ['('], ['a'], [','], ['b'], [')']], [['a'], ['*'], ['b']], [['('], ['a'], [')']],
   [['a'], ['<'], ['b']], [['a', '_', '1']], [['a', 'B', '2']], [['a'], ['-'], ['1']], [['1'], ['-'], ['a']], [['a'], ['/'], ['b']],
   [['a'], ['.'], ['b']], [['a'], ['['], ['0'], [']']], [['a'], ['='], ['b']], [['a'], ['=', '='], ['b']], [['a'], ['!', '='], ['b']],
   [['a'], ['<', '='], ['b']], [['a'], ['>', '='], ['b']], [['a'], ['&', '&'], ['b']], [['a'], ['|', '|'], ['b']], [['!'], ['a']],
   [['a'], ['+', '='], ['1']], [['a'], ['<', '<'], ['2']], [['{'], ['a'], [';'], ['}']], [['1'], ['.', '.', '.'], ['2']],
   [['1'], ['.', '.', '<'], ['2']], [['1', '.', '5'], ['+'], ['2']], [['1', 'e', '3'], ['-'], ['2']], [['"', 'a', ' ', 'b', '"']],
   [['"', '"']], [['"', 'a', '\\', '"', 'b', '"']], [['"', '\\', '\\', '"']], [['/', '/', ' ', 'a', ' ', 'b']], [['/', '/', 'a']],
   [['/', '*', ' ', 'a', ' ', '*', '/']], [['/', '*', '*', '/']], [['/', '*', ' ', '*', ' ', '*', '/']], [['a'], [' '], ['-'], [' '], ['b']],
   [['a'], [' '], ['/'], [' '], ['b']]]

/-- ISO 7185, 6.1.2 Special-symbols. -/
def pascalP : List Phrase :=
  [[['a'], ['+'], ['1']], [['1'], ['+'], ['2']], [['f'], ['('], ['a'], [','], ['b'], [')']], [['a'], ['*'], ['b']], [['('], ['a'], [')']],
   [['a'], ['<'], ['b']], [['a', '_', '1']], [['a', 'B', '2']], [['a'], ['-'], ['1']], [['1'], ['-'], ['a']], [['a'], ['/'], ['b']],
   [['a'], ['.'], ['b']], [['a'], ['['], ['0'], [']']], [['a'], ['='], ['b']], [['a'], ['<', '>'], ['b']], [['a'], ['<', '='], ['b']],
   [['a'], [':', '='], ['b']], [['-'], ['1']], [['1'], ['.', '.'], ['2']], [['1', '.', '5'], ['+'], ['2']], [['1', 'e', '3'], ['-'], ['2']],
   [['\'', 'a', ' ', 'b', '\'']], [['(', '*', ' ', 'a', ' ', '*', ')']], [['{', ' ', 'a', ' ', '}']], [['a'], [' '], ['-'], [' '], ['b']],
   [['a'], [' '], ['/'], [' '], ['b']]]

/-- Delphi Language Guide, Fundamental Syntactic Elements. -/
def delphiP : List Phrase :=
  [[['a'], ['+'], ['1']], [['1'], ['+'], ['2']], [['f'], ['('], ['a'], [','], ['b'], [')']], [['a'], ['*'], ['b']], [['('], ['a'], [')']],
   [['a'], ['<'], ['b']], [['a', '_', '1']], [['a', 'B', '2']], [['a'], ['-'], ['1']], [['1'], ['-'], ['a']], [['a'], ['/'], ['b']],
   [['a'], ['.'], ['b']], [['a'], ['['], ['0'], [']']], [['a'], ['='], ['b']], [['a'], ['<', '>'], ['b']], [['a'], ['<', '='], ['b']],
   [['a'], [':', '='], ['b']], [['-'], ['1']], [['1'], ['.', '.'], ['2']], [['1', '.', '5'], ['+'], ['2']], [['1', 'e', '3'], ['-'], ['2']],
   [['\'', 'a', ' ', 'b', '\'']], [['/', '/', ' ', 'a', ' ', 'b']], [['/', '/', 'a']], [['(', '*', ' ', 'a', ' ', '*', ')']],
   [['{', ' ', 'a', ' ', '}']], [['a'], [' '], ['-'], [' '], ['b']], [['a'], [' '], ['/'], [' '], ['b']]]

/-- Ada Reference Manual, 2.2 Lexical Elements. -/
def adaP : List Phrase :=
  [[['a'], ['+'], ['1']], [['1'], ['+'], ['2']], [['f'], ['('], ['a'], [','], ['b'], [')']], [['a'], ['*'], ['b']], [['('], ['a'], [')']],
   [['a'], ['<'], ['b']], [['a', '_', '1']], [['a', 'B', '2']], [['a'], ['-'], ['1']], [['1'], ['-'], ['a']], [['a'], ['/'], ['b']],
   [['a'], ['.'], ['b']], [['a'], ['='], ['b']], [['a'], ['/', '='], ['b']], [['a'], ['<', '='], ['b']], [['a'], [':', '='], ['b']],
   [['-'], ['1']], [['1'], ['.', '.'], ['2']], [['"', 'a', ' ', 'b', '"']], [['"', '"']], [['\'', 'a', '\'']],
   [['-', '-', ' ', 'a', ' ', 'b']], [['a'], [' '], ['-'], [' '], ['b']], [['a'], [' '], ['/'], [' '], ['b']]]

/-- IEEE 1076, 15.3 Lexical elements. -/
def vhdlP : List Phrase :=
  [[['a'], ['+'], ['1']], [['1'], ['+'], ['2']], [['f'], ['('], ['a'], [','], ['b'], [')']], [['a'], ['*'], ['b']], [['('], ['a'], [')']],
   [['a'], ['<'], ['b']], [['a', '_', '1']], [['a', 'B', '2']], [['a'], ['-'], ['1']], [['1'], ['-'], ['a']], [['a'], ['/'], ['b']],
   [['a'], ['.'], ['b']], [['a'], ['='], ['b']], [['a'], ['/', '='], ['b']], [['a'], ['<', '='], ['b']], [['a'], [':', '='], ['b']],
   [['-'], ['1']], [['"', 'a', ' ', 'b', '"']], [['"', '"']], [['\'', 'a', '\'']], [['-', '-', ' ', 'a', ' ', 'b']],
   [['a'], [' '], ['-'], [' '], ['b']], [['a'], [' '], ['/'], [' '], ['b']]]

/-- Fortran 2018, 6.2 Low-level syntax. -/
def fortranP : List Phrase :=
  [[['a'], ['+'], ['1']], [['1'], ['+'], ['2']], [['f'], ['('], ['a'], [','], ['b'], [')']], [['a'], ['*'], ['b']], [['('], ['a'], [')']],
   [['a'], ['<'], ['b']], [['a', '_', '1']], [['a', 'B', '2']], [['a'], ['-'], ['1']], [['1'], ['-'], ['a']], [['a'], ['/'], ['b']],
   [['a'], ['='], ['b']], [['a'], ['/', '='], ['b']], [['a'], ['<', '='], ['b']], [['-'], ['1']], [['1', '.', '5'], ['+'], ['2']],
   [['1', 'e', '3'], ['-'], ['2']], [['"', 'a', ' ', 'b', '"']], [['"', '"']], [['\'', 'a', ' ', 'b', '\'']], [['!', ' ', 'a', ' ', 'b']]]

/-- The OCaml Manual, Lexical conventions. -/
def ocamlP : List Phrase :=
  [[['a'], ['+'], ['1']], [['1'], ['+'], ['2']], [['f'], ['('], ['a'], [','], ['b'], [')']], [['a'], ['*'], ['b']], [['('], ['a'], [')']],
   [['a'], ['<'], ['b']], [['a', '_', '1']], [['a', 'B', '2']], [['a'], ['-'], ['1']], [['1'], ['-'], ['a']], [['a'], ['/'], ['b']],
   [['a'], ['.'], ['b']], [['a'], ['='], ['b']], [['a'], [':', '='], ['b']], [['a'], ['&', '&'], ['b']], [['1', '.', '5'], ['+'], ['2']],
   [['1', 'e', '3'], ['-'], ['2']], [['"', 'a', ' ', 'b', '"']], [['"', '"']], [['"', 'a', '\\', '"', 'b', '"']], [['"', '\\', '\\', '"']],
   [['\'', 'a', '\'']]]

/-- The Elm core library, Basics and List. -/
def elmP : List Phrase :=
  [[['a'], ['+'], ['1']], [['1'], ['+'], ['2']], [['f'], ['('], ['a'], [','], ['b'], [')']], [['a'], ['*'], ['b']], [['('], ['a'], [')']],
   [['a'], ['<'], ['b']], [['a', '_', '1']], [['a', 'B', '2']], [['a'], ['-'], ['1']], [['1'], ['-'], ['a']], [['a'], ['/'], ['b']],
   [['a'], ['.'], ['b']], [['a'], ['='], ['b']], [['a'], ['&', '&'], ['b']], [['a'], ['|', '|'], ['b']], [['-'], ['1']],
   [['1', '.', '5'], ['+'], ['2']], [['1', 'e', '3'], ['-'], ['2']]]

/-- perlop. -/
def perlP : List Phrase :=
  [[['a'], ['+'], ['1']], [['1'], ['+'], ['2']], [['f'], ['('], ['a'], [','], ['b'], [')']], [['a'], ['*'], ['b']], [['('], ['a'], [')']],
   [['a'], ['<'], ['b']], [['a', '_', '1']], [['a', 'B', '2']], [['a'], ['-'], ['1']], [['1'], ['-'], ['a']], [['a'], ['/'], ['b']],
   [['a'], ['['], ['0'], [']']], [['a'], ['='], ['b']], [['a'], ['=', '='], ['b']], [['a'], ['!', '='], ['b']], [['a'], ['<', '='], ['b']],
   [['a'], ['>', '='], ['b']], [['a'], ['&', '&'], ['b']], [['a'], ['|', '|'], ['b']], [['!'], ['a']], [['-'], ['1']],
   [['a'], ['='], ['-'], ['1']], [['a'], ['+', '+']], [['a'], ['+', '+'], ['+'], ['b']], [['a'], ['+', '='], ['1']],
   [['a'], ['<', '<'], ['2']], [['a'], ['?'], ['b'], [':'], ['c']], [['{'], ['a'], [';'], ['}']], [['1'], ['.', '.'], ['2']],
   [['1', '.', '5'], ['+'], ['2']], [['1', 'e', '3'], ['-'], ['2']], [['a'], ['-', '>'], ['b']], [['a'], ['=', '>'], ['b']],
   [['"', 'a', ' ', 'b', '"']], [['"', '"']], [['"', 'a', '\\', '"', 'b', '"']], [['"', '\\', '\\', '"']], [['\'', 'a', ' ', 'b', '\'']],
   [['a'], [' '], ['-'], [' '], ['b']], [['a'], [' '], ['/'], [' '], ['b']]]

/-- ISO 9075-2, 5.2 token and separator. -/
def sqlP : List Phrase :=
  [[['a'], ['+'], ['1']], [['1'], ['+'], ['2']], [['f'], ['('], ['a'], [','], ['b'], [')']], [['a'], ['*'], ['b']], [['('], ['a'], [')']],
   [['a'], ['<'], ['b']], [['a', '_', '1']], [['a', 'B', '2']], [['a'], ['-'], ['1']], [['1'], ['-'], ['a']], [['a'], ['/'], ['b']],
   [['a'], ['.'], ['b']], [['a'], ['='], ['b']], [['a'], ['<', '>'], ['b']], [['a'], ['<', '='], ['b']], [['-'], ['1']],
   [['1', '.', '5'], ['+'], ['2']], [['1', 'e', '3'], ['-'], ['2']], [['\'', 'a', ' ', 'b', '\'']], [['-', '-', ' ', 'a', ' ', 'b']],
   [['/', '*', ' ', 'a', ' ', '*', '/']], [['/', '*', '*', '/']], [['/', '*', ' ', '*', ' ', '*', '/']]]

/-- IEEE 1364, 3.4 Operators. -/
def verilogP : List Phrase :=
  [[['a'], ['+'], ['1']], [['1'], ['+'], ['2']], [['f'], ['('], ['a'], [','], ['b'], [')']], [['a'], ['*'], ['b']], [['('], ['a'], [')']],
   [['a'], ['<'], ['b']], [['a', '_', '1']], [['a', 'B', '2']], [['a'], ['-'], ['1']], [['1'], ['-'], ['a']], [['a'], ['/'], ['b']],
   [['a'], ['.'], ['b']], [['a'], ['['], ['0'], [']']], [['a'], ['='], ['b']], [['a'], ['=', '='], ['b']], [['a'], ['!', '='], ['b']],
   [['a'], ['<', '='], ['b']], [['a'], ['>', '='], ['b']], [['a'], ['&', '&'], ['b']], [['a'], ['|', '|'], ['b']], [['!'], ['a']],
   [['-'], ['1']], [['a'], ['<', '<'], ['2']], [['a'], ['?'], ['b'], [':'], ['c']], [['"', 'a', ' ', 'b', '"']], [['"', '"']],
   [['/', '/', ' ', 'a', ' ', 'b']], [['/', '/', 'a']], [['/', '*', ' ', 'a', ' ', '*', '/']], [['/', '*', '*', '/']],
   [['/', '*', ' ', '*', ' ', '*', '/']], [['a'], [' '], ['-'], [' '], ['b']], [['a'], [' '], ['/'], [' '], ['b']]]

/-- Wolfram Language, Operator Input Forms. -/
def wolframP : List Phrase :=
  [[['a'], ['+'], ['1']], [['1'], ['+'], ['2']], [['f'], ['('], ['a'], [','], ['b'], [')']], [['a'], ['*'], ['b']], [['('], ['a'], [')']],
   [['a'], ['<'], ['b']], [['a', 'B', '2']], [['a'], ['-'], ['1']], [['1'], ['-'], ['a']], [['a'], ['/'], ['b']], [['a'], ['='], ['b']],
   [['a'], [':', '='], ['b']], [['a'], ['&', '&'], ['b']], [['a'], ['|', '|'], ['b']], [['-'], ['1']]]

/-- Nim Manual, Operators and Other tokens. -/
def nimP : List Phrase :=
  [[['a'], ['+'], ['1']], [['1'], ['+'], ['2']], [['f'], ['('], ['a'], [','], ['b'], [')']], [['a'], ['*'], ['b']], [['('], ['a'], [')']],
   [['a'], ['<'], ['b']], [['a', '_', '1']], [['a', 'B', '2']], [['a'], ['-'], ['1']], [['1'], ['-'], ['a']], [['a'], ['/'], ['b']],
   [['a'], ['.'], ['b']], [['a'], ['['], ['0'], [']']], [['a'], ['='], ['b']], [['a'], ['=', '='], ['b']], [['a'], ['!', '='], ['b']],
   [['a'], ['<', '='], ['b']], [['a'], ['>', '='], ['b']], [['a'], ['+', '='], ['1']], [['1'], ['.', '.'], ['2']],
   [['1', '.', '5'], ['+'], ['2']], [['1', 'e', '3'], ['-'], ['2']], [['"', 'a', ' ', 'b', '"']], [['"', '"']],
   [['"', 'a', '\\', '"', 'b', '"']], [['"', '\\', '\\', '"']], [['#', ' ', 'a', ' ', 'b']]]

/-- Lean 4 prelude notations. -/
def leanP : List Phrase :=
  [[['a'], ['+'], ['1']], [['1'], ['+'], ['2']], [['f'], ['('], ['a'], [','], ['b'], [')']], [['a'], ['*'], ['b']], [['('], ['a'], [')']],
   [['a'], ['<'], ['b']], [['a', '_', '1']], [['a', 'B', '2']], [['a'], ['-'], ['1']], [['1'], ['-'], ['a']], [['a'], ['/'], ['b']],
   [['a'], ['['], ['0'], [']']], [['a'], [':', '='], ['b']], [['"', 'a', ' ', 'b', '"']], [['"', '"']], [['"', 'a', '\\', '"', 'b', '"']],
   [['"', '\\', '\\', '"']], [['-', '-', ' ', 'a', ' ', 'b']], [['/', '-', ' ', 'a', ' ', '-', '/']]]

/-- Haskell 2010 Report, 2 Lexical Structure; operators of the Prelude. -/
def haskellP : List Phrase :=
  [[['a'], ['+'], ['1']], [['1'], ['+'], ['2']], [['f'], ['('], ['a'], [','], ['b'], [')']], [['a'], ['*'], ['b']], [['('], ['a'], [')']],
   [['a'], ['<'], ['b']], [['a', '_', '1']], [['a', 'B', '2']], [['a'], ['-'], ['1']], [['1'], ['-'], ['a']], [['a'], ['/'], ['b']],
   [['a'], ['='], ['b']], [['a'], ['&', '&'], ['b']], [['a'], ['|', '|'], ['b']], [['-'], ['1']], [['['], ['1'], ['.', '.'], ['2'], [']']],
   [['1', '.', '5'], ['+'], ['2']], [['1', 'e', '3'], ['-'], ['2']], [['"', 'a', ' ', 'b', '"']], [['"', '"']],
   [['"', 'a', '\\', '"', 'b', '"']], [['"', '\\', '\\', '"']], [['\'', 'a', '\'']], [['-', '-', ' ', 'a', ' ', 'b']],
   [['{', '-', ' ', 'a', ' ', '-', '}']]]

/-- Coq Reference Manual, Lexical conventions. -/
def coqP : List Phrase :=
  [[['a'], ['+'], ['1']], [['1'], ['+'], ['2']], [['f'], ['('], ['a'], [','], ['b'], [')']], [['a'], ['*'], ['b']], [['('], ['a'], [')']],
   [['a'], ['<'], ['b']], [['a', '_', '1']], [['a', 'B', '2']], [['a'], ['-'], ['1']], [['1'], ['-'], ['a']], [['a'], ['/'], ['b']],
   [['a'], [':', '='], ['b']], [['"', 'a', ' ', 'b', '"']], [['"', '"']], [['(', '*', ' ', 'a', ' ', '*', ')']]]

/-- PureScript Language Reference; operators of the Prelude. -/
def purescriptP : List Phrase :=
  [[['a'], ['+'], ['1']], [['1'], ['+'], ['2']], [['f'], ['('], ['a'], [','], ['b'], [')']], [['a'], ['*'], ['b']], [['('], ['a'], [')']],
   [['a'], ['<'], ['b']], [['a', '_', '1']], [['a', 'B', '2']], [['a'], ['-'], ['1']], [['1'], ['-'], ['a']], [['a'], ['/'], ['b']],
   [['a'], ['='], ['b']], [['a'], ['&', '&'], ['b']], [['a'], ['|', '|'], ['b']], [['['], ['1'], ['.', '.'], ['2'], [']']],
   [['1', '.', '5'], ['+'], ['2']], [['1', 'e', '3'], ['-'], ['2']], [['"', 'a', ' ', 'b', '"']], [['"', '"']],
   [['"', 'a', '\\', '"', 'b', '"']], [['"', '\\', '\\', '"']], [['\'', 'a', '\'']], [['-', '-', ' ', 'a', ' ', 'b']],
   [['{', '-', ' ', 'a', ' ', '-', '}']]]

/-- Crystal Language Reference, Operators. -/
def crystalP : List Phrase :=
  [[['a'], ['+'], ['1']], [['1'], ['+'], ['2']], [['f'], ['('], ['a'], [','], ['b'], [')']], [['a'], ['*'], ['b']], [['('], ['a'], [')']],
   [['a'], ['<'], ['b']], [['a', '_', '1']], [['a', 'B', '2']], [['a'], ['-'], ['1']], [['1'], ['-'], ['a']], [['a'], ['/'], ['b']],
   [['a'], ['.'], ['b']], [['a'], ['['], ['0'], [']']], [['a'], ['='], ['b']], [['a'], ['=', '='], ['b']], [['a'], ['!', '='], ['b']],
   [['a'], ['<', '='], ['b']], [['a'], ['>', '='], ['b']], [['a'], ['&', '&'], ['b']], [['a'], ['|', '|'], ['b']], [['!'], ['a']],
   [['a'], ['+', '='], ['1']], [['a'], ['<', '<'], ['2']], [['1'], ['.', '.'], ['2']], [['1', '.', '5'], ['+'], ['2']],
   [['1', 'e', '3'], ['-'], ['2']], [['"', 'a', ' ', 'b', '"']], [['"', '"']], [['"', 'a', '\\', '"', 'b', '"']], [['"', '\\', '\\', '"']],
   [['\'', 'a', '\'']], [['#', ' ', 'a', ' ', 'b']], [['a'], [' '], ['-'], [' '], ['b']], [['a'], [' '], ['/'], [' '], ['b']]]

/-- MATLAB Operators and Special Characters. -/
def matlabP : List Phrase :=
  [[['a'], ['+'], ['1']], [['1'], ['+'], ['2']], [['f'], ['('], ['a'], [','], ['b'], [')']], [['a'], ['*'], ['b']], [['('], ['a'], [')']],
   [['a'], ['<'], ['b']], [['a', '_', '1']], [['a', 'B', '2']], [['a'], ['-'], ['1']], [['1'], ['-'], ['a']], [['a'], ['/'], ['b']],
   [['a'], ['.'], ['b']], [['a'], ['='], ['b']], [['a'], ['=', '='], ['b']], [['a'], ['~', '='], ['b']], [['a'], ['<', '='], ['b']],
   [['-'], ['1']], [['a'], ['='], ['-'], ['1']], [['1', '.', '5'], ['+'], ['2']], [['1', 'e', '3'], ['-'], ['2']],
   [['"', 'a', ' ', 'b', '"']], [['"', '"']], [['\'', 'a', ' ', 'b', '\'']], [['%', ' ', 'a', ' ', 'b']], [['a'], [' '], ['-'], [' '], ['b']],
   [['a'], [' '], ['/'], [' '], ['b']]]

/-- Lua 5.4 Reference Manual, 3.1 Lexical Conventions. -/
def luaP : List Phrase :=
  [[['a'], ['+'], ['1']], [['1'], ['+'], ['2']], [['f'], ['('], ['a'], [','], ['b'], [')']], [['a'], ['*'], ['b']], [['('], ['a'], [')']],
   [['a'], ['<'], ['b']], [['a', '_', '1']], [['a', 'B', '2']], [['a'], ['-'], ['1']], [['1'], ['-'], ['a']], [['a'], ['/'], ['b']],
   [['a'], ['.'], ['b']], [['a'], ['='], ['b']], [['a'], ['=', '='], ['b']], [['a'], ['~', '='], ['b']], [['a'], ['<', '='], ['b']],
   [['-'], ['1']], [['a'], ['='], ['-'], ['1']], [['a'], ['<', '<'], ['2']], [['1', '.', '5'], ['+'], ['2']], [['1', 'e', '3'], ['-'], ['2']],
   [['"', 'a', ' ', 'b', '"']], [['"', '"']], [['"', 'a', '\\', '"', 'b', '"']], [['"', '\\', '\\', '"']], [['\'', 'a', ' ', 'b', '\'']],
   [['-', '-', ' ', 'a', ' ', 'b']], [['-', '-', '[', '[', ' ', 'a', ' ', ']', ']']], [['a'], [' '], ['-'], [' '], ['b']],
   [['a'], ['.', '.'], ['b']], [['a'], [':'], ['b'], ['('], [')']]]

/-- ISO 13211-1, 6.3.4.4 The operator table, 6.4 Tokens. -/
def prologP : List Phrase :=
  [[['a'], ['+'], ['1']], [['1'], ['+'], ['2']], [['f'], ['('], ['a'], [','], ['b'], [')']], [['a'], ['*'], ['b']], [['('], ['a'], [')']],
   [['a'], ['<'], ['b']], [['a', '_', '1']], [['a', 'B', '2']], [['a'], ['-'], ['1']], [['1'], ['-'], ['a']], [['a'], ['/'], ['b']],
   [['a'], ['='], ['b']], [['1', '.', '5'], ['+'], ['2']], [['"', 'a', ' ', 'b', '"']], [['"', '"']], [['%', ' ', 'a', ' ', 'b']],
   [['/', '*', ' ', 'a', ' ', '*', '/']], [['/', '*', '*', '/']], [['/', '*', ' ', '*', ' ', '*', '/']], [['a'], [':', '-'], ['b'], ['.']],
   [['['], ['a'], ['|'], ['b'], [']']]]

/-- The Julia Language, Mathematical Operations; Punctuation. -/
def juliaP : List Phrase :=
  [[['a'], ['+'], ['1']], [['1'], ['+'], ['2']], [['f'], ['('], ['a'], [','], ['b'], [')']], [['a'], ['*'], ['b']], [['('], ['a'], [')']],
   [['a'], ['<'], ['b']], [['a', '_', '1']], [['a', 'B', '2']], [['a'], ['-'], ['1']], [['1'], ['-'], ['a']], [['a'], ['/'], ['b']],
   [['a'], ['.'], ['b']], [['a'], ['['], ['0'], [']']], [['a'], ['='], ['b']], [['a'], ['=', '='], ['b']], [['a'], ['!', '='], ['b']],
   [['a'], ['<', '='], ['b']], [['a'], ['>', '='], ['b']], [['a'], ['&', '&'], ['b']], [['a'], ['|', '|'], ['b']], [['!'], ['a']],
   [['-'], ['1']], [['a'], ['+', '='], ['1']], [['a'], ['<', '<'], ['2']], [['1', '.', '5'], ['+'], ['2']], [['1', 'e', '3'], ['-'], ['2']],
   [['"', 'a', ' ', 'b', '"']], [['"', '"']], [['"', 'a', '\\', '"', 'b', '"']], [['"', '\\', '\\', '"']], [['\'', 'a', '\'']],
   [['#', ' ', 'a', ' ', 'b']], [['#', '=', ' ', 'a', ' ', '=', '#']], [['a'], [' '], ['-'], [' '], ['b']],
   [['a'], [' '], ['/'], [' '], ['b']]]

/-- Dhall standard, dhall.abnf. -/
def dhallP : List Phrase :=
  [[['a'], ['+'], ['1']], [['('], ['a'], [')']], [['a'], [':'], ['b']], [['['], ['a'], [','], ['b'], [']']]]

/-- Nix Reference Manual, Operators. -/
def nixP : List Phrase :=
  [[['a'], ['+'], ['1']], [['('], ['a'], [')']], [['a'], ['.'], ['b']], [['a'], ['='], ['b']], [['a'], ['&', '&'], ['b']],
   [['a'], ['|', '|'], ['b']], [['"', 'a', ' ', 'b', '"']], [['"', '"']], [['"', 'a', '\\', '"', 'b', '"']], [['"', '\\', '\\', '"']],
   [['#', ' ', 'a', ' ', 'b']], [['/', '*', ' ', 'a', ' ', '*', '/']], [['/', '*', '*', '/']], [['/', '*', ' ', '*', ' ', '*', '/']],
   [['{'], ['a'], ['='], ['1'], [';'], ['}']], [['a'], [':'], ['b']], [['a'], ['/', '/'], ['b']]]

/-- ANSI Smalltalk, 3.5 Lexical grammar. -/
def smalltalkP : List Phrase :=
  [[['a'], [':', '='], ['b']], [['a'], ['+'], ['1']], [['('], ['a'], [')']], [['\'', 'a', ' ', 'b', '\'']], [['"', 'a', ' ', 'b', '"']]]

/-- PowerShell Language Specification, 2.3.5 Operators and punctuators. -/
def powershellP : List Phrase :=
  [[['1'], ['.', '.'], ['2']], [['"', 'a', ' ', 'b', '"']], [['"', '"']], [['\'', 'a', ' ', 'b', '\'']], [['#', ' ', 'a', ' ', 'b']]]

/-- GraphQL specification, 2.1.8 Punctuators. -/
def graphqlP : List Phrase :=
  [[['{'], ['a'], ['('], ['b'], [':'], ['1'], [')'], ['}']], [['$'], ['a'], [':'], ['['], ['B'], ['!'], [']']]]

/-- Protocol Buffers language specification. -/
def protobufP : List Phrase :=
  [[['"', 'a', ' ', 'b', '"']], [['"', '"']], [['"', 'a', '\\', '"', 'b', '"']], [['"', '\\', '\\', '"']], [['/', '/', ' ', 'a', ' ', 'b']],
   [['/', '/', 'a']], [['/', '*', ' ', 'a', ' ', '*', '/']], [['/', '*', '*', '/']], [['/', '*', ' ', '*', ' ', '*', '/']],
   [['a'], ['='], ['1'], [';']], [['a'], ['{'], ['}']]]

/-- CSS Syntax Module, Tokenization. -/
def cssP : List Phrase :=
  [[['"', 'a', ' ', 'b', '"']], [['"', '"']], [['"', 'a', '\\', '"', 'b', '"']], [['"', '\\', '\\', '"']], [['\'', 'a', ' ', 'b', '\'']],
   [['/', '*', ' ', 'a', ' ', '*', '/']], [['/', '*', '*', '/']], [['/', '*', ' ', '*', ' ', '*', '/']],
   [['a'], ['{'], ['b'], [':'], ['c'], [';'], ['}']], [['a'], ['{'], ['}']]]

/-- WebAssembly specification, Text Format: Lexical Format. -/
def watP : List Phrase :=
  [[['('], [')']], [['('], ['i', '3', '2', '.', 'a', 'd', 'd'], [')']]]

/-- OMG IDL, 7.2 Lexical Conventions. -/
def idlP : List Phrase :=
  [[['"', 'a', ' ', 'b', '"']], [['"', '"']], [['"', 'a', '\\', '"', 'b', '"']], [['"', '\\', '\\', '"']], [['\'', 'a', '\'']],
   [['/', '/', ' ', 'a', ' ', 'b']], [['/', '/', 'a']], [['/', '*', ' ', 'a', ' ', '*', '/']], [['/', '*', '*', '/']],
   [['/', '*', ' ', '*', ' ', '*', '/']], [['a'], [':', ':'], ['b']], [['a'], [';']], [['a'], ['<'], ['b'], ['>']]]

/-- nginx, Configuration file structure. -/
def nginxP : List Phrase :=
  [[['"', 'a', ' ', 'b', '"']], [['"', '"']], [['#', ' ', 'a', ' ', 'b']], [['a'], [' '], ['b'], [';']], [['a'], [' '], ['{'], ['}']]]

/-- WIT format, Operators and Punctuation. -/
def witComponentP : List Phrase :=
  [[['a'], [':'], ['b'], [';']], [['a'], ['('], ['b'], [':'], ['c'], [')']], [['l', 'i', 's', 't'], ['<'], ['a'], ['>']],
   [['('], [')'], ['-', '>'], ['a']]]

/-- The TeXbook, chapter 7. -/
def texP : List Phrase :=
  [[['{'], ['a'], ['}']], [['\\', 'a']], [['$'], ['a'], ['$']]]

/-- J Dictionary, Words. -/
def jP : List Phrase :=
  [[['a'], ['=', ':'], ['1']], [['a'], ['+'], ['1']]]

end Phrases

end Oaks.Spec
