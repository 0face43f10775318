import Verif.Spec.Text

/-! Words of languages: the operators and separators of the language reference, two names, and numbers in the notations the
language has. Each of them is one lexical element of its language. -/
namespace Oaks.Spec

/-- Words, each with a blank after it. -/
abbrev WordLine := List (Str × Char)

/-- The text of a line of words. -/
def WordLine.text : WordLine → Str
  | [] => []
  | (w, d) :: x => w ++ d :: WordLine.text x

/-- Where the words and the blanks of a line begin and end. -/
def WordLine.spans (o : Nat) : WordLine → List (Nat × Nat)
  | [] => []
  | (w, _) :: x => (o, o + blen w) :: (o + blen w, o + blen w + 1) :: WordLine.spans (o + blen w + 1) x

namespace Words

/-- JLS, 3.10 to 3.12. -/
def javaW : List Str :=
  [['+'], ['-'], ['*'], ['/'], ['%'], ['+', '+'], ['-', '-'], ['='], ['+', '='], ['-', '='], ['*', '='], ['/', '='], ['%', '='], ['&', '='],
   ['|', '='], ['^', '='], ['<', '<', '='], ['>', '>', '='], ['>', '>', '>', '='], ['=', '='], ['!', '='], ['<'], ['>'], ['<', '='],
   ['>', '='], ['&', '&'], ['|', '|'], ['!'], ['&'], ['|'], ['^'], ['~'], ['<', '<'], ['>', '>'], ['>', '>', '>'], ['?'], [':'], ['-', '>'],
   [':', ':'], ['('], [')'], ['{'], ['}'], ['['], [']'], [';'], [','], ['.'], ['.', '.', '.'], ['@'], ['x'], ['n', 'a', 'm', 'e'], ['4', '2'],
   ['3', '.', '1', '4'], ['1', 'e', '1', '0'], ['2', '.', '5', 'e', '-', '3'], ['0', 'x', 'F', 'F'], ['0', 'b', '1', '0', '1'],
   ['1', '_', '0', '0', '0']]

/-- The Go Programming Language Specification, Operators and punctuation. -/
def goW : List Str :=
  [['+'], ['&'], ['+', '='], ['&', '='], ['&', '&'], ['=', '='], ['!', '='], ['('], [')'], ['-'], ['|'], ['-', '='], ['|', '='], ['|', '|'],
   ['<'], ['<', '='], ['['], [']'], ['*'], ['^'], ['*', '='], ['^', '='], ['<', '-'], ['>'], ['>', '='], ['{'], ['}'], ['/'], ['<', '<'],
   ['/', '='], ['<', '<', '='], ['+', '+'], ['='], [':', '='], [','], [';'], ['%'], ['>', '>'], ['%', '='], ['>', '>', '='], ['-', '-'],
   ['!'], ['.', '.', '.'], ['.'], [':'], ['&', '^'], ['&', '^', '='], ['~'], ['x'], ['n', 'a', 'm', 'e'], ['4', '2'], ['3', '.', '1', '4'],
   ['1', 'e', '1', '0'], ['2', '.', '5', 'e', '-', '3'], ['0', 'x', 'F', 'F'], ['0', 'b', '1', '0', '1'], ['1', '_', '0', '0', '0']]

/-- Kotlin language specification, Lexical grammar. -/
def kotlinW : List Str :=
  [['+'], ['-'], ['*'], ['/'], ['%'], ['='], ['+', '='], ['-', '='], ['*', '='], ['/', '='], ['%', '='], ['+', '+'], ['-', '-'], ['&', '&'],
   ['|', '|'], ['!'], ['=', '='], ['!', '='], ['=', '=', '='], ['!', '=', '='], ['<'], ['>'], ['<', '='], ['>', '='], ['!', '!'], ['?', '.'],
   ['?', ':'], [':', ':'], ['.', '.'], ['.', '.', '<'], [':'], ['-', '>'], ['@'], [';'], ['('], [')'], ['['], [']'], ['{'], ['}'], [','],
   ['.'], ['?'], ['x'], ['n', 'a', 'm', 'e'], ['4', '2'], ['3', '.', '1', '4'], ['1', 'e', '1', '0'], ['2', '.', '5', 'e', '-', '3'],
   ['0', 'x', 'F', 'F'], ['0', 'b', '1', '0', '1'], ['1', '_', '0', '0', '0']]

/-- PHP Language Specification, Operators and Punctuators. -/
def phpW : List Str :=
  [['+'], ['-'], ['*'], ['/'], ['%'], ['*', '*'], ['='], ['+', '='], ['-', '='], ['*', '='], ['*', '*', '='], ['/', '='], ['.', '='],
   ['%', '='], ['&', '='], ['|', '='], ['^', '='], ['<', '<', '='], ['>', '>', '='], ['?', '?', '='], ['=', '='], ['=', '=', '='], ['!', '='],
   ['<', '>'], ['!', '=', '='], ['<'], ['>'], ['<', '='], ['>', '='], ['<', '=', '>'], ['&', '&'], ['|', '|'], ['!'], ['+', '+'], ['-', '-'],
   ['&'], ['|'], ['^'], ['~'], ['<', '<'], ['>', '>'], ['.'], ['?', '?'], ['?'], [':'], ['-', '>'], ['?', '-', '>'], [':', ':'], ['=', '>'],
   [';'], [','], ['('], [')'], ['['], [']'], ['{'], ['}'], ['@'], ['.', '.', '.'], ['\\'], ['$'], ['x'], ['n', 'a', 'm', 'e'], ['4', '2'],
   ['3', '.', '1', '4'], ['1', 'e', '1', '0'], ['2', '.', '5', 'e', '-', '3'], ['0', 'x', 'F', 'F'], ['0', 'b', '1', '0', '1'],
   ['1', '_', '0', '0', '0']]

/-- ECMAScript, Punctuators; TypeScript adds `@`. -/
def typescriptW : List Str :=
  [['{'], ['}'], ['('], [')'], ['['], [']'], ['.'], ['.', '.', '.'], [';'], [','], ['<'], ['>'], ['<', '='], ['>', '='], ['=', '='],
   ['!', '='], ['=', '=', '='], ['!', '=', '='], ['+'], ['-'], ['*'], ['/'], ['%'], ['*', '*'], ['+', '+'], ['-', '-'], ['<', '<'],
   ['>', '>'], ['>', '>', '>'], ['&'], ['|'], ['^'], ['!'], ['~'], ['&', '&'], ['|', '|'], ['?', '?'], ['?'], ['?', '.'], [':'], ['='],
   ['+', '='], ['-', '='], ['*', '='], ['/', '='], ['%', '='], ['*', '*', '='], ['<', '<', '='], ['>', '>', '='], ['>', '>', '>', '='],
   ['&', '='], ['|', '='], ['^', '='], ['&', '&', '='], ['|', '|', '='], ['?', '?', '='], ['=', '>'], ['@'], ['x'], ['n', 'a', 'm', 'e'],
   ['4', '2'], ['3', '.', '1', '4'], ['1', 'e', '1', '0'], ['2', '.', '5', 'e', '-', '3'], ['0', 'x', 'F', 'F'], ['0', 'b', '1', '0', '1'],
   ['1', '_', '0', '0', '0']]

/-- C# language specification, 6.4.6 Operators and punctuators. -/
def csharpW : List Str :=
  [['{'], ['}'], ['['], [']'], ['('], [')'], ['.'], ['.', '.'], [','], [':'], [';'], ['+'], ['-'], ['*'], ['/'], ['%'], ['&'], ['|'], ['^'],
   ['!'], ['~'], ['='], ['<'], ['>'], ['?'], ['?', '?'], [':', ':'], ['+', '+'], ['-', '-'], ['&', '&'], ['|', '|'], ['-', '>'], ['=', '='],
   ['!', '='], ['<', '='], ['>', '='], ['+', '='], ['-', '='], ['*', '='], ['/', '='], ['%', '='], ['&', '='], ['|', '='], ['^', '='],
   ['<', '<'], ['<', '<', '='], ['=', '>'], ['?', '.'], ['?', '?', '='], ['x'], ['n', 'a', 'm', 'e'], ['4', '2'], ['3', '.', '1', '4'],
   ['1', 'e', '1', '0'], ['2', '.', '5', 'e', '-', '3'], ['0', 'x', 'F', 'F'], ['0', 'b', '1', '0', '1'], ['1', '_', '0', '0', '0']]

/-- The Swift Programming Language, Lexical Structure; the operators of the standard library. -/
def swiftW : List Str :=
  [['+'], ['-'], ['*'], ['/'], ['%'], ['='], ['+', '='], ['-', '='], ['*', '='], ['/', '='], ['%', '='], ['=', '='], ['!', '='],
   ['=', '=', '='], ['!', '=', '='], ['<'], ['>'], ['<', '='], ['>', '='], ['&', '&'], ['|', '|'], ['!'], ['?', '?'], ['?'], ['.', '.', '.'],
   ['.', '.', '<'], ['&'], ['|'], ['^'], ['~'], ['<', '<'], ['>', '>'], ['<', '<', '='], ['>', '>', '='], ['&', '='], ['|', '='], ['^', '='],
   ['&', '+'], ['&', '-'], ['&', '*'], ['-', '>'], ['('], [')'], ['['], [']'], ['{'], ['}'], [','], [':'], [';'], ['.'], ['@'], ['#'], ['x'],
   ['n', 'a', 'm', 'e'], ['4', '2'], ['3', '.', '1', '4'], ['1', 'e', '1', '0'], ['2', '.', '5', 'e', '-', '3'], ['0', 'x', 'F', 'F'],
   ['0', 'b', '1', '0', '1'], ['1', '_', '0', '0', '0']]

/-- Dart language specification, Operators. -/
def dartW : List Str :=
  [['+'], ['-'], ['*'], ['/'], ['~', '/'], ['%'], ['+', '+'], ['-', '-'], ['=', '='], ['!', '='], ['>'], ['<'], ['>', '='], ['<', '='], ['!'],
   ['&', '&'], ['|', '|'], ['&'], ['|'], ['^'], ['~'], ['<', '<'], ['>', '>'], ['>', '>', '>'], ['='], ['+', '='], ['-', '='], ['*', '='],
   ['/', '='], ['~', '/', '='], ['%', '='], ['<', '<', '='], ['>', '>', '='], ['>', '>', '>', '='], ['&', '='], ['|', '='], ['^', '='],
   ['?', '?', '='], ['?', '?'], ['?'], [':'], ['.'], ['?', '.'], ['.', '.'], ['?', '.', '.'], ['.', '.', '.'], ['.', '.', '.', '?'],
   ['=', '>'], [';'], [','], ['('], [')'], ['['], [']'], ['{'], ['}'], ['@'], ['x'], ['n', 'a', 'm', 'e'], ['4', '2'], ['3', '.', '1', '4'],
   ['1', 'e', '1', '0'], ['2', '.', '5', 'e', '-', '3'], ['0', 'x', 'F', 'F']]

/-- D Language Reference, Lexical: Tokens. -/
def dW : List Str :=
  [['/'], ['/', '='], ['.'], ['.', '.'], ['.', '.', '.'], ['&'], ['&', '='], ['&', '&'], ['|'], ['|', '='], ['|', '|'], ['-'], ['-', '='],
   ['-', '-'], ['+'], ['+', '='], ['+', '+'], ['<'], ['<', '='], ['<', '<'], ['<', '<', '='], ['>'], ['>', '='], ['>', '>', '='],
   ['>', '>', '>', '='], ['>', '>'], ['>', '>', '>'], ['!'], ['!', '='], ['('], [')'], ['['], [']'], ['{'], ['}'], ['?'], [','], [';'], [':'],
   ['$'], ['='], ['=', '='], ['*'], ['*', '='], ['%'], ['%', '='], ['^'], ['^', '='], ['^', '^'], ['^', '^', '='], ['~'], ['~', '='], ['@'],
   ['=', '>'], ['x'], ['n', 'a', 'm', 'e'], ['4', '2'], ['3', '.', '1', '4'], ['1', 'e', '1', '0'], ['2', '.', '5', 'e', '-', '3'],
   ['0', 'x', 'F', 'F'], ['0', 'b', '1', '0', '1'], ['1', '_', '0', '0', '0']]

/-- Solidity grammar, SolidityLexer. -/
def solidityW : List Str :=
  [['+'], ['-'], ['*'], ['/'], ['%'], ['*', '*'], ['='], ['+', '='], ['-', '='], ['*', '='], ['/', '='], ['%', '='], ['|', '='], ['^', '='],
   ['&', '='], ['<', '<', '='], ['>', '>', '='], ['>', '>', '>', '='], ['=', '='], ['!', '='], ['<'], ['>'], ['<', '='], ['>', '='],
   ['&', '&'], ['|', '|'], ['!'], ['&'], ['|'], ['^'], ['~'], ['<', '<'], ['>', '>'], ['>', '>', '>'], ['+', '+'], ['-', '-'], ['?'], [':'],
   ['=', '>'], ['-', '>'], ['('], [')'], ['['], [']'], ['{'], ['}'], [';'], [','], ['.'], ['x'], ['n', 'a', 'm', 'e'], ['4', '2'],
   ['3', '.', '1', '4'], ['1', 'e', '1', '0'], ['2', '.', '5', 'e', '-', '3'], ['0', 'x', 'F', 'F'], ['1', '_', '0', '0', '0']]

/-- Vala Reference Manual, Lexical structure. -/
def valaW : List Str :=
  [['+'], ['-'], ['*'], ['/'], ['%'], ['='], ['+', '='], ['-', '='], ['*', '='], ['/', '='], ['%', '='], ['|', '='], ['^', '='], ['&', '='],
   ['<', '<', '='], ['>', '>', '='], ['=', '='], ['!', '='], ['<'], ['>'], ['<', '='], ['>', '='], ['&', '&'], ['|', '|'], ['!'], ['&'],
   ['|'], ['^'], ['~'], ['<', '<'], ['>', '>'], ['+', '+'], ['-', '-'], ['?', '?'], ['?'], [':'], ['=', '>'], ['-', '>'], [':', ':'], ['('],
   [')'], ['['], [']'], ['{'], ['}'], [';'], [','], ['.'], ['.', '.', '.'], ['x'], ['n', 'a', 'm', 'e'], ['4', '2'], ['3', '.', '1', '4'],
   ['1', 'e', '1', '0'], ['2', '.', '5', 'e', '-', '3'], ['0', 'x', 'F', 'F']]

/-- HLSL reference, Operators. -/
def hlslW : List Str :=
  [['+'], ['-'], ['*'], ['/'], ['%'], ['='], ['+', '='], ['-', '='], ['*', '='], ['/', '='], ['%', '='], ['|', '='], ['^', '='], ['&', '='],
   ['<', '<', '='], ['>', '>', '='], ['=', '='], ['!', '='], ['<'], ['>'], ['<', '='], ['>', '='], ['&', '&'], ['|', '|'], ['!'], ['&'],
   ['|'], ['^'], ['~'], ['<', '<'], ['>', '>'], ['+', '+'], ['-', '-'], ['?'], [':'], [':', ':'], ['('], [')'], ['['], [']'], ['{'], ['}'],
   [';'], [','], ['.'], ['x'], ['n', 'a', 'm', 'e'], ['4', '2'], ['3', '.', '1', '4'], ['1', 'e', '1', '0'], ['2', '.', '5', 'e', '-', '3'],
   ['0', 'x', 'F', 'F']]

/-- ISO C 6.4.6 Punctuators; Objective-C adds `@`. -/
def objectiveCW : List Str :=
  [['+'], ['-'], ['*'], ['/'], ['%'], ['='], ['+', '='], ['-', '='], ['*', '='], ['/', '='], ['%', '='], ['|', '='], ['^', '='], ['&', '='],
   ['<', '<', '='], ['>', '>', '='], ['=', '='], ['!', '='], ['<'], ['>'], ['<', '='], ['>', '='], ['&', '&'], ['|', '|'], ['!'], ['&'],
   ['|'], ['^'], ['~'], ['<', '<'], ['>', '>'], ['+', '+'], ['-', '-'], ['?'], [':'], ['-', '>'], ['('], [')'], ['['], [']'], ['{'], ['}'],
   [';'], [','], ['.'], ['.', '.', '.'], ['@'], ['#'], ['x'], ['n', 'a', 'm', 'e'], ['4', '2'], ['3', '.', '1', '4'], ['1', 'e', '1', '0'],
   ['2', '.', '5', 'e', '-', '3'], ['0', 'x', 'F', 'F']]

/-- ISO 7185, 6.1.2 Special-symbols. -/
def pascalW : List Str :=
  [['+'], ['-'], ['*'], ['/'], ['='], ['<'], ['>'], ['['], [']'], ['.'], [','], ['('], [')'], [':'], ['^'], ['@'], [':', '='], ['<', '>'],
   ['<', '='], ['>', '='], ['.', '.'], [';'], ['x'], ['n', 'a', 'm', 'e'], ['4', '2'], ['3', '.', '1', '4'], ['1', 'e', '1', '0'],
   ['2', '.', '5', 'e', '-', '3']]

/-- Delphi Language Guide, Fundamental Syntactic Elements. -/
def delphiW : List Str :=
  [['+'], ['-'], ['*'], ['/'], ['='], ['<'], ['>'], ['['], [']'], ['.'], [','], ['('], [')'], [':'], ['^'], ['@'], [':', '='], ['<', '>'],
   ['<', '='], ['>', '='], ['.', '.'], [';'], ['&'], ['x'], ['n', 'a', 'm', 'e'], ['4', '2'], ['3', '.', '1', '4'], ['1', 'e', '1', '0'],
   ['2', '.', '5', 'e', '-', '3']]

/-- Ada Reference Manual, 2.2 Lexical Elements. -/
def adaW : List Str :=
  [['&'], ['('], [')'], ['*'], ['+'], [','], ['-'], ['.'], ['/'], [':'], [';'], ['<'], ['='], ['>'], ['|'], ['=', '>'], ['.', '.'],
   ['*', '*'], [':', '='], ['/', '='], ['>', '='], ['<', '='], ['<', '<'], ['>', '>'], ['<', '>'], ['x'], ['n', 'a', 'm', 'e'], ['4', '2'],
   ['3', '.', '1', '4'], ['1', 'e', '1', '0'], ['2', '.', '5', 'e', '-', '3'], ['1', '_', '0', '0', '0']]

/-- IEEE 1076, 15.3 Lexical elements. -/
def vhdlW : List Str :=
  [['&'], ['('], [')'], ['*'], ['+'], [','], ['-'], ['.'], ['/'], [':'], [';'], ['<'], ['='], ['>'], ['`'], ['|'], ['['], [']'], ['?'], ['@'],
   ['=', '>'], ['*', '*'], [':', '='], ['/', '='], ['>', '='], ['<', '='], ['<', '>'], ['?', '?'], ['?', '='], ['?', '/', '='], ['?', '<'],
   ['?', '<', '='], ['?', '>'], ['?', '>', '='], ['<', '<'], ['>', '>'], ['x'], ['n', 'a', 'm', 'e'], ['4', '2'], ['3', '.', '1', '4'],
   ['1', 'e', '1', '0'], ['2', '.', '5', 'e', '-', '3'], ['1', '_', '0', '0', '0']]

/-- Fortran 2018, 6.2 Low-level syntax. -/
def fortranW : List Str :=
  [['+'], ['-'], ['*'], ['/'], ['*', '*'], ['=', '='], ['/', '='], ['<'], ['<', '='], ['>'], ['>', '='], ['='], ['=', '>'], [':', ':'], [':'],
   [','], ['('], [')'], ['/', '/'], ['(', '/'], ['/', ')'], ['%'], ['['], [']'], [';'], ['&'], ['x'], ['n', 'a', 'm', 'e'], ['4', '2'],
   ['3', '.', '1', '4'], ['1', 'e', '1', '0'], ['2', '.', '5', 'e', '-', '3']]

/-- The OCaml Manual, Lexical conventions. -/
def ocamlW : List Str :=
  [['!'], ['&'], ['&', '&'], ['('], [')'], ['*'], ['+'], [','], ['-'], ['-', '.'], ['-', '>'], ['.'], ['.', '.'], [':'], [':', ':'],
   [':', '='], [':', '>'], [';'], [';', ';'], ['<'], ['<', '-'], ['='], ['>'], ['>', ']'], ['>', '}'], ['?'], ['['], ['[', '<'], ['[', '>'],
   ['[', '|'], [']'], ['_'], ['{'], ['{', '<'], ['|'], ['|', ']'], ['|', '|'], ['}'], ['~'], ['<', '>'], ['<', '='], ['>', '='], ['=', '='],
   ['!', '='], ['@'], ['^'], ['*', '*'], ['+', '.'], ['*', '.'], ['/', '.'], ['|', '>'], ['/'], ['x'], ['n', 'a', 'm', 'e'], ['4', '2'],
   ['3', '.', '1', '4'], ['1', 'e', '1', '0'], ['2', '.', '5', 'e', '-', '3'], ['0', 'x', 'F', 'F'], ['0', 'b', '1', '0', '1'],
   ['1', '_', '0', '0', '0']]

/-- The Elm core library, Basics and List. -/
def elmW : List Str :=
  [['+'], ['-'], ['*'], ['/'], ['/', '/'], ['^'], ['=', '='], ['/', '='], ['<'], ['>'], ['<', '='], ['>', '='], ['&', '&'], ['|', '|'],
   ['+', '+'], [':', ':'], ['<', '|'], ['|', '>'], ['<', '<'], ['>', '>'], ['='], ['-', '>'], ['|'], [':'], ['\\'], ['('], [')'], ['['],
   [']'], ['{'], ['}'], [','], ['.'], ['.', '.'], ['x'], ['n', 'a', 'm', 'e'], ['4', '2'], ['3', '.', '1', '4'], ['1', 'e', '1', '0'],
   ['2', '.', '5', 'e', '-', '3'], ['0', 'x', 'F', 'F']]

/-- perlop. -/
def perlW : List Str :=
  [['+'], ['-'], ['*'], ['/'], ['%'], ['*', '*'], ['+', '+'], ['-', '-'], ['='], ['+', '='], ['-', '='], ['*', '='], ['/', '='], ['%', '='],
   ['*', '*', '='], ['.', '='], ['&', '='], ['|', '='], ['^', '='], ['<', '<', '='], ['>', '>', '='], ['&', '&', '='], ['|', '|', '='],
   ['/', '/', '='], ['=', '='], ['!', '='], ['<'], ['>'], ['<', '='], ['>', '='], ['<', '=', '>'], ['=', '~'], ['!', '~'], ['&', '&'],
   ['|', '|'], ['/', '/'], ['!'], ['~'], ['&'], ['|'], ['^'], ['<', '<'], ['>', '>'], ['.'], ['.', '.'], ['.', '.', '.'], ['-', '>'],
   ['=', '>'], [','], [';'], [':'], ['?'], [':', ':'], ['('], [')'], ['['], [']'], ['{'], ['}'], ['\\'], ['x'], ['n', 'a', 'm', 'e'],
   ['4', '2'], ['3', '.', '1', '4'], ['1', 'e', '1', '0'], ['2', '.', '5', 'e', '-', '3'], ['0', 'x', 'F', 'F'], ['0', 'b', '1', '0', '1'],
   ['1', '_', '0', '0', '0']]

/-- PowerShell Language Specification, 2.3.5 Operators and punctuators. -/
def powershellW : List Str :=
  [['+'], ['-'], ['*'], ['/'], ['%'], ['='], ['+', '='], ['-', '='], ['*', '='], ['/', '='], ['%', '='], ['+', '+'], ['-', '-'], ['&', '&'],
   ['|', '|'], ['|'], ['&'], ['!'], [','], [';'], [':'], [':', ':'], ['.'], ['.', '.'], ['('], [')'], ['['], [']'], ['{'], ['}'], ['@', '('],
   ['@', '{'], ['$', '('], ['?', '?'], ['?', '?', '='], ['?'], ['@'], ['x'], ['n', 'a', 'm', 'e'], ['4', '2'], ['3', '.', '1', '4'],
   ['1', 'e', '1', '0'], ['2', '.', '5', 'e', '-', '3'], ['0', 'x', 'F', 'F']]

/-- ANSI Smalltalk, 3.5 Lexical grammar. -/
def smalltalkW : List Str :=
  [['+'], ['-'], ['*'], ['/'], ['<'], ['>'], ['='], ['=', '='], ['~', '='], ['~', '~'], ['<', '='], ['>', '='], [':', '='], ['^'], [';'],
   ['.'], ['('], [')'], ['['], [']'], ['{'], ['}'], ['#'], [':'], ['|'], [','], ['@'], ['%'], ['&'], ['!'], ['x'], ['n', 'a', 'm', 'e'],
   ['4', '2'], ['3', '.', '1', '4'], ['1', 'e', '1', '0'], ['2', '.', '5', 'e', '-', '3']]

/-- ISO 9075-2, 5.2 token and separator. -/
def sqlW : List Str :=
  [['+'], ['-'], ['*'], ['/'], ['%'], ['='], ['<', '>'], ['!', '='], ['<'], ['>'], ['<', '='], ['>', '='], ['|', '|'], ['('], [')'], [','],
   [';'], ['.'], [':'], ['x'], ['n', 'a', 'm', 'e'], ['4', '2'], ['3', '.', '1', '4'], ['1', 'e', '1', '0'], ['2', '.', '5', 'e', '-', '3']]

/-- IEEE 1364, 3.4 Operators. -/
def verilogW : List Str :=
  [['+'], ['-'], ['*'], ['/'], ['%'], ['*', '*'], ['='], ['=', '='], ['!', '='], ['=', '=', '='], ['!', '=', '='], ['<'], ['>'], ['<', '='],
   ['>', '='], ['&', '&'], ['|', '|'], ['!'], ['&'], ['|'], ['^'], ['~'], ['~', '&'], ['~', '|'], ['~', '^'], ['^', '~'], ['<', '<'],
   ['>', '>'], ['<', '<', '<'], ['>', '>', '>'], ['?'], [':'], [';'], [','], ['.'], ['('], [')'], ['['], [']'], ['{'], ['}'], ['#'], ['@'],
   ['-', '>'], ['+', ':'], ['-', ':'], ['x'], ['n', 'a', 'm', 'e'], ['4', '2'], ['3', '.', '1', '4'], ['1', 'e', '1', '0'],
   ['2', '.', '5', 'e', '-', '3'], ['1', '_', '0', '0', '0']]

/-- Wolfram Language, Operator Input Forms. -/
def wolframW : List Str :=
  [['+'], ['-'], ['*'], ['/'], ['^'], ['='], [':', '='], ['=', '='], ['!', '='], ['=', '=', '='], ['=', '!', '='], ['<'], ['>'], ['<', '='],
   ['>', '='], ['&', '&'], ['|', '|'], ['!'], ['-', '>'], [':', '>'], ['/', '.'], ['/', '/', '.'], ['/', '@'], ['/', '/', '@'], ['@'],
   ['@', '@'], ['@', '@', '@'], ['/', '/'], [';'], [';', ';'], [','], ['('], [')'], ['['], [']'], ['[', '['], [']', ']'], ['{'], ['}'], ['&'],
   ['#'], ['#', '#'], ['_'], ['_', '_'], ['_', '_', '_'], ['.'], ['.', '.'], ['.', '.', '.'], ['|'], ['~'], ['~', '~'], ['?'], ['<', '>'],
   ['+', '+'], ['-', '-'], ['+', '='], ['-', '='], ['*', '='], ['/', '='], ['/', ';'], [':'], [':', ':'], ['\''], ['^', '='], ['^', ':', '='],
   ['<', '|'], ['|', '>'], ['x'], ['n', 'a', 'm', 'e'], ['4', '2'], ['3', '.', '1', '4']]

/-- Nim Manual, Operators and Other tokens. -/
def nimW : List Str :=
  [['+'], ['-'], ['*'], ['/'], ['='], ['<'], ['>'], ['@'], ['$'], ['~'], ['&'], ['%'], ['|'], ['!'], ['?'], ['^'], ['.'], [':'], ['\\'],
   ['+', '='], ['-', '='], ['*', '='], ['/', '='], ['=', '='], ['!', '='], ['<', '='], ['>', '='], ['.', '.'], ['-', '>'], ['=', '>'],
   ['<', '-'], ['('], [')'], ['['], [']'], ['{'], ['}'], [','], [';'], ['`'], ['(', '.'], ['.', ')'], ['[', '.'], ['.', ']'], ['{', '.'],
   ['.', '}'], [':', ':'], ['x'], ['n', 'a', 'm', 'e'], ['4', '2'], ['3', '.', '1', '4'], ['1', 'e', '1', '0'],
   ['2', '.', '5', 'e', '-', '3'], ['0', 'x', 'F', 'F'], ['0', 'b', '1', '0', '1'], ['1', '_', '0', '0', '0']]

/-- V documentation, Operators. -/
def vlangW : List Str :=
  [['+'], ['-'], ['*'], ['/'], ['%'], ['='], [':', '='], ['=', '='], ['!', '='], ['<'], ['>'], ['<', '='], ['>', '='], ['&', '&'], ['|', '|'],
   ['!'], ['&'], ['|'], ['^'], ['~'], ['<', '<'], ['>', '>'], ['+', '='], ['-', '='], ['*', '='], ['/', '='], ['%', '='], ['&', '='],
   ['|', '='], ['^', '='], ['<', '<', '='], ['>', '>', '='], ['+', '+'], ['-', '-'], ['?'], [':'], [';'], [','], ['.'], ['.', '.'],
   ['.', '.', '.'], ['<', '-'], ['('], [')'], ['['], [']'], ['{'], ['}'], ['@'], ['#'], ['$'], ['>', '>', '>'], ['>', '>', '>', '='], ['x'],
   ['n', 'a', 'm', 'e'], ['4', '2'], ['3', '.', '1', '4'], ['1', 'e', '1', '0'], ['2', '.', '5', 'e', '-', '3'], ['0', 'x', 'F', 'F'],
   ['0', 'b', '1', '0', '1'], ['1', '_', '0', '0', '0']]

/-- Lean 4 prelude notations. -/
def leanW : List Str :=
  [['+'], ['-'], ['*'], ['/'], ['%'], ['='], ['=', '='], ['!', '='], ['<'], ['>'], ['<', '='], ['>', '='], ['&', '&'], ['|', '|'], ['!'],
   [':', '='], ['=', '>'], ['-', '>'], ['<', '-'], [':'], [';'], [','], ['.'], ['.', '.'], ['('], [')'], ['['], [']'], ['{'], ['}'], ['|'],
   ['&'], ['^'], ['@'], ['+', '+'], [':', ':'], ['>', '>', '='], ['<', '|', '>'], ['<', '|'], ['|', '>'], ['_'], ['?'], ['x'],
   ['n', 'a', 'm', 'e'], ['4', '2'], ['3', '.', '1', '4'], ['1', 'e', '1', '0'], ['2', '.', '5', 'e', '-', '3'], ['0', 'x', 'F', 'F'],
   ['0', 'b', '1', '0', '1']]

/-- OMG IDL, 7.2 Lexical Conventions. -/
def idlW : List Str :=
  [['{'], ['}'], [';'], [':'], [','], ['('], [')'], ['['], [']'], ['<'], ['>'], ['='], ['+'], ['-'], ['*'], ['/'], ['%'], ['|'], ['^'], ['&'],
   ['~'], ['<', '<'], ['>', '>'], [':', ':'], ['.'], ['x'], ['n', 'a', 'm', 'e'], ['4', '2'], ['3', '.', '1', '4'], ['1', 'e', '1', '0'],
   ['2', '.', '5', 'e', '-', '3'], ['0', 'x', 'F', 'F']]

/-- GraphQL specification, 2.1.8 Punctuators. -/
def graphqlW : List Str :=
  [['!'], ['$'], ['&'], ['('], [')'], ['.', '.', '.'], [':'], ['='], ['@'], ['['], [']'], ['{'], ['|'], ['}'], ['x'], ['n', 'a', 'm', 'e'],
   ['4', '2'], ['3', '.', '1', '4'], ['1', 'e', '1', '0'], ['2', '.', '5', 'e', '-', '3']]

/-- Protocol Buffers language specification. -/
def protobufW : List Str :=
  [[';'], [':'], [','], ['.'], ['='], ['('], [')'], ['['], [']'], ['{'], ['}'], ['<'], ['>'], ['-'], ['+'], ['/'], ['x'],
   ['n', 'a', 'm', 'e'], ['4', '2'], ['3', '.', '1', '4'], ['1', 'e', '1', '0'], ['2', '.', '5', 'e', '-', '3'], ['0', 'x', 'F', 'F']]

/-- WebAssembly specification, Text Format: Lexical Format. -/
def watW : List Str :=
  [['('], [')'], ['x'], ['n', 'a', 'm', 'e'], ['4', '2'], ['3', '.', '1', '4'], ['1', 'e', '1', '0'], ['2', '.', '5', 'e', '-', '3'],
   ['0', 'x', 'F', 'F'], ['1', '_', '0', '0', '0']]

/-- Haskell 2010 Report, 2 Lexical Structure; operators of the Prelude. -/
def haskellW : List Str :=
  [['+'], ['-'], ['*'], ['/'], ['='], ['=', '='], ['/', '='], ['<'], ['>'], ['<', '='], ['>', '='], ['&', '&'], ['|', '|'], ['+', '+'],
   [':', ':'], ['-', '>'], ['<', '-'], ['=', '>'], ['.', '.'], ['.'], [':'], [';'], [','], ['('], [')'], ['['], [']'], ['{'], ['}'], ['\\'],
   ['|'], ['@'], ['~'], ['!'], ['!', '!'], ['^'], ['*', '*'], ['$'], ['>', '>'], ['>', '>', '='], ['=', '<', '<'], ['<', '$', '>'],
   ['<', '*', '>'], ['<', '>'], ['%'], ['&'], ['`'], ['^', '^'], ['$', '!'], ['x'], ['n', 'a', 'm', 'e'], ['4', '2'], ['3', '.', '1', '4'],
   ['1', 'e', '1', '0'], ['2', '.', '5', 'e', '-', '3'], ['0', 'x', 'F', 'F']]

/-- Coq Reference Manual, Lexical conventions. -/
def coqW : List Str :=
  [['!'], ['%'], ['&'], ['('], [')'], ['*'], ['+'], ['+', '+'], [','], ['-'], ['-', '>'], ['.'], ['.', '('], ['.', '.'], ['/'], ['/', '\\'],
   [':'], [':', ':'], [':', '<'], [':', '='], [':', '>'], [';'], ['<'], ['<', '-'], ['<', '-', '>'], ['<', ':'], ['<', '='], ['<', '>'],
   ['='], ['=', '>'], ['=', '_', 'D'], ['>'], ['>', '-', '>'], ['>', '='], ['?'], ['@'], ['['], ['\\', '/'], [']'], ['^'], ['{'], ['|'],
   ['|', '-'], ['|', '|'], ['}'], ['~'], ['x'], ['n', 'a', 'm', 'e'], ['4', '2'], ['3', '.', '1', '4'], ['1', 'e', '1', '0'],
   ['2', '.', '5', 'e', '-', '3'], ['0', 'x', 'F', 'F']]

/-- PureScript Language Reference; operators of the Prelude. -/
def purescriptW : List Str :=
  [['+'], ['-'], ['*'], ['/'], ['='], ['=', '='], ['/', '='], ['<'], ['>'], ['<', '='], ['>', '='], ['&', '&'], ['|', '|'], [':', ':'],
   ['-', '>'], ['<', '-'], ['=', '>'], ['.', '.'], ['.'], [':'], [';'], [','], ['('], [')'], ['['], [']'], ['{'], ['}'], ['\\'], ['|'], ['@'],
   ['<', '>'], ['$'], ['#'], ['>', '>', '>'], ['<', '<', '<'], ['>', '>', '='], ['<', '$', '>'], ['<', '*', '>'], ['`'], ['<', '|', '>'],
   ['x'], ['n', 'a', 'm', 'e'], ['4', '2'], ['3', '.', '1', '4'], ['1', 'e', '1', '0'], ['2', '.', '5', 'e', '-', '3'], ['0', 'x', 'F', 'F']]

/-- Crystal Language Reference, Operators. -/
def crystalW : List Str :=
  [['+'], ['-'], ['*'], ['/'], ['/', '/'], ['%'], ['*', '*'], ['='], ['=', '='], ['!', '='], ['=', '=', '='], ['=', '~'], ['!', '~'], ['<'],
   ['>'], ['<', '='], ['>', '='], ['<', '=', '>'], ['&', '&'], ['|', '|'], ['!'], ['&'], ['|'], ['^'], ['~'], ['<', '<'], ['>', '>'],
   ['+', '='], ['-', '='], ['*', '='], ['/', '='], ['/', '/', '='], ['%', '='], ['*', '*', '='], ['&', '='], ['|', '='], ['^', '='],
   ['<', '<', '='], ['>', '>', '='], ['&', '&', '='], ['|', '|', '='], ['-', '>'], ['=', '>'], ['.', '.'], ['.', '.', '.'], ['.'], [':'],
   [':', ':'], [','], [';'], ['?'], ['('], [')'], ['['], [']'], ['{'], ['}'], ['@'], ['@', '@'], ['&', '+'], ['&', '-'], ['&', '*'],
   ['&', '*', '*'], ['x'], ['n', 'a', 'm', 'e'], ['4', '2'], ['3', '.', '1', '4'], ['1', 'e', '1', '0'], ['2', '.', '5', 'e', '-', '3'],
   ['0', 'x', 'F', 'F'], ['0', 'b', '1', '0', '1'], ['1', '_', '0', '0', '0']]

/-- Nix Reference Manual, Operators. -/
def nixW : List Str :=
  [['+'], ['-'], ['*'], ['/'], ['+', '+'], ['/', '/'], ['=', '='], ['!', '='], ['<'], ['>'], ['<', '='], ['>', '='], ['&', '&'], ['|', '|'],
   ['-', '>'], ['?'], [':'], [';'], [','], ['.'], ['.', '.', '.'], ['='], ['@'], ['('], [')'], ['['], [']'], ['{'], ['}'], ['$', '{'],
   ['|', '>'], ['x'], ['n', 'a', 'm', 'e'], ['4', '2'], ['3', '.', '1', '4']]

/-- CSS Syntax Module, Tokenization. -/
def cssW : List Str :=
  [['{'], ['}'], ['('], [')'], ['['], [']'], [':'], [';'], [','], ['>'], ['+'], ['~'], ['*'], ['.'], ['@'], ['='], ['|'], ['!'], ['/'], ['x'],
   ['n', 'a', 'm', 'e'], ['4', '2'], ['3', '.', '1', '4']]

/-- Dhall standard, dhall.abnf. -/
def dhallW : List Str :=
  [['='], [':'], ['-', '>'], ['\\'], ['('], [')'], ['['], [']'], ['{'], ['}'], ['<'], ['>'], ['|'], [','], ['.'], ['+'], ['*'], ['+', '+'],
   ['#'], ['&', '&'], ['|', '|'], ['=', '='], ['!', '='], ['/', '\\'], ['/', '/'], ['/', '/', '\\', '\\'], ['?'], ['=', '=', '='], [':', ':'],
   ['@'], ['x'], ['n', 'a', 'm', 'e'], ['4', '2'], ['3', '.', '1', '4'], ['1', 'e', '1', '0'], ['2', '.', '5', 'e', '-', '3'],
   ['0', 'x', 'F', 'F']]

/-- The TeXbook, chapter 7. -/
def texW : List Str :=
  [['{'], ['}'], ['['], [']'], ['$'], ['&'], ['#'], ['^'], ['_'], ['~'], ['x'], ['n', 'a', 'm', 'e'], ['4', '2']]

/-- MATLAB Operators and Special Characters. -/
def matlabW : List Str :=
  [['+'], ['-'], ['*'], ['.', '*'], ['/'], ['.', '/'], ['\\'], ['.', '\\'], ['^'], ['.', '^'], ['.', '\''], ['='], ['=', '='], ['~', '='],
   ['<'], ['>'], ['<', '='], ['>', '='], ['&', '&'], ['|', '|'], ['&'], ['|'], ['~'], ['('], [')'], ['['], [']'], ['{'], ['}'], [','], [';'],
   [':'], ['.'], ['.', '.', '.'], ['@'], ['!'], ['?'], ['x'], ['n', 'a', 'm', 'e'], ['4', '2'], ['3', '.', '1', '4'], ['1', 'e', '1', '0'],
   ['2', '.', '5', 'e', '-', '3'], ['0', 'x', 'F', 'F']]

/-- ActionScript 3.0 language reference, Operators. -/
def actionscriptW : List Str :=
  [['+'], ['-'], ['*'], ['/'], ['%'], ['+', '+'], ['-', '-'], ['='], ['+', '='], ['-', '='], ['*', '='], ['/', '='], ['%', '='], ['&', '='],
   ['|', '='], ['^', '='], ['<', '<', '='], ['>', '>', '='], ['>', '>', '>', '='], ['&', '&', '='], ['|', '|', '='], ['=', '='], ['!', '='],
   ['=', '=', '='], ['!', '=', '='], ['<'], ['>'], ['<', '='], ['>', '='], ['&', '&'], ['|', '|'], ['!'], ['&'], ['|'], ['^'], ['~'],
   ['<', '<'], ['>', '>'], ['>', '>', '>'], ['?'], [':'], [':', ':'], ['.'], ['.', '.'], ['.', '.', '.'], [','], [';'], ['('], [')'], ['['],
   [']'], ['{'], ['}'], ['@'], ['x'], ['n', 'a', 'm', 'e'], ['4', '2'], ['3', '.', '1', '4'], ['1', 'e', '1', '0'],
   ['2', '.', '5', 'e', '-', '3'], ['0', 'x', 'F', 'F']]

/-- J Dictionary, Words. -/
def jW : List Str :=
  [['=', '.'], ['=', ':'], ['+'], ['-'], ['*'], ['%'], ['^'], ['!'], ['('], [')'], ['+', '.'], ['*', '.'], ['%', '.'], ['>', '.'], ['<', '.'],
   ['i', '.'], ['/', '.'], ['/', ':'], ['\\', ':'], ['#', '.'], ['~', ':'], ['<', ':'], ['>', ':'], [',', '.'], [',', ':'], ['='], ['x'],
   ['n', 'a', 'm', 'e'], ['4', '2'], ['3', '.', '1', '4']]

/-- ISO C, 6.4.6 Punctuators. -/
def cW : List Str :=
  [['['], [']'], ['('], [')'], ['{'], ['}'], ['.'], ['-', '>'], ['+', '+'], ['-', '-'], ['&'], ['*'], ['+'], ['-'], ['~'], ['!'], ['/'],
   ['%'], ['<', '<'], ['>', '>'], ['<'], ['>'], ['<', '='], ['>', '='], ['=', '='], ['!', '='], ['^'], ['|'], ['&', '&'], ['|', '|'], ['?'],
   [':'], [';'], ['.', '.', '.'], ['='], ['*', '='], ['/', '='], ['%', '='], ['+', '='], ['-', '='], ['<', '<', '='], ['>', '>', '='],
   ['&', '='], ['^', '='], ['|', '='], [','], ['x'], ['n', 'a', 'm', 'e'], ['4', '2'], ['3', '.', '1', '4'], ['1', 'e', '1', '0'],
   ['2', '.', '5', 'e', '-', '3'], ['0', 'x', 'F', 'F']]

/-- ISO C++, [lex.operators]. -/
def cppW : List Str :=
  [['['], [']'], ['('], [')'], ['{'], ['}'], ['.'], ['-', '>'], ['+', '+'], ['-', '-'], ['&'], ['*'], ['+'], ['-'], ['~'], ['!'], ['/'],
   ['%'], ['<', '<'], ['>', '>'], ['<'], ['>'], ['<', '='], ['>', '='], ['=', '='], ['!', '='], ['^'], ['|'], ['&', '&'], ['|', '|'], ['?'],
   [':'], [';'], ['.', '.', '.'], ['='], ['*', '='], ['/', '='], ['%', '='], ['+', '='], ['-', '='], ['<', '<', '='], ['>', '>', '='],
   ['&', '='], ['^', '='], ['|', '='], [','], [':', ':'], ['.', '*'], ['-', '>', '*'], ['<', '=', '>'], ['x'], ['n', 'a', 'm', 'e'],
   ['4', '2'], ['3', '.', '1', '4'], ['1', 'e', '1', '0'], ['2', '.', '5', 'e', '-', '3'], ['0', 'x', 'F', 'F'], ['0', 'b', '1', '0', '1']]

/-- Lua 5.4 Reference Manual, 3.1 Lexical Conventions. -/
def luaW : List Str :=
  [['+'], ['*'], ['/'], ['%'], ['^'], ['#'], ['&'], ['~'], ['|'], ['<', '<'], ['>', '>'], ['/', '/'], ['=', '='], ['~', '='], ['<', '='],
   ['>', '='], ['<'], ['>'], ['='], ['('], [')'], ['{'], ['}'], [']'], [':', ':'], [';'], [':'], [','], ['.'], ['.', '.'], ['.', '.', '.'],
   ['x'], ['n', 'a', 'm', 'e'], ['4', '2'], ['3', '.', '1', '4'], ['1', 'e', '1', '0'], ['2', '.', '5', 'e', '-', '3'], ['0', 'x', 'F', 'F']]

/-- Zig Language Reference, Grammar. -/
def zigW : List Str :=
  [['+'], ['+', '%'], ['+', '='], ['+', '%', '='], ['-'], ['-', '%'], ['-', '='], ['-', '%', '='], ['*'], ['*', '%'], ['*', '='],
   ['*', '%', '='], ['*', '*'], ['/'], ['/', '='], ['%'], ['%', '='], ['!'], ['!', '='], ['+', '+'], ['~'], ['&'], ['&', '='], ['|'],
   ['|', '='], ['|', '|'], ['^'], ['^', '='], ['<', '<'], ['<', '<', '='], ['>', '>'], ['>', '>', '='], ['=', '='], ['='], ['=', '>'], ['<'],
   ['<', '='], ['>'], ['>', '='], ['('], [')'], ['{'], ['}'], ['['], [']'], [','], [';'], [':'], ['.'], ['.', '*'], ['.', '?'], ['.', '.'],
   ['.', '.', '.'], ['?'], ['-', '>'], ['x'], ['n', 'a', 'm', 'e'], ['4', '2'], ['3', '.', '1', '4'], ['1', 'e', '1', '0'],
   ['2', '.', '5', 'e', '-', '3'], ['0', 'x', 'F', 'F'], ['0', 'b', '1', '0', '1'], ['1', '_', '0', '0', '0']]

/-- ISO 13211-1, 6.3.4.4 The operator table, 6.4 Tokens. -/
def prologW : List Str :=
  [[':', '-'], ['?', '-'], ['-', '-', '>'], ['-', '>'], [';'], [','], ['='], ['\\', '='], ['=', '='], ['\\', '=', '='], ['@', '<'],
   ['@', '>'], ['@', '=', '<'], ['@', '>', '='], ['=', '.', '.'], ['<'], ['>'], ['=', '<'], ['>', '='], ['=', ':', '='], ['=', '\\', '='],
   ['+'], ['-'], ['*'], ['/'], ['/', '/'], ['^'], ['*', '*'], ['|'], ['!'], ['('], [')'], ['['], [']'], ['{'], ['}'], ['.'], [':'],
   ['\\', '+'], ['>', '>'], ['<', '<'], ['/', '\\'], ['\\', '/'], ['x'], ['n', 'a', 'm', 'e'], ['4', '2'], ['3', '.', '1', '4'],
   ['2', '.', '5', 'e', '-', '3']]

/-- WGSL specification, 3.8 Syntactic Tokens. -/
def wgslW : List Str :=
  [['&'], ['&', '&'], ['-', '>'], ['@'], ['/'], ['!'], ['['], [']'], ['{'], ['}'], [':'], [','], ['='], ['=', '='], ['!', '='], ['>'],
   ['>', '='], ['>', '>'], ['<'], ['<', '='], ['<', '<'], ['%'], ['-'], ['-', '-'], ['.'], ['+'], ['+', '+'], ['|'], ['|', '|'], ['('], [')'],
   [';'], ['*'], ['~'], ['_'], ['^'], ['+', '='], ['-', '='], ['*', '='], ['/', '='], ['%', '='], ['&', '='], ['|', '='], ['^', '='],
   ['>', '>', '='], ['<', '<', '='], ['x'], ['n', 'a', 'm', 'e'], ['4', '2'], ['3', '.', '1', '4'], ['1', 'e', '1', '0'],
   ['2', '.', '5', 'e', '-', '3'], ['0', 'x', 'F', 'F']]

/-- The Julia Language, Mathematical Operations; Punctuation. -/
def juliaW : List Str :=
  [['+'], ['-'], ['*'], ['/'], ['/', '/'], ['\\'], ['^'], ['%'], ['='], ['+', '='], ['-', '='], ['*', '='], ['/', '='], ['=', '='],
   ['!', '='], ['=', '=', '='], ['!', '=', '='], ['<'], ['>'], ['<', '='], ['>', '='], ['&', '&'], ['|', '|'], ['!'], ['&'], ['|'], ['~'],
   ['<', '<'], ['>', '>'], ['>', '>', '>'], ['-', '>'], ['=', '>'], [':', ':'], [':'], [';'], [','], ['.'], ['.', '.', '.'], ['('], [')'],
   ['['], [']'], ['{'], ['}'], ['?'], ['@'], ['$'], ['|', '>'], ['<', ':'], ['>', ':'], ['.', '+'], ['.', '*'], ['x'], ['n', 'a', 'm', 'e'],
   ['4', '2'], ['3', '.', '1', '4'], ['1', 'e', '1', '0'], ['2', '.', '5', 'e', '-', '3'], ['0', 'x', 'F', 'F'], ['0', 'b', '1', '0', '1'],
   ['1', '_', '0', '0', '0']]

/-- nginx, Configuration file structure. -/
def nginxW : List Str :=
  [['{'], ['}'], [';'], ['x'], ['n', 'a', 'm', 'e'], ['4', '2']]

/-- WIT format, Operators and Punctuation. -/
def witComponentW : List Str :=
  [['='], [','], [':'], [';'], ['('], [')'], ['{'], ['}'], ['<'], ['>'], ['*'], ['-', '>'], ['/'], ['.'], ['@'], ['x'], ['n', 'a', 'm', 'e'],
   ['4', '2']]

end Words

end Oaks.Spec
