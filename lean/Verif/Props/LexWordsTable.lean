import Verif.Proofs.LexWords
import Verif.Spec.LexWords
import Verif.Model.HandLex.Java
import Verif.Model.HandLex.Go
import Verif.Model.HandLex.Kotlin
import Verif.Model.HandLex.Php
import Verif.Model.HandLex.Typescript
import Verif.Model.HandLex.Csharp
import Verif.Model.HandLex.Swift
import Verif.Model.HandLex.Dart
import Verif.Model.HandLex.D
import Verif.Model.HandLex.Solidity
import Verif.Model.HandLex.Vala
import Verif.Model.HandLex.Hlsl
import Verif.Model.HandLex.ObjectiveC
import Verif.Model.HandLex.Pascal
import Verif.Model.HandLex.Delphi
import Verif.Model.HandLex.Ada
import Verif.Model.HandLex.Vhdl
import Verif.Model.HandLex.Fortran
import Verif.Model.HandLex.Ocaml
import Verif.Model.HandLex.Elm
import Verif.Model.HandLex.Perl
import Verif.Model.HandLex.Powershell
import Verif.Model.HandLex.Smalltalk
import Verif.Model.HandLex.Sql
import Verif.Model.HandLex.Verilog
import Verif.Model.HandLex.Wolfram
import Verif.Model.HandLex.Nim
import Verif.Model.HandLex.Vlang
import Verif.Model.HandLex.Lean
import Verif.Model.HandLex.Idl
import Verif.Model.HandLex.Graphql
import Verif.Model.HandLex.Protobuf
import Verif.Model.HandLex.Wat
import Verif.Model.HandLex.Haskell
import Verif.Model.HandLex.Coq
import Verif.Model.HandLex.Purescript
import Verif.Model.HandLex.Crystal
import Verif.Model.HandLex.Nix
import Verif.Model.HandLex.Css
import Verif.Model.HandLex.Dhall
import Verif.Model.HandLex.Tex
import Verif.Model.HandLex.Matlab
import Verif.Model.HandLex.Actionscript
import Verif.Model.HandLex.J
import Verif.Model.HandLex.C
import Verif.Model.HandLex.Cpp
import Verif.Model.HandLex.Lua
import Verif.Model.HandLex.Zig
import Verif.Model.HandLex.Prolog
import Verif.Model.HandLex.Wgsl
import Verif.Model.HandLex.Julia
import Verif.Model.HandLex.Nginx
import Verif.Model.HandLex.WitComponent

/-! C92: the words of each language and what its lexer makes of them. -/
namespace Oaks.Props
open Spec Lc

/-- A language: its lexer, its words, and those of them that its lexer does not make one token of. -/
structure WordLang where
  code : Code
  /-- the text has to be in one piece: the lexer looks at `rest()` -/
  whole : Bool
  /-- the blanks that become tokens -/
  blanks : List Char
  /-- the lexer records an empty token at the end -/
  eof : Bool
  words : List Str
  /-- the words that are not one token, with the tokens made of them -/
  split : List (Str × List (Nat × Nat))

/-- The words that become one token. -/
def WordLang.kept (r : WordLang) : List Str := r.words.filter fun w => decide (w ∉ r.split.map (·.1))

/-- What the lexer makes of the words. -/
def WordLang.vocab (r : WordLang) : Vocab where
  words := (r.kept.map fun w => (w, [(0, w.length)])) ++ r.split
  blanks := r.blanks.map fun d => (d, [(0, 1)])
  ending := if r.eof then [(0, 0)] else []

/-- The lexer treats the words so; those listed as cut are words of the language, and none of their tokens is the word. -/
def WordLang.right (r : WordLang) : Bool :=
  r.vocab.right r.whole r.code &&
    r.split.all fun e => decide (e.1 ∈ r.words) && e.2.all fun s => decide (s.1 < s.2) && decide (s.2 ≤ e.1.length) && decide (s.2 - s.1 ≠ e.1.length)

def javaLang : WordLang where
  code := HandLex.Java.run_
  whole := false
  blanks := [' ', '\n']
  eof := false
  words := Words.javaW
  split :=
    [(['-', '>'], [(0, 1), (1, 2)]), ([':', ':'], [(0, 1), (1, 2)]), (['0', 'x', 'F', 'F'], [(0, 1), (1, 4)]),
     (['0', 'b', '1', '0', '1'], [(0, 1), (1, 5)]), (['1', '_', '0', '0', '0'], [(0, 1), (1, 5)])]

def goLang : WordLang where
  code := HandLex.Go.run_
  whole := false
  blanks := [' ', '\n']
  eof := false
  words := Words.goW
  split :=
    [(['1', 'e', '1', '0'], [(0, 1), (1, 4)]), (['2', '.', '5', 'e', '-', '3'], [(0, 3), (3, 4), (4, 5), (5, 6)]),
     (['0', 'x', 'F', 'F'], [(0, 1), (1, 4)]), (['0', 'b', '1', '0', '1'], [(0, 1), (1, 5)]), (['1', '_', '0', '0', '0'], [(0, 1), (1, 5)])]

def kotlinLang : WordLang where
  code := HandLex.Kotlin.run_
  whole := false
  blanks := [' ', '\n']
  eof := false
  words := Words.kotlinW
  split :=
    [(['+', '+'], [(0, 1), (1, 2)]), (['-', '-'], [(0, 1), (1, 2)]), (['=', '=', '='], [(0, 2), (2, 3)]), (['!', '=', '='], [(0, 2), (2, 3)]),
     (['?', '.'], [(0, 1), (1, 2)]), (['?', ':'], [(0, 1), (1, 2)]), (['.', '.', '<'], [(0, 2), (2, 3)]),
     (['0', 'x', 'F', 'F'], [(0, 1), (1, 4)]), (['0', 'b', '1', '0', '1'], [(0, 1), (1, 5)])]

def phpLang : WordLang where
  code := HandLex.Php.run_
  whole := false
  blanks := [' ', '\n']
  eof := false
  words := Words.phpW
  split :=
    [(['*', '*', '='], [(0, 2), (2, 3)]), (['?', '?', '='], [(0, 2), (2, 3)]), (['<', '=', '>'], [(0, 2), (2, 3)]),
     (['?', '-', '>'], [(0, 1), (1, 3)]), (['.', '.', '.'], [(0, 1), (1, 2), (2, 3)]), (['0', 'x', 'F', 'F'], [(0, 1), (1, 4)]),
     (['0', 'b', '1', '0', '1'], [(0, 1), (1, 5)]), (['1', '_', '0', '0', '0'], [(0, 1), (1, 5)])]

def typescriptLang : WordLang where
  code := HandLex.Typescript.run_
  whole := true
  blanks := [' ', '\n']
  eof := false
  words := Words.typescriptW
  split :=
    [(['>', '>', '>', '='], [(0, 3), (3, 4)]), (['1', 'e', '1', '0'], [(0, 1), (1, 4)]),
     (['2', '.', '5', 'e', '-', '3'], [(0, 3), (3, 4), (4, 5), (5, 6)]), (['0', 'b', '1', '0', '1'], [(0, 1), (1, 5)]),
     (['1', '_', '0', '0', '0'], [(0, 1), (1, 5)])]

def csharpLang : WordLang where
  code := HandLex.Csharp.run_
  whole := false
  blanks := [' ', '\n']
  eof := false
  words := Words.csharpW
  split :=
    [(['.', '.'], [(0, 1), (1, 2)]), (['?', '?'], [(0, 1), (1, 2)]), ([':', ':'], [(0, 1), (1, 2)]), (['-', '>'], [(0, 1), (1, 2)]),
     (['&', '='], [(0, 1), (1, 2)]), (['|', '='], [(0, 1), (1, 2)]), (['^', '='], [(0, 1), (1, 2)]), (['<', '<', '='], [(0, 2), (2, 3)]),
     (['=', '>'], [(0, 1), (1, 2)]), (['?', '.'], [(0, 1), (1, 2)]), (['?', '?', '='], [(0, 1), (1, 2), (2, 3)]),
     (['1', 'e', '1', '0'], [(0, 2), (2, 4)]), (['2', '.', '5', 'e', '-', '3'], [(0, 4), (4, 5), (5, 6)]),
     (['0', 'x', 'F', 'F'], [(0, 3), (3, 4)]), (['0', 'b', '1', '0', '1'], [(0, 2), (2, 5)])]

def swiftLang : WordLang where
  code := HandLex.Swift.run_
  whole := false
  blanks := [' ', '\n']
  eof := false
  words := Words.swiftW
  split :=
    [(['=', '=', '='], [(0, 2), (2, 3)]), (['!', '=', '='], [(0, 2), (2, 3)]), (['&', '+'], [(0, 1), (1, 2)]), (['&', '-'], [(0, 1), (1, 2)]),
     (['&', '*'], [(0, 1), (1, 2)])]

def dartLang : WordLang where
  code := HandLex.Dart.run_
  whole := false
  blanks := [' ', '\n']
  eof := false
  words := Words.dartW
  split :=
    [(['>', '>', '>'], [(0, 2), (2, 3)]), (['>', '>', '>', '='], [(0, 2), (2, 4)]), (['?', '.', '.'], [(0, 2), (2, 3)]),
     (['.', '.', '.', '?'], [(0, 3), (3, 4)]), (['1', 'e', '1', '0'], [(0, 1), (1, 4)]),
     (['2', '.', '5', 'e', '-', '3'], [(0, 3), (3, 4), (4, 5), (5, 6)]), (['0', 'x', 'F', 'F'], [(0, 1), (1, 4)])]

def dLang : WordLang where
  code := HandLex.D.run_
  whole := false
  blanks := [' ', '\n']
  eof := false
  words := Words.dW
  split :=
    [(['/', '='], [(0, 1), (1, 2)]), (['.', '.'], [(0, 1), (1, 2)]), (['.', '.', '.'], [(0, 1), (1, 2), (2, 3)]),
     (['>', '>', '>', '='], [(0, 2), (2, 4)]), (['>', '>', '>'], [(0, 2), (2, 3)]), (['^', '^'], [(0, 1), (1, 2)]),
     (['^', '^', '='], [(0, 1), (1, 3)]), (['=', '>'], [(0, 1), (1, 2)]), (['0', 'x', 'F', 'F'], [(0, 1), (1, 4)]),
     (['0', 'b', '1', '0', '1'], [(0, 1), (1, 5)])]

def solidityLang : WordLang where
  code := HandLex.Solidity.run_
  whole := false
  blanks := [' ', '\n']
  eof := false
  words := Words.solidityW
  split :=
    [(['|', '='], [(0, 1), (1, 2)]), (['^', '='], [(0, 1), (1, 2)]), (['&', '='], [(0, 1), (1, 2)]), (['<', '<', '='], [(0, 2), (2, 3)]),
     (['>', '>', '='], [(0, 2), (2, 3)]), (['>', '>', '>', '='], [(0, 2), (2, 4)]), (['>', '>', '>'], [(0, 2), (2, 3)]),
     (['+', '+'], [(0, 1), (1, 2)]), (['-', '-'], [(0, 1), (1, 2)]), (['=', '>'], [(0, 1), (1, 2)]),
     (['1', '_', '0', '0', '0'], [(0, 1), (1, 5)])]

def valaLang : WordLang where
  code := HandLex.Vala.run_
  whole := false
  blanks := [' ', '\n']
  eof := false
  words := Words.valaW
  split :=
    [(['|', '='], [(0, 1), (1, 2)]), (['^', '='], [(0, 1), (1, 2)]), (['&', '='], [(0, 1), (1, 2)]), (['<', '<', '='], [(0, 2), (2, 3)]),
     (['>', '>', '='], [(0, 2), (2, 3)]), (['?', '?'], [(0, 1), (1, 2)]), (['=', '>'], [(0, 1), (1, 2)]), ([':', ':'], [(0, 1), (1, 2)]),
     (['.', '.', '.'], [(0, 1), (1, 2), (2, 3)])]

def hlslLang : WordLang where
  code := HandLex.Hlsl.run_
  whole := false
  blanks := [' ', '\n']
  eof := false
  words := Words.hlslW
  split :=
    []

def objectiveCLang : WordLang where
  code := HandLex.ObjectiveC.run_
  whole := true
  blanks := [' ', '\n']
  eof := false
  words := Words.objectiveCW
  split :=
    [(['+', '='], [(0, 1), (1, 2)]), (['-', '='], [(0, 1), (1, 2)]), (['*', '='], [(0, 1), (1, 2)]), (['/', '='], [(0, 1), (1, 2)]),
     (['%', '='], [(0, 1), (1, 2)]), (['|', '='], [(0, 1), (1, 2)]), (['^', '='], [(0, 1), (1, 2)]), (['&', '='], [(0, 1), (1, 2)]),
     (['<', '<', '='], [(0, 1), (1, 3)]), (['>', '>', '='], [(0, 1), (1, 3)]), (['<', '<'], [(0, 1), (1, 2)]), (['>', '>'], [(0, 1), (1, 2)]),
     (['+', '+'], [(0, 1), (1, 2)]), (['-', '-'], [(0, 1), (1, 2)]), (['-', '>'], [(0, 1), (1, 2)]),
     (['.', '.', '.'], [(0, 1), (1, 2), (2, 3)])]

def pascalLang : WordLang where
  code := HandLex.Pascal.run_
  whole := false
  blanks := [' ', '\n']
  eof := false
  words := Words.pascalW
  split :=
    [(['1', 'e', '1', '0'], [(0, 1), (1, 4)]), (['2', '.', '5', 'e', '-', '3'], [(0, 3), (3, 4), (4, 5), (5, 6)])]

def delphiLang : WordLang where
  code := HandLex.Delphi.run_
  whole := false
  blanks := [' ', '\n']
  eof := false
  words := Words.delphiW
  split :=
    []

def adaLang : WordLang where
  code := HandLex.Ada.run_
  whole := false
  blanks := [' ', '\n']
  eof := false
  words := Words.adaW
  split :=
    []

def vhdlLang : WordLang where
  code := HandLex.Vhdl.run_
  whole := false
  blanks := [' ', '\n']
  eof := false
  words := Words.vhdlW
  split :=
    [(['?', '?'], [(0, 1), (1, 2)]), (['?', '='], [(0, 1), (1, 2)]), (['?', '/', '='], [(0, 1), (1, 3)]), (['?', '<'], [(0, 1), (1, 2)]),
     (['?', '<', '='], [(0, 1), (1, 3)]), (['?', '>'], [(0, 1), (1, 2)]), (['?', '>', '='], [(0, 1), (1, 3)]),
     (['1', 'e', '1', '0'], [(0, 1), (1, 4)])]

def fortranLang : WordLang where
  code := HandLex.Fortran.run_
  whole := false
  blanks := ['\n']
  eof := false
  words := Words.fortranW
  split :=
    [(['=', '>'], [(0, 1), (1, 2)]), (['/', '/'], [(0, 1), (1, 2)]), (['(', '/'], [(0, 1), (1, 2)]), (['/', ')'], [(0, 1), (1, 2)]),
     (['['], []), ([']'], [])]

def ocamlLang : WordLang where
  code := HandLex.Ocaml.run_
  whole := true
  blanks := [' ', '\n']
  eof := false
  words := Words.ocamlW
  split :=
    [(['-', '.'], [(0, 1), (1, 2)]), (['.', '.'], [(0, 1), (1, 2)]), ([':', '='], [(0, 1), (1, 2)]), ([':', '>'], [(0, 1), (1, 2)]),
     ([';', ';'], [(0, 1), (1, 2)]), (['>', ']'], [(0, 1), (1, 2)]), (['>', '}'], [(0, 1), (1, 2)]), (['[', '<'], [(0, 1), (1, 2)]),
     (['[', '>'], [(0, 1), (1, 2)]), (['[', '|'], [(0, 1), (1, 2)]), (['{', '<'], [(0, 1), (1, 2)]), (['|', ']'], [(0, 1), (1, 2)]),
     (['<', '>'], [(0, 1), (1, 2)]), (['*', '*'], [(0, 1), (1, 2)]), (['+', '.'], [(0, 1), (1, 2)]), (['*', '.'], [(0, 1), (1, 2)]),
     (['/', '.'], [(0, 1), (1, 2)]), (['|', '>'], [(0, 1), (1, 2)]), (['0', 'x', 'F', 'F'], [(0, 1), (1, 4)]),
     (['0', 'b', '1', '0', '1'], [(0, 1), (1, 5)]), (['1', '_', '0', '0', '0'], [(0, 1), (1, 5)])]

def elmLang : WordLang where
  code := HandLex.Elm.run_
  whole := false
  blanks := [' ', '\n']
  eof := false
  words := Words.elmW
  split :=
    [([':', ':'], [(0, 1), (1, 2)]), (['<', '|'], [(0, 1), (1, 2)]), (['0', 'x', 'F', 'F'], [(0, 1), (1, 4)])]

def perlLang : WordLang where
  code := HandLex.Perl.run_
  whole := false
  blanks := [' ', '\n']
  eof := false
  words := Words.perlW
  split :=
    [(['%', '='], [(0, 1), (1, 2)]), (['*', '*', '='], [(0, 2), (2, 3)]), (['.', '='], [(0, 1), (1, 2)]), (['&', '='], [(0, 1), (1, 2)]),
     (['|', '='], [(0, 1), (1, 2)]), (['^', '='], [(0, 1), (1, 2)]), (['<', '<', '='], [(0, 2), (2, 3)]), (['>', '>', '='], [(0, 2), (2, 3)]),
     (['&', '&', '='], [(0, 1), (1, 2), (2, 3)]), (['|', '|', '='], [(0, 1), (1, 2), (2, 3)]), (['/', '/', '='], [(0, 1), (1, 3)]),
     (['&', '&'], [(0, 1), (1, 2)]), (['|', '|'], [(0, 1), (1, 2)]), (['/', '/'], [(0, 1), (1, 2)]), (['.', '.', '.'], [(0, 2), (2, 3)]),
     (['=', '>'], [(0, 1), (1, 2)]), ([':', ':'], [(0, 1), (1, 2)]), (['1', 'e', '1', '0'], [(0, 1), (1, 4)]),
     (['2', '.', '5', 'e', '-', '3'], [(0, 3), (3, 4), (4, 5), (5, 6)]), (['0', 'x', 'F', 'F'], [(0, 1), (1, 4)]),
     (['0', 'b', '1', '0', '1'], [(0, 1), (1, 5)]), (['1', '_', '0', '0', '0'], [(0, 1), (1, 5)])]

def powershellLang : WordLang where
  code := HandLex.Powershell.run_
  whole := false
  blanks := [' ', '\n']
  eof := true
  words := Words.powershellW
  split :=
    [(['@', '('], [(0, 1), (1, 2)]), (['@', '{'], [(0, 1), (1, 2)]), (['$', '('], [(0, 1), (1, 2)]), (['?', '?'], [(0, 1), (1, 2)]),
     (['?', '?', '='], [(0, 1), (1, 2), (2, 3)]), (['0', 'x', 'F', 'F'], [(0, 1), (1, 4)])]

def smalltalkLang : WordLang where
  code := HandLex.Smalltalk.run_
  whole := false
  blanks := [' ', '\n']
  eof := false
  words := Words.smalltalkW
  split :=
    [(['=', '='], [(0, 1), (1, 2)]), (['~', '='], [(0, 1), (1, 2)]), (['~', '~'], [(0, 1), (1, 2)]), (['<', '='], [(0, 1), (1, 2)]),
     (['>', '='], [(0, 1), (1, 2)]), ([':', '='], [(0, 1), (1, 2)]), (['3', '.', '1', '4'], [(0, 1), (1, 2), (2, 4)]),
     (['1', 'e', '1', '0'], [(0, 1), (1, 4)]), (['2', '.', '5', 'e', '-', '3'], [(0, 1), (1, 2), (2, 3), (3, 4), (4, 5), (5, 6)])]

def sqlLang : WordLang where
  code := HandLex.Sql.run_
  whole := false
  blanks := [' ', '\n']
  eof := false
  words := Words.sqlW
  split :=
    [(['|', '|'], [(0, 1), (1, 2)])]

def verilogLang : WordLang where
  code := HandLex.Verilog.run_
  whole := true
  blanks := [' ', '\n']
  eof := true
  words := Words.verilogW
  split :=
    [(['*', '*'], [(0, 1), (1, 2)]), (['=', '=', '='], [(0, 2), (2, 3)]), (['!', '=', '='], [(0, 2), (2, 3)]), (['~', '&'], [(0, 1), (1, 2)]),
     (['~', '|'], [(0, 1), (1, 2)]), (['~', '^'], [(0, 1), (1, 2)]), (['^', '~'], [(0, 1), (1, 2)]), (['<', '<', '<'], [(0, 2), (2, 3)]),
     (['>', '>', '>'], [(0, 2), (2, 3)]), (['-', '>'], [(0, 1), (1, 2)]), (['+', ':'], [(0, 1), (1, 2)]), (['-', ':'], [(0, 1), (1, 2)]),
     (['3', '.', '1', '4'], [(0, 1), (1, 2), (2, 4)]), (['1', 'e', '1', '0'], [(0, 1), (1, 4)]),
     (['2', '.', '5', 'e', '-', '3'], [(0, 1), (1, 2), (2, 3), (3, 4), (4, 5), (5, 6)])]

def wolframLang : WordLang where
  code := HandLex.Wolfram.run_
  whole := false
  blanks := [' ', '\n']
  eof := false
  words := Words.wolframW
  split :=
    [(['/', '.'], [(0, 1), (1, 2)]), (['/', '/', '.'], [(0, 2), (2, 3)]), ([';', ';'], [(0, 1), (1, 2)]), (['[', '['], [(0, 1), (1, 2)]),
     ([']', ']'], [(0, 1), (1, 2)]), (['.', '.'], [(0, 1), (1, 2)]), (['.', '.', '.'], [(0, 1), (1, 2), (2, 3)]),
     (['~', '~'], [(0, 1), (1, 2)]), (['+', '+'], [(0, 1), (1, 2)]), (['-', '-'], [(0, 1), (1, 2)]), (['/', ';'], [(0, 1), (1, 2)]),
     ([':', ':'], [(0, 1), (1, 2)]), (['^', '='], [(0, 1), (1, 2)]), (['^', ':', '='], [(0, 1), (1, 3)]), (['<', '|'], [(0, 1), (1, 2)]),
     (['|', '>'], [(0, 1), (1, 2)])]

def nimLang : WordLang where
  code := HandLex.Nim.run_
  whole := false
  blanks := [' ', '\n']
  eof := false
  words := Words.nimW
  split :=
    [(['+', '='], [(0, 1), (1, 2)]), (['-', '='], [(0, 1), (1, 2)]), (['*', '='], [(0, 1), (1, 2)]), (['/', '='], [(0, 1), (1, 2)]),
     (['.', '.'], [(0, 1), (1, 2)]), (['-', '>'], [(0, 1), (1, 2)]), (['=', '>'], [(0, 1), (1, 2)]), (['<', '-'], [(0, 1), (1, 2)]),
     (['(', '.'], [(0, 1), (1, 2)]), (['.', ')'], [(0, 1), (1, 2)]), (['[', '.'], [(0, 1), (1, 2)]), (['.', ']'], [(0, 1), (1, 2)]),
     (['{', '.'], [(0, 1), (1, 2)]), (['.', '}'], [(0, 1), (1, 2)]), ([':', ':'], [(0, 1), (1, 2)]),
     (['2', '.', '5', 'e', '-', '3'], [(0, 3), (3, 4), (4, 5), (5, 6)])]

def vlangLang : WordLang where
  code := HandLex.Vlang.lex
  whole := false
  blanks := [' ', '\n']
  eof := false
  words := Words.vlangW
  split :=
    [([':', '='], [(0, 1), (1, 2)]), (['<', '-'], [(0, 1), (1, 2)]), (['>', '>', '>'], [(0, 2), (2, 3)]),
     (['>', '>', '>', '='], [(0, 2), (2, 4)]), (['0', 'x', 'F', 'F'], [(0, 1), (1, 4)]), (['0', 'b', '1', '0', '1'], [(0, 1), (1, 5)]),
     (['1', '_', '0', '0', '0'], [(0, 1), (1, 5)])]

def leanLang : WordLang where
  code := HandLex.Lean.run_
  whole := false
  blanks := [' ', '\n']
  eof := false
  words := Words.leanW
  split :=
    [(['=', '='], [(0, 1), (1, 2)]), (['!', '='], [(0, 1), (1, 2)]), (['<', '='], [(0, 1), (1, 2)]), (['>', '='], [(0, 1), (1, 2)]),
     (['&', '&'], [(0, 1), (1, 2)]), (['|', '|'], [(0, 1), (1, 2)]), ([':', '='], [(0, 1), (1, 2)]), (['=', '>'], [(0, 1), (1, 2)]),
     (['-', '>'], [(0, 1), (1, 2)]), (['<', '-'], [(0, 1), (1, 2)]), (['.', '.'], [(0, 1), (1, 2)]), (['+', '+'], [(0, 1), (1, 2)]),
     ([':', ':'], [(0, 1), (1, 2)]), (['>', '>', '='], [(0, 1), (1, 2), (2, 3)]), (['<', '|', '>'], [(0, 1), (1, 2), (2, 3)]),
     (['<', '|'], [(0, 1), (1, 2)]), (['|', '>'], [(0, 1), (1, 2)]), (['0', 'x', 'F', 'F'], [(0, 1), (1, 4)]),
     (['0', 'b', '1', '0', '1'], [(0, 1), (1, 5)])]

def idlLang : WordLang where
  code := HandLex.Idl.run_
  whole := true
  blanks := [' ', '\n']
  eof := false
  words := Words.idlW
  split :=
    []

def graphqlLang : WordLang where
  code := HandLex.Graphql.run_
  whole := false
  blanks := [' ', '\n']
  eof := false
  words := Words.graphqlW
  split :=
    []

def protobufLang : WordLang where
  code := HandLex.Protobuf.run_
  whole := false
  blanks := [' ', '\n']
  eof := true
  words := Words.protobufW
  split :=
    [(['0', 'x', 'F', 'F'], [(0, 1), (1, 4)])]

def watLang : WordLang where
  code := HandLex.Wat.run_
  whole := false
  blanks := [' ', '\n']
  eof := false
  words := Words.watW
  split :=
    [(['2', '.', '5', 'e', '-', '3'], [(0, 4), (4, 6)])]

def haskellLang : WordLang where
  code := HandLex.Haskell.lex
  whole := false
  blanks := [' ', '\n']
  eof := true
  words := Words.haskellW
  split :=
    [(['/', '='], [(0, 1), (1, 2)]), (['&', '&'], [(0, 1), (1, 2)]), (['|', '|'], [(0, 1), (1, 2)]), (['=', '>'], [(0, 1), (1, 2)]),
     (['!', '!'], [(0, 1), (1, 2)]), (['*', '*'], [(0, 1), (1, 2)]), (['>', '>'], [(0, 1), (1, 2)]), (['>', '>', '='], [(0, 1), (1, 3)]),
     (['=', '<', '<'], [(0, 1), (1, 2), (2, 3)]), (['<', '$', '>'], [(0, 1), (1, 2), (2, 3)]), (['<', '*', '>'], [(0, 1), (1, 2), (2, 3)]),
     (['<', '>'], [(0, 1), (1, 2)]), (['^', '^'], [(0, 1), (1, 2)]), (['$', '!'], [(0, 1), (1, 2)]), (['1', 'e', '1', '0'], [(0, 1), (1, 4)]),
     (['2', '.', '5', 'e', '-', '3'], [(0, 3), (3, 4), (4, 5), (5, 6)]), (['0', 'x', 'F', 'F'], [(0, 1), (1, 4)])]

def coqLang : WordLang where
  code := HandLex.Coq.lexInternal
  whole := false
  blanks := [' ', '\n']
  eof := false
  words := Words.coqW
  split :=
    [(['+', '+'], [(0, 1), (1, 2)]), (['.', '('], [(0, 1), (1, 2)]), (['.', '.'], [(0, 1), (1, 2)]), ([':', '<'], [(0, 1), (1, 2)]),
     ([':', '>'], [(0, 1), (1, 2)]), (['<', '-', '>'], [(0, 2), (2, 3)]), (['<', ':'], [(0, 1), (1, 2)]), (['=', '_', 'D'], [(0, 1), (1, 3)]),
     (['>', '-', '>'], [(0, 1), (1, 3)]), (['|', '|'], [(0, 1), (1, 2)]), (['3', '.', '1', '4'], [(0, 1), (1, 2), (2, 4)]),
     (['1', 'e', '1', '0'], [(0, 1), (1, 4)]), (['2', '.', '5', 'e', '-', '3'], [(0, 1), (1, 2), (2, 3), (3, 4), (4, 5), (5, 6)]),
     (['0', 'x', 'F', 'F'], [(0, 1), (1, 4)])]

def purescriptLang : WordLang where
  code := HandLex.Purescript.run_
  whole := false
  blanks := [' ', '\n']
  eof := false
  words := Words.purescriptW
  split :=
    [(['.', '.'], [(0, 1), (1, 2)]), (['<', '>'], [(0, 1), (1, 2)]), (['>', '>', '>'], [(0, 1), (1, 2), (2, 3)]),
     (['<', '<', '<'], [(0, 1), (1, 2), (2, 3)]), (['>', '>', '='], [(0, 1), (1, 3)]), (['<', '$', '>'], [(0, 1), (1, 2), (2, 3)]),
     (['<', '*', '>'], [(0, 1), (1, 2), (2, 3)]), (['<', '|', '>'], [(0, 1), (1, 2), (2, 3)])]

def crystalLang : WordLang where
  code := HandLex.Crystal.run_
  whole := false
  blanks := [' ', '\n']
  eof := false
  words := Words.crystalW
  split :=
    [(['/', '/'], [(0, 1), (1, 2)]), (['=', '=', '='], [(0, 2), (2, 3)]), (['/', '/', '='], [(0, 1), (1, 3)]), (['-', '>'], [(0, 1), (1, 2)]),
     (['=', '>'], [(0, 1), (1, 2)]), (['&', '+'], [(0, 1), (1, 2)]), (['&', '-'], [(0, 1), (1, 2)]), (['&', '*'], [(0, 1), (1, 2)]),
     (['&', '*', '*'], [(0, 1), (1, 3)]), (['1', 'e', '1', '0'], [(0, 1), (1, 4)]),
     (['2', '.', '5', 'e', '-', '3'], [(0, 3), (3, 4), (4, 5), (5, 6)]), (['0', 'x', 'F', 'F'], [(0, 1), (1, 4)]),
     (['0', 'b', '1', '0', '1'], [(0, 1), (1, 5)])]

def nixLang : WordLang where
  code := HandLex.Nix.run_
  whole := false
  blanks := [' ', '\n']
  eof := false
  words := Words.nixW
  split :=
    [(['.', '.', '.'], [(0, 1), (1, 2), (2, 3)]), (['$', '{'], [(0, 1), (1, 2)]), (['|', '>'], [(1, 2)])]

def cssLang : WordLang where
  code := HandLex.Css.run_
  whole := false
  blanks := [' ', '\n']
  eof := false
  words := Words.cssW
  split :=
    []

def dhallLang : WordLang where
  code := HandLex.Dhall.run_
  whole := true
  blanks := [' ', '\n']
  eof := false
  words := Words.dhallW
  split :=
    [(['/', '/', '\\', '\\'], [(0, 2), (2, 3), (3, 4)]), (['=', '=', '='], [(0, 2), (2, 3)]), ([':', ':'], [(0, 1), (1, 2)]),
     (['3', '.', '1', '4'], [(0, 1), (1, 2), (2, 4)]), (['1', 'e', '1', '0'], [(0, 1), (1, 4)]),
     (['2', '.', '5', 'e', '-', '3'], [(0, 1), (1, 2), (2, 3), (3, 6)]), (['0', 'x', 'F', 'F'], [(0, 1), (1, 4)])]

def texLang : WordLang where
  code := HandLex.Tex.run_
  whole := false
  blanks := [' ', '\n']
  eof := false
  words := Words.texW
  split :=
    []

def matlabLang : WordLang where
  code := HandLex.Matlab.run_
  whole := false
  blanks := [' ', '\n']
  eof := false
  words := Words.matlabW
  split :=
    [(['.', '.', '.'], [(0, 1), (1, 2), (2, 3)]), (['0', 'x', 'F', 'F'], [(0, 1), (1, 4)])]

def actionscriptLang : WordLang where
  code := HandLex.Actionscript.run_
  whole := false
  blanks := [' ', '\n']
  eof := false
  words := Words.actionscriptW
  split :=
    [(['&', '&', '='], [(0, 2), (2, 3)]), (['|', '|', '='], [(0, 2), (2, 3)]), ([':', ':'], [(0, 1), (1, 2)]), (['.', '.'], [(0, 1), (1, 2)]),
     (['.', '.', '.'], [(0, 1), (1, 2), (2, 3)]), (['3', '.', '1', '4'], [(0, 1), (1, 2), (2, 4)]), (['1', 'e', '1', '0'], [(0, 1), (1, 4)]),
     (['2', '.', '5', 'e', '-', '3'], [(0, 1), (1, 2), (2, 3), (3, 4), (4, 5), (5, 6)]), (['0', 'x', 'F', 'F'], [(0, 1), (1, 4)])]

def jLang : WordLang where
  code := HandLex.J.run_
  whole := false
  blanks := [' ', '\n']
  eof := false
  words := Words.jW
  split :=
    [(['+', '.'], [(0, 1), (1, 2)]), (['*', '.'], [(0, 1), (1, 2)]), (['%', '.'], [(0, 1), (1, 2)]), (['>', '.'], [(0, 1), (1, 2)]),
     (['<', '.'], [(0, 1), (1, 2)]), (['i', '.'], [(0, 1), (1, 2)]), (['/', '.'], [(0, 1), (1, 2)]), (['/', ':'], [(0, 1), (1, 2)]),
     (['\\', ':'], [(0, 1), (1, 2)]), (['#', '.'], [(0, 1), (1, 2)]), (['~', ':'], [(0, 1), (1, 2)]), (['<', ':'], [(0, 1), (1, 2)]),
     (['>', ':'], [(0, 1), (1, 2)]), ([',', '.'], [(0, 1), (1, 2)]), ([',', ':'], [(0, 1), (1, 2)])]

def cLang : WordLang where
  code := HandLex.C.run_
  whole := false
  blanks := [' ', '\n']
  eof := false
  words := Words.cW
  split :=
    [(['.', '.', '.'], [(0, 1), (1, 2), (2, 3)])]

def cppLang : WordLang where
  code := HandLex.Cpp.run_
  whole := false
  blanks := [' ', '\n']
  eof := false
  words := Words.cppW
  split :=
    [(['.', '.', '.'], [(0, 1), (1, 2), (2, 3)]), (['.', '*'], [(0, 1), (1, 2)]), (['-', '>', '*'], [(0, 2), (2, 3)]),
     (['<', '=', '>'], [(0, 2), (2, 3)])]

def luaLang : WordLang where
  code := HandLex.Lua.run_
  whole := false
  blanks := [' ', '\n']
  eof := false
  words := Words.luaW
  split :=
    [(['0', 'x', 'F', 'F'], [(0, 1), (1, 4)])]

def zigLang : WordLang where
  code := HandLex.Zig.run_
  whole := true
  blanks := [' ', '\n']
  eof := false
  words := Words.zigW
  split :=
    [(['+', '%'], [(0, 1), (1, 2)]), (['+', '%', '='], [(0, 1), (1, 3)]), (['-', '%'], [(0, 1), (1, 2)]), (['-', '%', '='], [(0, 1), (1, 3)]),
     (['*', '%'], [(0, 1), (1, 2)]), (['*', '%', '='], [(0, 1), (1, 3)]), (['.', '.'], [(0, 1), (1, 2)]),
     (['3', '.', '1', '4'], [(0, 1), (1, 2), (2, 4)]), (['2', '.', '5', 'e', '-', '3'], [(0, 1), (1, 2), (2, 6)])]

def prologLang : WordLang where
  code := HandLex.Prolog.run_
  whole := false
  blanks := [' ', '\n']
  eof := false
  words := Words.prologW
  split :=
    [(['?', '-'], [(0, 1), (1, 2)]), (['-', '-', '>'], [(0, 1), (1, 2), (2, 3)]), (['-', '>'], [(0, 1), (1, 2)]),
     (['@', '<'], [(0, 1), (1, 2)]), (['@', '>'], [(0, 1), (1, 2)]), (['@', '=', '<'], [(0, 1), (1, 3)]), (['@', '>', '='], [(0, 1), (1, 3)]),
     (['=', '.', '.'], [(0, 1), (1, 2), (2, 3)]), (['\\', '+'], [(0, 1), (1, 2)]), (['>', '>'], [(0, 1), (1, 2)]),
     (['<', '<'], [(0, 1), (1, 2)]), (['/', '\\'], [(0, 1), (1, 2)]), (['\\', '/'], [(0, 1), (1, 2)])]

def wgslLang : WordLang where
  code := HandLex.Wgsl.run_
  whole := false
  blanks := [' ', '\n']
  eof := false
  words := Words.wgslW
  split :=
    [(['-', '-'], [(0, 1), (1, 2)]), (['+', '+'], [(0, 1), (1, 2)])]

def juliaLang : WordLang where
  code := HandLex.Julia.run_
  whole := false
  blanks := [' ', '\n']
  eof := false
  words := Words.juliaW
  split :=
    [(['/', '/'], [(0, 1), (1, 2)]), (['=', '=', '='], [(0, 2), (2, 3)]), (['!', '=', '='], [(0, 2), (2, 3)]),
     (['>', '>', '>'], [(0, 2), (2, 3)]), ([':', ':'], [(0, 1), (1, 2)]), (['.', '.', '.'], [(0, 2), (2, 3)]), (['|', '>'], [(0, 1), (1, 2)]),
     (['<', ':'], [(0, 1), (1, 2)]), (['>', ':'], [(0, 1), (1, 2)]), (['.', '+'], [(0, 1), (1, 2)]), (['.', '*'], [(0, 1), (1, 2)])]

def nginxLang : WordLang where
  code := HandLex.Nginx.run_
  whole := false
  blanks := [' ', '\n']
  eof := false
  words := Words.nginxW
  split :=
    []

def witComponentLang : WordLang where
  code := HandLex.WitComponent.run_
  whole := false
  blanks := [' ', '\n']
  eof := true
  words := Words.witComponentW
  split :=
    []

/-- All of them. -/
def wordLangs : List WordLang :=
  [javaLang, goLang, kotlinLang, phpLang, typescriptLang, csharpLang, swiftLang, dartLang, dLang, solidityLang, valaLang, hlslLang,
   objectiveCLang, pascalLang, delphiLang, adaLang, vhdlLang, fortranLang, ocamlLang, elmLang, perlLang, powershellLang, smalltalkLang,
   sqlLang, verilogLang, wolframLang, nimLang, vlangLang, leanLang, idlLang, graphqlLang, protobufLang, watLang, haskellLang, coqLang,
   purescriptLang, crystalLang, nixLang, cssLang, dhallLang, texLang, matlabLang, actionscriptLang, jLang, cLang, cppLang, luaLang, zigLang,
   prologLang, wgslLang, juliaLang, nginxLang, witComponentLang]

end Oaks.Props
