import Verif.Proofs.LexWords
import Verif.Spec.LexPhrases
import Verif.Model.HandLex.Java
import Verif.Model.HandLex.Csharp
import Verif.Model.HandLex.Dart
import Verif.Model.HandLex.D
import Verif.Model.HandLex.Solidity
import Verif.Model.HandLex.Vala
import Verif.Model.HandLex.Hlsl
import Verif.Model.HandLex.ObjectiveC
import Verif.Model.HandLex.Actionscript
import Verif.Model.HandLex.C
import Verif.Model.HandLex.Cpp
import Verif.Model.HandLex.Typescript
import Verif.Model.HandLex.Php
import Verif.Model.HandLex.Go
import Verif.Model.HandLex.Vlang
import Verif.Model.HandLex.Kotlin
import Verif.Model.HandLex.Zig
import Verif.Model.HandLex.Wgsl
import Verif.Model.HandLex.Swift
import Verif.Model.HandLex.Pascal
import Verif.Model.HandLex.Delphi
import Verif.Model.HandLex.Ada
import Verif.Model.HandLex.Vhdl
import Verif.Model.HandLex.Fortran
import Verif.Model.HandLex.Ocaml
import Verif.Model.HandLex.Elm
import Verif.Model.HandLex.Perl
import Verif.Model.HandLex.Sql
import Verif.Model.HandLex.Verilog
import Verif.Model.HandLex.Wolfram
import Verif.Model.HandLex.Nim
import Verif.Model.HandLex.Lean
import Verif.Model.HandLex.Haskell
import Verif.Model.HandLex.Coq
import Verif.Model.HandLex.Purescript
import Verif.Model.HandLex.Crystal
import Verif.Model.HandLex.Matlab
import Verif.Model.HandLex.Lua
import Verif.Model.HandLex.Prolog
import Verif.Model.HandLex.Julia
import Verif.Model.HandLex.Dhall
import Verif.Model.HandLex.Nix
import Verif.Model.HandLex.Smalltalk
import Verif.Model.HandLex.Powershell
import Verif.Model.HandLex.Graphql
import Verif.Model.HandLex.Protobuf
import Verif.Model.HandLex.Css
import Verif.Model.HandLex.Wat
import Verif.Model.HandLex.Idl
import Verif.Model.HandLex.Nginx
import Verif.Model.HandLex.WitComponent
import Verif.Model.HandLex.Tex
import Verif.Model.HandLex.J

/-! C93: the phrases of each language and what its lexer makes of them. -/
namespace Oaks.Props
open Spec Lc

/-- A language: its lexer, phrases of it, and those of them that its lexer cuts otherwise. -/
structure PhraseLang where
  code : Code
  /-- the text has to be in one piece: the lexer looks at `rest()` -/
  whole : Bool
  /-- the lexer records an empty token at the end -/
  eof : Bool
  phrases : List Phrase
  /-- the phrases that are cut otherwise, with the tokens made of them -/
  odd : List (Phrase × List (Nat × Nat))

/-- The phrases that become their elements. -/
def PhraseLang.kept (r : PhraseLang) : List Phrase := r.phrases.filter fun p => decide (p ∉ r.odd.map (·.1))

/-- What the lexer makes of the phrases. -/
def PhraseLang.vocab (r : PhraseLang) : Vocab where
  words := (r.kept.map fun p => (p.text, p.spans 0)) ++ r.odd.map fun e => (e.1.text, e.2)
  blanks := [('\n', [(0, 1)])]
  ending := if r.eof then [(0, 0)] else []

/-- The lexer treats the phrases so; no element is empty; those listed as cut otherwise are phrases of the language, and one of
their elements is no token. -/
def PhraseLang.right (r : PhraseLang) : Bool :=
  r.vocab.right r.whole r.code && (r.phrases.all fun p => p.all fun w => !w.isEmpty && decide (blen w = w.length)) &&
    r.odd.all fun e => decide (e.1 ∈ r.phrases) && (e.2.all fun s => decide (s.1 < s.2) && decide (s.2 ≤ blen e.1.text)) &&
      (e.1.spans 0).any fun s => decide (s ∉ e.2)

def javaPhr : PhraseLang where
  code := HandLex.Java.run_
  whole := false
  eof := false
  phrases := Phrases.javaP
  odd :=
    []

def csharpPhr : PhraseLang where
  code := HandLex.Csharp.run_
  whole := false
  eof := false
  phrases := Phrases.csharpP
  odd :=
    [([['1'], ['.', '.'], ['2']], [(0, 4)]), ([['1', 'e', '3'], ['-'], ['2']], [(0, 2), (2, 3), (3, 4), (4, 5)]),
     ([['a'], ['=', '>'], ['b']], [(0, 1), (1, 2), (2, 3), (3, 4)])]

def dartPhr : PhraseLang where
  code := HandLex.Dart.run_
  whole := false
  eof := false
  phrases := Phrases.dartP
  odd :=
    [([['1', 'e', '3'], ['-'], ['2']], [(0, 1), (1, 3), (3, 4), (4, 5)])]

def dPhr : PhraseLang where
  code := HandLex.D.run_
  whole := false
  eof := false
  phrases := Phrases.dP
  odd :=
    [([['1'], ['.', '.'], ['2']], [(0, 2), (2, 3), (3, 4)])]

def solidityPhr : PhraseLang where
  code := HandLex.Solidity.run_
  whole := false
  eof := false
  phrases := Phrases.solidityP
  odd :=
    [([['a'], ['+', '+']], [(0, 1), (1, 2), (2, 3)]), ([['a'], ['+', '+'], ['+'], ['b']], [(0, 1), (1, 2), (2, 3), (3, 4), (4, 5)])]

def valaPhr : PhraseLang where
  code := HandLex.Vala.run_
  whole := false
  eof := false
  phrases := Phrases.valaP
  odd :=
    []

def hlslPhr : PhraseLang where
  code := HandLex.Hlsl.run_
  whole := false
  eof := false
  phrases := Phrases.hlslP
  odd :=
    []

def objectiveCPhr : PhraseLang where
  code := HandLex.ObjectiveC.run_
  whole := true
  eof := false
  phrases := Phrases.objectiveCP
  odd :=
    [([['a'], ['+', '+']], [(0, 1), (1, 2), (2, 3)]), ([['a'], ['+', '+'], ['+'], ['b']], [(0, 1), (1, 2), (2, 3), (3, 4), (4, 5)]),
     ([['a'], ['+', '='], ['1']], [(0, 1), (1, 2), (2, 3), (3, 4)]), ([['a'], ['<', '<'], ['2']], [(0, 1), (1, 2), (2, 3), (3, 4)]),
     ([['a'], ['-', '>'], ['b']], [(0, 1), (1, 2), (2, 3), (3, 4)])]

def actionscriptPhr : PhraseLang where
  code := HandLex.Actionscript.run_
  whole := false
  eof := false
  phrases := Phrases.actionscriptP
  odd :=
    [([['1', '.', '5'], ['+'], ['2']], [(0, 1), (1, 2), (2, 3), (3, 4), (4, 5)]),
     ([['1', 'e', '3'], ['-'], ['2']], [(0, 1), (1, 3), (3, 4), (4, 5)])]

def cPhr : PhraseLang where
  code := HandLex.C.run_
  whole := false
  eof := false
  phrases := Phrases.cP
  odd :=
    [([['1'], ['+'], ['2']], [(0, 3)]), ([['1'], ['-'], ['a']], [(0, 3)]), ([['1', '.', '5'], ['+'], ['2']], [(0, 5)]),
     ([['1', 'e', '3'], ['-'], ['2']], [(0, 5)])]

def cppPhr : PhraseLang where
  code := HandLex.Cpp.run_
  whole := false
  eof := false
  phrases := Phrases.cppP
  odd :=
    []

def typescriptPhr : PhraseLang where
  code := HandLex.Typescript.run_
  whole := true
  eof := false
  phrases := Phrases.typescriptP
  odd :=
    [([['1', 'e', '3'], ['-'], ['2']], [(0, 1), (1, 3), (3, 4), (4, 5)])]

def phpPhr : PhraseLang where
  code := HandLex.Php.run_
  whole := false
  eof := false
  phrases := Phrases.phpP
  odd :=
    []

def goPhr : PhraseLang where
  code := HandLex.Go.run_
  whole := false
  eof := false
  phrases := Phrases.goP
  odd :=
    [([['1', 'e', '3'], ['-'], ['2']], [(0, 1), (1, 3), (3, 4), (4, 5)])]

def vlangPhr : PhraseLang where
  code := HandLex.Vlang.lex
  whole := false
  eof := false
  phrases := Phrases.vlangP
  odd :=
    [([['a'], [':', '='], ['b']], [(0, 1), (1, 2), (2, 3), (3, 4)])]

def kotlinPhr : PhraseLang where
  code := HandLex.Kotlin.run_
  whole := false
  eof := false
  phrases := Phrases.kotlinP
  odd :=
    [([['a'], ['+', '+']], [(0, 1), (1, 2), (2, 3)]), ([['a'], ['+', '+'], ['+'], ['b']], [(0, 1), (1, 2), (2, 3), (3, 4), (4, 5)]),
     ([['a'], ['<', '<'], ['2']], [(0, 1), (1, 2), (2, 3), (3, 4)]), ([['1'], ['.', '.', '<'], ['2']], [(0, 1), (1, 3), (3, 4), (4, 5)])]

def zigPhr : PhraseLang where
  code := HandLex.Zig.run_
  whole := true
  eof := false
  phrases := Phrases.zigP
  odd :=
    [([['1'], ['.', '.'], ['2']], [(0, 1), (1, 2), (2, 3), (3, 4)]),
     ([['1', '.', '5'], ['+'], ['2']], [(0, 1), (1, 2), (2, 3), (3, 4), (4, 5)])]

def wgslPhr : PhraseLang where
  code := HandLex.Wgsl.run_
  whole := false
  eof := false
  phrases := Phrases.wgslP
  odd :=
    []

def swiftPhr : PhraseLang where
  code := HandLex.Swift.run_
  whole := false
  eof := false
  phrases := Phrases.swiftP
  odd :=
    []

def pascalPhr : PhraseLang where
  code := HandLex.Pascal.run_
  whole := true
  eof := false
  phrases := Phrases.pascalP
  odd :=
    [([['1'], ['.', '.'], ['2']], [(0, 2), (2, 3), (3, 4)]), ([['1', 'e', '3'], ['-'], ['2']], [(0, 1), (1, 3), (3, 4), (4, 5)])]

def delphiPhr : PhraseLang where
  code := HandLex.Delphi.run_
  whole := false
  eof := false
  phrases := Phrases.delphiP
  odd :=
    []

def adaPhr : PhraseLang where
  code := HandLex.Ada.run_
  whole := false
  eof := false
  phrases := Phrases.adaP
  odd :=
    [([['1'], ['.', '.'], ['2']], [(0, 2), (2, 3), (3, 4)])]

def vhdlPhr : PhraseLang where
  code := HandLex.Vhdl.run_
  whole := false
  eof := false
  phrases := Phrases.vhdlP
  odd :=
    []

def fortranPhr : PhraseLang where
  code := HandLex.Fortran.run_
  whole := false
  eof := false
  phrases := Phrases.fortranP
  odd :=
    [([['\'', 'a', ' ', 'b', '\'']], [(0, 2), (3, 4), (4, 5)]), ([['!', ' ', 'a', ' ', 'b']], [])]

def ocamlPhr : PhraseLang where
  code := HandLex.Ocaml.run_
  whole := true
  eof := false
  phrases := Phrases.ocamlP
  odd :=
    [([['a'], [':', '='], ['b']], [(0, 1), (1, 2), (2, 3), (3, 4)])]

def elmPhr : PhraseLang where
  code := HandLex.Elm.run_
  whole := false
  eof := false
  phrases := Phrases.elmP
  odd :=
    []

def perlPhr : PhraseLang where
  code := HandLex.Perl.run_
  whole := false
  eof := false
  phrases := Phrases.perlP
  odd :=
    [([['a'], ['&', '&'], ['b']], [(0, 1), (1, 2), (2, 3), (3, 4)]), ([['a'], ['|', '|'], ['b']], [(0, 1), (1, 2), (2, 3), (3, 4)]),
     ([['1'], ['.', '.'], ['2']], [(0, 2), (2, 3), (3, 4)]), ([['1', 'e', '3'], ['-'], ['2']], [(0, 1), (1, 3), (3, 4), (4, 5)]),
     ([['a'], ['=', '>'], ['b']], [(0, 1), (1, 2), (2, 3), (3, 4)])]

def sqlPhr : PhraseLang where
  code := HandLex.Sql.run_
  whole := false
  eof := false
  phrases := Phrases.sqlP
  odd :=
    []

def verilogPhr : PhraseLang where
  code := HandLex.Verilog.run_
  whole := true
  eof := true
  phrases := Phrases.verilogP
  odd :=
    []

def wolframPhr : PhraseLang where
  code := HandLex.Wolfram.run_
  whole := false
  eof := false
  phrases := Phrases.wolframP
  odd :=
    []

def nimPhr : PhraseLang where
  code := HandLex.Nim.run_
  whole := false
  eof := false
  phrases := Phrases.nimP
  odd :=
    [([['a'], ['+', '='], ['1']], [(0, 1), (1, 2), (2, 3), (3, 4)]), ([['1'], ['.', '.'], ['2']], [(0, 2), (2, 3), (3, 4)])]

def leanPhr : PhraseLang where
  code := HandLex.Lean.run_
  whole := false
  eof := false
  phrases := Phrases.leanP
  odd :=
    [([['a'], [':', '='], ['b']], [(0, 1), (1, 2), (2, 3), (3, 4)])]

def haskellPhr : PhraseLang where
  code := HandLex.Haskell.lex
  whole := false
  eof := true
  phrases := Phrases.haskellP
  odd :=
    [([['a'], ['&', '&'], ['b']], [(0, 1), (1, 2), (2, 3), (3, 4)]), ([['a'], ['|', '|'], ['b']], [(0, 1), (1, 2), (2, 3), (3, 4)]),
     ([['['], ['1'], ['.', '.'], ['2'], [']']], [(0, 1), (1, 3), (3, 4), (4, 5), (5, 6)]),
     ([['1', 'e', '3'], ['-'], ['2']], [(0, 1), (1, 3), (3, 4), (4, 5)])]

def coqPhr : PhraseLang where
  code := HandLex.Coq.lexInternal
  whole := false
  eof := false
  phrases := Phrases.coqP
  odd :=
    []

def purescriptPhr : PhraseLang where
  code := HandLex.Purescript.run_
  whole := false
  eof := false
  phrases := Phrases.purescriptP
  odd :=
    [([['['], ['1'], ['.', '.'], ['2'], [']']], [(0, 1), (1, 3), (3, 4), (4, 5), (5, 6)])]

def crystalPhr : PhraseLang where
  code := HandLex.Crystal.run_
  whole := false
  eof := false
  phrases := Phrases.crystalP
  odd :=
    [([['a'], ['!', '='], ['b']], [(0, 2), (2, 3), (3, 4)]), ([['1'], ['.', '.'], ['2']], [(0, 4)]),
     ([['1', 'e', '3'], ['-'], ['2']], [(0, 1), (1, 3), (3, 4), (4, 5)])]

def matlabPhr : PhraseLang where
  code := HandLex.Matlab.run_
  whole := false
  eof := false
  phrases := Phrases.matlabP
  odd :=
    []

def luaPhr : PhraseLang where
  code := HandLex.Lua.run_
  whole := false
  eof := false
  phrases := Phrases.luaP
  odd :=
    [([['a'], ['-'], ['1']], [(0, 1), (1, 3)]), ([['1'], ['-'], ['a']], [(0, 1), (1, 3)]), ([['-'], ['1']], [(0, 2)]),
     ([['a'], ['='], ['-'], ['1']], [(0, 1), (1, 2), (2, 4)]), ([['1', 'e', '3'], ['-'], ['2']], [(0, 3), (3, 5)]),
     ([['a'], [' '], ['-'], [' '], ['b']], [(0, 1), (1, 2), (2, 5)])]

def prologPhr : PhraseLang where
  code := HandLex.Prolog.run_
  whole := false
  eof := false
  phrases := Phrases.prologP
  odd :=
    []

def juliaPhr : PhraseLang where
  code := HandLex.Julia.run_
  whole := false
  eof := false
  phrases := Phrases.juliaP
  odd :=
    [([['a'], ['!', '='], ['b']], [(0, 2), (2, 3), (3, 4)])]

def dhallPhr : PhraseLang where
  code := HandLex.Dhall.run_
  whole := false
  eof := false
  phrases := Phrases.dhallP
  odd :=
    []

def nixPhr : PhraseLang where
  code := HandLex.Nix.run_
  whole := false
  eof := false
  phrases := Phrases.nixP
  odd :=
    [([['/', '*', ' ', 'a', ' ', '*', '/']], [(0, 1), (1, 2), (2, 3), (3, 4), (4, 5), (5, 6), (6, 7)]),
     ([['/', '*', '*', '/']], [(0, 1), (1, 2), (2, 3), (3, 4)]),
     ([['/', '*', ' ', '*', ' ', '*', '/']], [(0, 1), (1, 2), (2, 3), (3, 4), (4, 5), (5, 6), (6, 7)])]

def smalltalkPhr : PhraseLang where
  code := HandLex.Smalltalk.run_
  whole := false
  eof := false
  phrases := Phrases.smalltalkP
  odd :=
    [([['a'], [':', '='], ['b']], [(0, 1), (1, 2), (2, 3), (3, 4)]), ([['\'', 'a', ' ', 'b', '\'']], [(0, 1), (1, 2), (2, 3), (3, 4), (4, 5)])]

def powershellPhr : PhraseLang where
  code := HandLex.Powershell.run_
  whole := false
  eof := true
  phrases := Phrases.powershellP
  odd :=
    [([['1'], ['.', '.'], ['2']], [(0, 2), (2, 3), (3, 4)])]

def graphqlPhr : PhraseLang where
  code := HandLex.Graphql.run_
  whole := false
  eof := false
  phrases := Phrases.graphqlP
  odd :=
    []

def protobufPhr : PhraseLang where
  code := HandLex.Protobuf.run_
  whole := false
  eof := true
  phrases := Phrases.protobufP
  odd :=
    []

def cssPhr : PhraseLang where
  code := HandLex.Css.run_
  whole := false
  eof := false
  phrases := Phrases.cssP
  odd :=
    []

def watPhr : PhraseLang where
  code := HandLex.Wat.run_
  whole := false
  eof := false
  phrases := Phrases.watP
  odd :=
    []

def idlPhr : PhraseLang where
  code := HandLex.Idl.run_
  whole := true
  eof := false
  phrases := Phrases.idlP
  odd :=
    [([['\'', 'a', '\'']], [(1, 2)])]

def nginxPhr : PhraseLang where
  code := HandLex.Nginx.run_
  whole := false
  eof := false
  phrases := Phrases.nginxP
  odd :=
    []

def witComponentPhr : PhraseLang where
  code := HandLex.WitComponent.run_
  whole := false
  eof := true
  phrases := Phrases.witComponentP
  odd :=
    []

def texPhr : PhraseLang where
  code := HandLex.Tex.run_
  whole := false
  eof := false
  phrases := Phrases.texP
  odd :=
    []

def jPhr : PhraseLang where
  code := HandLex.J.run_
  whole := false
  eof := false
  phrases := Phrases.jP
  odd :=
    []

/-- All of them. -/
def phraseLangs : List PhraseLang :=
  [javaPhr, csharpPhr, dartPhr, dPhr, solidityPhr, valaPhr, hlslPhr, objectiveCPhr, actionscriptPhr, cPhr, cppPhr, typescriptPhr, phpPhr,
   goPhr, vlangPhr, kotlinPhr, zigPhr, wgslPhr, swiftPhr, pascalPhr, delphiPhr, adaPhr, vhdlPhr, fortranPhr, ocamlPhr, elmPhr, perlPhr,
   sqlPhr, verilogPhr, wolframPhr, nimPhr, leanPhr, haskellPhr, coqPhr, purescriptPhr, crystalPhr, matlabPhr, luaPhr, prologPhr, juliaPhr,
   dhallPhr, nixPhr, smalltalkPhr, powershellPhr, graphqlPhr, protobufPhr, cssPhr, watPhr, idlPhr, nginxPhr, witComponentPhr, texPhr, jPhr]

end Oaks.Props
