import Verif.Proofs.LexForms
import Verif.Spec.LexForms
import Verif.Props.LexWordsTable

/-! C94: the forms of the words of each language. -/
namespace Oaks.Props
open Spec Lc Forms

/-- The characters a word of the form can begin with. -/
def firsts (f : Form) : Chars := (f.pre.take 1).flatten

def ascii (s : Chars) : Bool := s.all fun e => decide (e.2 < 128)

/-- A language with the forms of its names, numbers, quotes and comments, and the blanks that may come after each. -/
structure FormLang where
  lang : WordLang
  forms : List (Form × List Char)

/-- The lexer makes one token of each word of the forms, and of each blank before one. -/
def FormLang.right (r : FormLang) : Bool :=
  match partsOf r.lang.code with
  | none => false
  | some m =>
    r.forms.all (fun f => !f.1.pre.isEmpty && f.1.pre.all ascii && ascii f.1.mid && f.1.post.all ascii &&
      f.2.all (fun d => decide (d ∈ r.lang.blanks)) && f.1.one m r.lang.whole (f.2.map fun d => (d.toNat, d.toNat))) &&
    r.lang.blanks.all fun d => m.blank r.lang.whole d (r.forms.flatMap fun f => firsts f.1)

def javaForms : FormLang where
  lang := javaLang
  forms :=
    [(anyName, javaLang.blanks), (name '_' '_', javaLang.blanks), (integer, javaLang.blanks), (decimal, javaLang.blanks),
     (quote '"' inDouble, javaLang.blanks), (line ['/', '/'], ['\n']), (block ['/', '*'] noStar ['*', '/'], javaLang.blanks),
     (escFirst '"' inDouble, javaLang.blanks), (escLast '"' inDouble, javaLang.blanks), (exponent, javaLang.blanks),
     (belowOne, javaLang.blanks), (long, javaLang.blanks), (marked '$', javaLang.blanks)]

def goForms : FormLang where
  lang := goLang
  forms :=
    [(anyName, goLang.blanks), (name '_' '_', goLang.blanks), (integer, goLang.blanks), (decimal, goLang.blanks),
     (quote '"' inDouble, goLang.blanks), (line ['/', '/'], ['\n']), (block ['/', '*'] noStar ['*', '/'], goLang.blanks),
     (escFirst '"' inDouble, goLang.blanks), (escLast '"' inDouble, goLang.blanks), (belowOne, goLang.blanks),
     (block ['`'] noTick ['`'], goLang.blanks)]

def kotlinForms : FormLang where
  lang := kotlinLang
  forms :=
    [(anyName, kotlinLang.blanks), (name '_' '_', kotlinLang.blanks), (integer, kotlinLang.blanks), (decimal, kotlinLang.blanks),
     (quoteSome '"' inFilled, kotlinLang.blanks), (line ['/', '/'], ['\n']), (block ['/', '*'] noStarSlash ['*', '/'], kotlinLang.blanks),
     (escFirst '"' inFilled, kotlinLang.blanks), (escLast '"' inFilled, kotlinLang.blanks), (exponent, kotlinLang.blanks),
     (belowOne, kotlinLang.blanks), (grouped, kotlinLang.blanks)]

def phpForms : FormLang where
  lang := phpLang
  forms :=
    [(anyName, phpLang.blanks), (name '_' '_', phpLang.blanks), (integer, phpLang.blanks), (decimal, phpLang.blanks),
     (quote '"' inFilled, phpLang.blanks), (quote '\'' inSingle, phpLang.blanks), (line ['/', '/'], ['\n']), (line ['#'], ['\n']),
     (block ['/', '*'] noStar ['*', '/'], phpLang.blanks), (escFirst '"' inFilled, phpLang.blanks), (escLast '"' inFilled, phpLang.blanks),
     (escFirst '\'' inSingle, phpLang.blanks), (escLast '\'' inSingle, phpLang.blanks), (exponent, phpLang.blanks),
     (belowOne, phpLang.blanks), (marked '$', phpLang.blanks)]

def typescriptForms : FormLang where
  lang := typescriptLang
  forms :=
    [(anyName, typescriptLang.blanks), (name '_' '_', typescriptLang.blanks), (integer, typescriptLang.blanks),
     (decimal, typescriptLang.blanks), (hex, typescriptLang.blanks), (quote '"' inDouble, typescriptLang.blanks),
     (quote '\'' inSingle, typescriptLang.blanks), (line ['/', '/'], ['\n']), (block ['/', '*'] noStar ['*', '/'], typescriptLang.blanks),
     (escFirst '"' inDouble, typescriptLang.blanks), (escLast '"' inDouble, typescriptLang.blanks),
     (escFirst '\'' inSingle, typescriptLang.blanks), (escLast '\'' inSingle, typescriptLang.blanks), (belowOne, typescriptLang.blanks),
     (marked '$', typescriptLang.blanks)]

def csharpForms : FormLang where
  lang := csharpLang
  forms :=
    [(anyName, csharpLang.blanks), (name '_' '_', csharpLang.blanks), (integer, csharpLang.blanks), (decimal, csharpLang.blanks),
     (quote '"' inDouble, csharpLang.blanks), (line ['/', '/'], ['\n']), (block ['/', '*'] noStar ['*', '/'], csharpLang.blanks),
     (escFirst '"' inDouble, csharpLang.blanks), (escLast '"' inDouble, csharpLang.blanks), (belowOne, csharpLang.blanks),
     (long, csharpLang.blanks), (grouped, csharpLang.blanks), (marked '@', csharpLang.blanks)]

def swiftForms : FormLang where
  lang := swiftLang
  forms :=
    [(anyName, swiftLang.blanks), (name '_' '_', swiftLang.blanks), (integer, swiftLang.blanks), (decimal, swiftLang.blanks),
     (hex, swiftLang.blanks), (quoteSome '"' inFilled, swiftLang.blanks), (line ['/', '/'], ['\n']),
     (block ['/', '*'] noStarSlash ['*', '/'], swiftLang.blanks), (escFirst '"' inFilled, swiftLang.blanks),
     (escLast '"' inFilled, swiftLang.blanks), (exponent, swiftLang.blanks), (belowOne, swiftLang.blanks), (grouped, swiftLang.blanks),
     (octal, swiftLang.blanks)]

def dartForms : FormLang where
  lang := dartLang
  forms :=
    [(anyName, dartLang.blanks), (name '_' '_', dartLang.blanks), (integer, dartLang.blanks), (decimal, dartLang.blanks),
     (quote '"' inFilled, dartLang.blanks), (quote '\'' inSingle, dartLang.blanks), (line ['/', '/', ' '], ['\n']),
     (block ['/', '*'] noStar ['*', '/'], dartLang.blanks), (escFirst '"' inFilled, dartLang.blanks),
     (escLast '"' inFilled, dartLang.blanks), (escFirst '\'' inSingle, dartLang.blanks), (escLast '\'' inSingle, dartLang.blanks),
     (belowOne, dartLang.blanks), (marked '$', dartLang.blanks)]

def dForms : FormLang where
  lang := dLang
  forms :=
    [(anyName, dLang.blanks), (name '_' '_', dLang.blanks), (integer, dLang.blanks), (decimal, dLang.blanks),
     (quote '"' inDouble, dLang.blanks), (line ['/', '/'], ['\n']), (block ['/', '*'] noStar ['*', '/'], dLang.blanks),
     (escFirst '"' inDouble, dLang.blanks), (escLast '"' inDouble, dLang.blanks), (exponent, dLang.blanks), (belowOne, dLang.blanks),
     (long, dLang.blanks), (grouped, dLang.blanks)]

def solidityForms : FormLang where
  lang := solidityLang
  forms :=
    [(anyName, solidityLang.blanks), (name '_' '_', solidityLang.blanks), (integer, solidityLang.blanks), (decimal, solidityLang.blanks),
     (hex, solidityLang.blanks), (quote '"' inDouble, solidityLang.blanks), (quote '\'' inSingle, solidityLang.blanks),
     (line ['/', '/'], ['\n']), (block ['/', '*'] noStar ['*', '/'], solidityLang.blanks), (escFirst '"' inDouble, solidityLang.blanks),
     (escLast '"' inDouble, solidityLang.blanks), (escFirst '\'' inSingle, solidityLang.blanks),
     (escLast '\'' inSingle, solidityLang.blanks), (exponent, solidityLang.blanks), (belowOne, solidityLang.blanks)]

def valaForms : FormLang where
  lang := valaLang
  forms :=
    [(anyName, valaLang.blanks), (name '_' '_', valaLang.blanks), (integer, valaLang.blanks), (decimal, valaLang.blanks),
     (hex, valaLang.blanks), (exponent, valaLang.blanks), (belowOne, valaLang.blanks), (long, valaLang.blanks)]

def hlslForms : FormLang where
  lang := hlslLang
  forms :=
    [(anyName, hlslLang.blanks), (name '_' '_', hlslLang.blanks), (integer, hlslLang.blanks), (decimal, hlslLang.blanks),
     (hex, hlslLang.blanks), (line ['/', '/'], ['\n']), (block ['/', '*'] noStar ['*', '/'], hlslLang.blanks), (exponent, hlslLang.blanks),
     (belowOne, hlslLang.blanks), (long, hlslLang.blanks)]

def objectiveCForms : FormLang where
  lang := objectiveCLang
  forms :=
    [(anyName, objectiveCLang.blanks), (name '_' '_', objectiveCLang.blanks), (integer, objectiveCLang.blanks),
     (decimal, objectiveCLang.blanks), (quote '"' inDouble, objectiveCLang.blanks), (line ['/', '/'], ['\n']),
     (block ['/', '*'] noStarSlash ['*', '/'], objectiveCLang.blanks), (exponent, objectiveCLang.blanks),
     (belowOne, objectiveCLang.blanks), (long, objectiveCLang.blanks), (marked '@', objectiveCLang.blanks)]

def pascalForms : FormLang where
  lang := pascalLang
  forms :=
    [(anyName, pascalLang.blanks), (name '_' '_', pascalLang.blanks), (integer, pascalLang.blanks), (decimal, pascalLang.blanks),
     (quote '\'' inSingle, pascalLang.blanks), (block ['{'] noBrace ['}'], pascalLang.blanks), (belowOne, pascalLang.blanks)]

def delphiForms : FormLang where
  lang := delphiLang
  forms :=
    [(anyName, delphiLang.blanks), (name '_' '_', delphiLang.blanks), (integer, delphiLang.blanks), (decimal, delphiLang.blanks),
     (quote '\'' inSingle, delphiLang.blanks), (line ['/', '/'], ['\n']), (block ['(', '*'] noStarParen ['*', ')'], delphiLang.blanks),
     (block ['{'] noBrace ['}'], delphiLang.blanks), (exponent, delphiLang.blanks), (belowOne, delphiLang.blanks)]

def adaForms : FormLang where
  lang := adaLang
  forms :=
    [(anyPlainName, adaLang.blanks), (integer, adaLang.blanks), (decimal, adaLang.blanks), (quote '"' inDouble, adaLang.blanks),
     (line ['-', '-'], ['\n']), (exponent, adaLang.blanks), (belowOne, adaLang.blanks), (grouped, adaLang.blanks)]

def vhdlForms : FormLang where
  lang := vhdlLang
  forms :=
    [(plainName 'a' 'a', vhdlLang.blanks), (plainName 'b' 'b', vhdlLang.blanks), (plainName 'c' 'n', vhdlLang.blanks),
     (plainName 'o' 'o', vhdlLang.blanks), (plainName 'p' 'w', vhdlLang.blanks), (plainName 'x' 'x', vhdlLang.blanks),
     (plainName 'y' 'z', vhdlLang.blanks), (plainName 'A' 'A', vhdlLang.blanks), (plainName 'B' 'B', vhdlLang.blanks),
     (plainName 'C' 'N', vhdlLang.blanks), (plainName 'O' 'O', vhdlLang.blanks), (plainName 'P' 'W', vhdlLang.blanks),
     (plainName 'X' 'X', vhdlLang.blanks), (plainName 'Y' 'Z', vhdlLang.blanks), (integer, vhdlLang.blanks), (decimal, vhdlLang.blanks),
     (quote '"' inDouble, vhdlLang.blanks), (line ['-', '-'], ['\n']), (belowOne, vhdlLang.blanks), (grouped, vhdlLang.blanks)]

def fortranForms : FormLang where
  lang := fortranLang
  forms :=
    [(anyName, fortranLang.blanks), (integer, fortranLang.blanks), (decimal, fortranLang.blanks), (quote '"' inDouble, fortranLang.blanks),
     (exponent, fortranLang.blanks), (belowOne, fortranLang.blanks)]

def ocamlForms : FormLang where
  lang := ocamlLang
  forms :=
    [(anyName, ocamlLang.blanks), (name '_' '_', ocamlLang.blanks), (integer, ocamlLang.blanks), (decimal, ocamlLang.blanks),
     (quote '"' inDouble, ocamlLang.blanks), (exponent, ocamlLang.blanks), (belowOne, ocamlLang.blanks), (primed, ocamlLang.blanks)]

def elmForms : FormLang where
  lang := elmLang
  forms :=
    [(anyPlainName, elmLang.blanks), (integer, elmLang.blanks), (decimal, elmLang.blanks), (exponent, elmLang.blanks),
     (belowOne, elmLang.blanks)]

def perlForms : FormLang where
  lang := perlLang
  forms :=
    [(anyName, perlLang.blanks), (name '_' '_', perlLang.blanks), (integer, perlLang.blanks), (decimal, perlLang.blanks),
     (quote '"' inFilled, perlLang.blanks), (quote '\'' inSingle, perlLang.blanks), (escFirst '"' inFilled, perlLang.blanks),
     (escLast '"' inFilled, perlLang.blanks), (escFirst '\'' inSingle, perlLang.blanks), (escLast '\'' inSingle, perlLang.blanks),
     (belowOne, perlLang.blanks), (marked '$', perlLang.blanks), (marked '@', perlLang.blanks)]

def powershellForms : FormLang where
  lang := powershellLang
  forms :=
    [(anyName, powershellLang.blanks), (integer, powershellLang.blanks), (decimal, powershellLang.blanks), (line ['#'], ['\n']),
     (exponent, powershellLang.blanks), (belowOne, powershellLang.blanks), (marked '$', powershellLang.blanks)]

def smalltalkForms : FormLang where
  lang := smalltalkLang
  forms :=
    [(anyName, smalltalkLang.blanks), (integer, smalltalkLang.blanks), (quote '"' inDouble, smalltalkLang.blanks)]

def sqlForms : FormLang where
  lang := sqlLang
  forms :=
    [(anyName, sqlLang.blanks), (name '_' '_', sqlLang.blanks), (integer, sqlLang.blanks), (decimal, sqlLang.blanks),
     (quote '"' inDouble, sqlLang.blanks), (quote '\'' inSingle, sqlLang.blanks), (line ['-', '-'], ['\n']),
     (block ['/', '*'] noStar ['*', '/'], sqlLang.blanks), (exponent, sqlLang.blanks), (belowOne, sqlLang.blanks)]

def verilogForms : FormLang where
  lang := verilogLang
  forms :=
    [(anyName, verilogLang.blanks), (name '_' '_', verilogLang.blanks), (integer, verilogLang.blanks),
     (quote '"' inDouble, verilogLang.blanks), (line ['/', '/'], ['\n']), (block ['/', '*'] noStar ['*', '/'], verilogLang.blanks),
     (grouped, verilogLang.blanks)]

def wolframForms : FormLang where
  lang := wolframLang
  forms :=
    [(anyPlainName, wolframLang.blanks), (integer, wolframLang.blanks), (decimal, wolframLang.blanks), (belowOne, wolframLang.blanks)]

def nimForms : FormLang where
  lang := nimLang
  forms :=
    [(anyPlainName, nimLang.blanks), (integer, nimLang.blanks), (decimal, nimLang.blanks), (hex, nimLang.blanks),
     (quote '"' inDouble, nimLang.blanks), (line ['#', ' '], ['\n']), (escFirst '"' inDouble, nimLang.blanks),
     (escLast '"' inDouble, nimLang.blanks), (exponent, nimLang.blanks), (belowOne, nimLang.blanks), (grouped, nimLang.blanks),
     (binary, nimLang.blanks), (octal, nimLang.blanks)]

def vlangForms : FormLang where
  lang := vlangLang
  forms :=
    [(anyName, vlangLang.blanks), (name '_' '_', vlangLang.blanks), (integer, vlangLang.blanks), (decimal, vlangLang.blanks),
     (quote '"' inFilled, vlangLang.blanks), (quote '\'' inSingle, vlangLang.blanks), (line ['/', '/'], ['\n']),
     (block ['/', '*'] noStar ['*', '/'], vlangLang.blanks), (escFirst '"' inFilled, vlangLang.blanks),
     (escLast '"' inFilled, vlangLang.blanks), (escFirst '\'' inSingle, vlangLang.blanks), (escLast '\'' inSingle, vlangLang.blanks),
     (exponent, vlangLang.blanks), (belowOne, vlangLang.blanks)]

def leanForms : FormLang where
  lang := leanLang
  forms :=
    [(anyName, leanLang.blanks), (name '_' '_', leanLang.blanks), (integer, leanLang.blanks), (decimal, leanLang.blanks),
     (quote '"' inDouble, leanLang.blanks), (line ['-', '-'], ['\n']), (escFirst '"' inDouble, leanLang.blanks),
     (escLast '"' inDouble, leanLang.blanks), (exponent, leanLang.blanks), (belowOne, leanLang.blanks), (primed, leanLang.blanks)]

def idlForms : FormLang where
  lang := idlLang
  forms :=
    [(anyName, idlLang.blanks), (name '_' '_', idlLang.blanks), (integer, idlLang.blanks), (decimal, idlLang.blanks),
     (hex, idlLang.blanks), (quote '"' inDouble, idlLang.blanks), (line ['/', '/'], ['\n']),
     (block ['/', '*'] noStar ['*', '/'], idlLang.blanks), (exponent, idlLang.blanks), (belowOne, idlLang.blanks)]

def graphqlForms : FormLang where
  lang := graphqlLang
  forms :=
    [(name 'a' 'd', graphqlLang.blanks), (name 'e' 'e', graphqlLang.blanks), (name 'f' 'z', graphqlLang.blanks),
     (name 'A' 'D', graphqlLang.blanks), (name 'E' 'E', graphqlLang.blanks), (name 'F' 'Z', graphqlLang.blanks),
     (name '_' '_', graphqlLang.blanks), (integer, graphqlLang.blanks), (decimal, graphqlLang.blanks), (exponent, graphqlLang.blanks),
     (belowOne, graphqlLang.blanks)]

def protobufForms : FormLang where
  lang := protobufLang
  forms :=
    [(anyName, protobufLang.blanks), (name '_' '_', protobufLang.blanks), (integer, protobufLang.blanks), (decimal, protobufLang.blanks),
     (quote '"' inDouble, protobufLang.blanks), (quote '\'' inSingle, protobufLang.blanks), (line ['/', '/'], ['\n']),
     (block ['/', '*'] noStar ['*', '/'], protobufLang.blanks), (escFirst '"' inDouble, protobufLang.blanks),
     (escLast '"' inDouble, protobufLang.blanks), (escFirst '\'' inSingle, protobufLang.blanks),
     (escLast '\'' inSingle, protobufLang.blanks), (exponent, protobufLang.blanks), (belowOne, protobufLang.blanks)]

def watForms : FormLang where
  lang := watLang
  forms :=
    [(name 'a' 'z', watLang.blanks), (integer, watLang.blanks), (decimal, watLang.blanks), (exponent, watLang.blanks),
     (belowOne, watLang.blanks), (grouped, watLang.blanks), (marked '$', watLang.blanks)]

def haskellForms : FormLang where
  lang := haskellLang
  forms :=
    [(anyName, haskellLang.blanks), (name '_' '_', haskellLang.blanks), (integer, haskellLang.blanks), (decimal, haskellLang.blanks),
     (quote '"' inDouble, haskellLang.blanks), (line ['-', '-'], ['\n']), (block ['{', '-'] noDashBrace ['-', '}'], haskellLang.blanks),
     (escFirst '"' inDouble, haskellLang.blanks), (escLast '"' inDouble, haskellLang.blanks), (belowOne, haskellLang.blanks),
     (primed, haskellLang.blanks)]

def coqForms : FormLang where
  lang := coqLang
  forms :=
    [(anyName, coqLang.blanks), (name '_' '_', coqLang.blanks), (integer, coqLang.blanks), (quote '"' inDouble, coqLang.blanks),
     (block ['(', '*'] noStarParen ['*', ')'], coqLang.blanks), (primed, coqLang.blanks)]

def purescriptForms : FormLang where
  lang := purescriptLang
  forms :=
    [(anyName, purescriptLang.blanks), (name '_' '_', purescriptLang.blanks), (integer, purescriptLang.blanks),
     (decimal, purescriptLang.blanks), (hex, purescriptLang.blanks), (quote '"' inDouble, purescriptLang.blanks),
     (line ['-', '-'], ['\n']), (block ['{', '-'] noDashBrace ['-', '}'], purescriptLang.blanks),
     (escFirst '"' inDouble, purescriptLang.blanks), (escLast '"' inDouble, purescriptLang.blanks), (exponent, purescriptLang.blanks),
     (belowOne, purescriptLang.blanks), (primed, purescriptLang.blanks)]

def crystalForms : FormLang where
  lang := crystalLang
  forms :=
    [(anyName, crystalLang.blanks), (name '_' '_', crystalLang.blanks), (integer, crystalLang.blanks), (decimal, crystalLang.blanks),
     (quote '"' inFilled, crystalLang.blanks), (line ['#'], ['\n']), (escFirst '"' inFilled, crystalLang.blanks),
     (escLast '"' inFilled, crystalLang.blanks), (belowOne, crystalLang.blanks), (grouped, crystalLang.blanks)]

def nixForms : FormLang where
  lang := nixLang
  forms :=
    [(anyName, nixLang.blanks), (name '_' '_', nixLang.blanks), (integer, nixLang.blanks), (decimal, nixLang.blanks),
     (quote '"' inFilled, nixLang.blanks), (line ['#'], ['\n']), (escFirst '"' inFilled, nixLang.blanks),
     (escLast '"' inFilled, nixLang.blanks), (belowOne, nixLang.blanks), (primed, nixLang.blanks)]

def cssForms : FormLang where
  lang := cssLang
  forms :=
    [(name 'a' 't', cssLang.blanks), (name 'v' 'z', cssLang.blanks), (name 'A' 'Z', cssLang.blanks), (name '_' '_', cssLang.blanks),
     (integer, cssLang.blanks), (decimal, cssLang.blanks), (quote '"' inDouble, cssLang.blanks), (quote '\'' inSingle, cssLang.blanks),
     (block ['/', '*'] noStar ['*', '/'], cssLang.blanks), (escFirst '"' inDouble, cssLang.blanks), (escLast '"' inDouble, cssLang.blanks),
     (escFirst '\'' inSingle, cssLang.blanks), (escLast '\'' inSingle, cssLang.blanks), (belowOne, cssLang.blanks)]

def dhallForms : FormLang where
  lang := dhallLang
  forms :=
    [(anyName, dhallLang.blanks), (name '_' '_', dhallLang.blanks), (integer, dhallLang.blanks)]

def texForms : FormLang where
  lang := texLang
  forms :=
    [(integer, texLang.blanks), (decimal, texLang.blanks), (belowOne, texLang.blanks)]

def matlabForms : FormLang where
  lang := matlabLang
  forms :=
    [(anyName, matlabLang.blanks), (integer, matlabLang.blanks), (decimal, matlabLang.blanks), (quote '"' inDouble, matlabLang.blanks),
     (quote '\'' inSingle, matlabLang.blanks), (line ['%', ' '], ['\n']), (exponent, matlabLang.blanks), (belowOne, matlabLang.blanks)]

def actionscriptForms : FormLang where
  lang := actionscriptLang
  forms :=
    [(anyName, actionscriptLang.blanks), (name '_' '_', actionscriptLang.blanks), (integer, actionscriptLang.blanks),
     (marked '$', actionscriptLang.blanks)]

def jForms : FormLang where
  lang := jLang
  forms :=
    [(name 'a' 'z', jLang.blanks), (name 'A' 'M', jLang.blanks), (name 'O' 'Z', jLang.blanks), (integer, jLang.blanks),
     (decimal, jLang.blanks), (quote '\'' inSingle, jLang.blanks), (exponent, jLang.blanks), (belowOne, jLang.blanks)]

def cForms : FormLang where
  lang := cLang
  forms :=
    [(anyName, cLang.blanks), (name '_' '_', cLang.blanks), (integer, cLang.blanks), (decimal, cLang.blanks), (hex, cLang.blanks),
     (quote '"' inDouble, cLang.blanks), (line ['/', '/'], ['\n']), (block ['/', '*'] noStar ['*', '/'], cLang.blanks),
     (escFirst '"' inDouble, cLang.blanks), (escLast '"' inDouble, cLang.blanks), (exponent, cLang.blanks), (belowOne, cLang.blanks),
     (long, cLang.blanks), (binary, cLang.blanks)]

def cppForms : FormLang where
  lang := cppLang
  forms :=
    [(anyName, cppLang.blanks), (name '_' '_', cppLang.blanks), (integer, cppLang.blanks), (decimal, cppLang.blanks),
     (hex, cppLang.blanks), (quote '"' inDouble, cppLang.blanks), (line ['/', '/'], ['\n']),
     (block ['/', '*'] noStar ['*', '/'], cppLang.blanks), (escFirst '"' inDouble, cppLang.blanks), (escLast '"' inDouble, cppLang.blanks),
     (exponent, cppLang.blanks), (belowOne, cppLang.blanks), (long, cppLang.blanks)]

def luaForms : FormLang where
  lang := luaLang
  forms :=
    [(anyName, luaLang.blanks), (name '_' '_', luaLang.blanks), (integer, luaLang.blanks), (decimal, luaLang.blanks),
     (quote '"' inDouble, luaLang.blanks), (quote '\'' inSingle, luaLang.blanks), (line ['-', '-', ' '], ['\n']),
     (escFirst '"' inDouble, luaLang.blanks), (escLast '"' inDouble, luaLang.blanks), (escFirst '\'' inSingle, luaLang.blanks),
     (escLast '\'' inSingle, luaLang.blanks), (exponent, luaLang.blanks), (belowOne, luaLang.blanks)]

def zigForms : FormLang where
  lang := zigLang
  forms :=
    [(anyName, zigLang.blanks), (name '_' '_', zigLang.blanks), (integer, zigLang.blanks), (hex, zigLang.blanks),
     (quote '"' inDouble, zigLang.blanks), (line ['/', '/', ' '], ['\n']), (escFirst '"' inDouble, zigLang.blanks),
     (escLast '"' inDouble, zigLang.blanks), (exponent, zigLang.blanks), (grouped, zigLang.blanks), (octal, zigLang.blanks)]

def prologForms : FormLang where
  lang := prologLang
  forms :=
    [(name 'a' 'z', prologLang.blanks), (name 'A' 'Z', prologLang.blanks), (name '_' '_', prologLang.blanks), (integer, prologLang.blanks),
     (decimal, prologLang.blanks), (quote '"' inDouble, prologLang.blanks), (quote '\'' inSingle, prologLang.blanks), (line ['%'], ['\n']),
     (block ['/', '*'] noStar ['*', '/'], prologLang.blanks), (escFirst '"' inDouble, prologLang.blanks),
     (escLast '"' inDouble, prologLang.blanks), (escFirst '\'' inSingle, prologLang.blanks), (escLast '\'' inSingle, prologLang.blanks),
     (belowOne, prologLang.blanks)]

def wgslForms : FormLang where
  lang := wgslLang
  forms :=
    [(anyName, wgslLang.blanks), (integer, wgslLang.blanks), (decimal, wgslLang.blanks), (hex, wgslLang.blanks), (line ['/', '/'], ['\n']),
     (exponent, wgslLang.blanks), (belowOne, wgslLang.blanks)]

def juliaForms : FormLang where
  lang := juliaLang
  forms :=
    [(anyName, juliaLang.blanks), (name '_' '_', juliaLang.blanks), (integer, juliaLang.blanks), (decimal, juliaLang.blanks),
     (hex, juliaLang.blanks), (quoteSome '"' inFilled, juliaLang.blanks), (line ['#', ' '], ['\n']),
     (escFirst '"' inFilled, juliaLang.blanks), (escLast '"' inFilled, juliaLang.blanks), (exponent, juliaLang.blanks),
     (belowOne, juliaLang.blanks), (grouped, juliaLang.blanks), (binary, juliaLang.blanks), (octal, juliaLang.blanks)]

def nginxForms : FormLang where
  lang := nginxLang
  forms :=
    [(name 'a' 'g', nginxLang.blanks), (name 'i' 'z', nginxLang.blanks), (name 'A' 'Z', nginxLang.blanks), (integer, nginxLang.blanks),
     (decimal, nginxLang.blanks), (quote '"' inDouble, nginxLang.blanks), (quote '\'' inSingle, nginxLang.blanks), (line ['#'], ['\n']),
     (escFirst '"' inDouble, nginxLang.blanks), (escLast '"' inDouble, nginxLang.blanks), (escFirst '\'' inSingle, nginxLang.blanks),
     (escLast '\'' inSingle, nginxLang.blanks), (belowOne, nginxLang.blanks), (marked '$', nginxLang.blanks)]

def witComponentForms : FormLang where
  lang := witComponentLang
  forms :=
    [(plainName 'a' 'z', witComponentLang.blanks), (integer, witComponentLang.blanks)]

/-- The languages. -/
def formLangs : List FormLang :=
  [javaForms, goForms, kotlinForms, phpForms, typescriptForms, csharpForms, swiftForms, dartForms, dForms, solidityForms, valaForms,
   hlslForms, objectiveCForms, pascalForms, delphiForms, adaForms, vhdlForms, fortranForms, ocamlForms, elmForms, perlForms,
   powershellForms, smalltalkForms, sqlForms, verilogForms, wolframForms, nimForms, vlangForms, leanForms, idlForms, graphqlForms,
   protobufForms, watForms, haskellForms, coqForms, purescriptForms, crystalForms, nixForms, cssForms, dhallForms, texForms, matlabForms,
   actionscriptForms, jForms, cForms, cppForms, luaForms, zigForms, prologForms, wgslForms, juliaForms, nginxForms, witComponentForms]

end Oaks.Props
