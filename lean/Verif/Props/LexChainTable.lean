import Verif.Proofs.LexChain
import Verif.Spec.LexChain
import Verif.Props.LexFormsTable

/-! C95: words without blanks between them, for each language. -/
namespace Oaks.Props
open Spec Lc Forms Chains

/-- A language with the exceptions to the rules of `Spec/LexChain.lean`. -/
structure ChainLang where
  forms : FormLang
  /-- the character goes on the word, as the point after the digits of a number -/
  joined : List (Form × Char) := []
  /-- signs that go with a name after them -/
  noName : List Char := []
  /-- signs that go with a number after them -/
  noNumber : List Char := []

def ChainLang.has (r : ChainLang) (f : Form) : Bool := r.forms.forms.any fun e => decide (e.1 = f)

/-- The signs that are words of the language and not cut. -/
def ChainLang.own (r : ChainLang) (cs : List Char) : List Char :=
  cs.filter fun c => decide ([c] ∈ r.forms.lang.words) && decide ([c] ∉ r.forms.lang.split.map (·.1))

/-- The forms of names and numbers. -/
def wordForms : List Form :=
  [anyName, anyPlainName, name '_' '_', marked '$', marked '@', primed, integer, decimal, belowOne, exponent, grouped, hex, binary, octal, Forms.long]

/-- The forms of quotes. -/
def quoteForms : List Form :=
  [quote '"' inDouble, quote '"' inFilled, escFirst '"' inDouble, escLast '"' inDouble, quote '\'' inSingle, quoteSome '\'' inSingle]

/-- Names, numbers and quotes with the signs that may come after them. -/
def ChainLang.ends (r : ChainLang) : List (Form × List Char) :=
  ((wordForms.filter r.has).map fun f => (f, (r.own afterWord).filter fun c => decide ((f, c) ∉ r.joined))) ++
  ((quoteForms.filter r.has).map fun f => (f, r.own afterQuote))

/-- The characters that may come after the sign. -/
def ChainLang.after (r : ChainLang) (c : Char) : Chars :=
  (r.own (afterSign c)).map (fun d => (d.toNat, d.toNat)) ++
  if c ∈ leads then
    (if (r.has anyName || r.has anyPlainName) && decide (c ∉ r.noName) then [(97, 122), (65, 90)] else []) ++
    (if r.has integer && decide (c ∉ r.noNumber) then [(49, 57)] else []) ++
    (if r.has (quote '"' inDouble) then ch '"' else [])
  else []

/-- The operators of two and more characters that are not cut. -/
def ChainLang.long (r : ChainLang) : List Str :=
  r.forms.lang.words.filter fun w =>
    decide (2 ≤ w.length) && w.all (fun c => decide (c ∈ operators)) && decide (w ∉ r.forms.lang.split.map (·.1))

/-- The characters that may come after them. -/
def ChainLang.afterLong (r : ChainLang) : Chars :=
  (r.own ['(']).map (fun d => (d.toNat, d.toNat)) ++
  (if r.has anyName || r.has anyPlainName then [(97, 122), (65, 90)] else []) ++
  (if r.has integer then [(49, 57)] else []) ++
  (if r.has (quote '"' inDouble) then ch '"' else [])

/-- The lexer ends the words at these characters. -/
def ChainLang.right (r : ChainLang) : Bool :=
  match partsOf r.forms.lang.code with
  | none => false
  | some m =>
    r.ends.all (fun e =>
      let ds := e.2.filter fun c => decide (c ≠ '.')
      (e.2.isEmpty || e.1.one m r.forms.lang.whole (e.2.map fun d => (d.toNat, d.toNat))) ||
      ((ds.isEmpty || e.1.one m r.forms.lang.whole (ds.map fun d => (d.toNat, d.toNat))) &&
        (decide ('.' ∉ e.2) || e.1.one m r.forms.lang.whole (ch '.')))) &&
    (r.own signs).all (fun c => (r.after c).isEmpty || m.blank r.forms.lang.whole c (r.after c)) &&
    r.long.all fun w => r.afterLong.isEmpty || m.fixed r.forms.lang.whole w r.afterLong

def javaChain : ChainLang where
  forms := javaForms
  joined := [(integer, '.')]

def goChain : ChainLang where
  forms := goForms
  joined := [(integer, '.')]

def kotlinChain : ChainLang where
  forms := kotlinForms
  joined := [(integer, '.'), (grouped, '.')]

def phpChain : ChainLang where
  forms := phpForms
  joined := [(integer, '.')]

def typescriptChain : ChainLang where
  forms := typescriptForms
  joined := [(integer, '.')]

def csharpChain : ChainLang where
  forms := csharpForms
  joined := [(integer, '.'), (decimal, '.'), (belowOne, '.'), (grouped, '.')]

def swiftChain : ChainLang where
  forms := swiftForms
  joined := [(integer, '.'), (hex, '.'), (octal, '.'), (grouped, '.')]

def dartChain : ChainLang where
  forms := dartForms
  joined := [(integer, '.')]

def dChain : ChainLang where
  forms := dForms
  joined := [(integer, '.'), (grouped, '.')]

def solidityChain : ChainLang where
  forms := solidityForms
  joined := [(integer, '.')]

def valaChain : ChainLang where
  forms := valaForms
  joined := [(integer, '.'), (hex, '.')]

def hlslChain : ChainLang where
  forms := hlslForms
  joined := [(integer, '.')]
  noNumber := ['.']

def objectiveCChain : ChainLang where
  forms := objectiveCForms
  joined := [(integer, '.')]

def pascalChain : ChainLang where
  forms := pascalForms
  joined := [(integer, '.')]

def delphiChain : ChainLang where
  forms := delphiForms
  joined := [(integer, '.')]

def adaChain : ChainLang where
  forms := adaForms
  joined := [(integer, '.'), (grouped, '.')]

def vhdlChain : ChainLang where
  forms := vhdlForms
  joined := [(integer, '.'), (grouped, '.')]

def fortranChain : ChainLang where
  forms := fortranForms

def ocamlChain : ChainLang where
  forms := ocamlForms
  joined := [(integer, '.')]

def elmChain : ChainLang where
  forms := elmForms
  joined := [(integer, '.')]

def perlChain : ChainLang where
  forms := perlForms
  joined := [(integer, '.')]
  noName := ['%']
  noNumber := ['%']

def powershellChain : ChainLang where
  forms := powershellForms
  joined := [(anyName, '-'), (integer, '.')]

def smalltalkChain : ChainLang where
  forms := smalltalkForms

def sqlChain : ChainLang where
  forms := sqlForms
  joined := [(integer, '.')]

def verilogChain : ChainLang where
  forms := verilogForms

def wolframChain : ChainLang where
  forms := wolframForms
  joined := [(integer, '.')]

def nimChain : ChainLang where
  forms := nimForms
  joined := [(integer, '.'), (hex, '.'), (exponent, '.'), (binary, '.'), (octal, '.'), (grouped, '.')]

def vlangChain : ChainLang where
  forms := vlangForms
  joined := [(integer, '.')]

def leanChain : ChainLang where
  forms := leanForms
  joined := [(integer, '.')]

def idlChain : ChainLang where
  forms := idlForms
  joined := [(integer, '.')]

def graphqlChain : ChainLang where
  forms := graphqlForms

def protobufChain : ChainLang where
  forms := protobufForms
  joined := [(integer, '.')]
  noNumber := ['-']

def watChain : ChainLang where
  forms := watForms

def haskellChain : ChainLang where
  forms := haskellForms
  joined := [(integer, '.')]

def coqChain : ChainLang where
  forms := coqForms

def purescriptChain : ChainLang where
  forms := purescriptForms
  joined := [(integer, '.'), (hex, '.')]

def crystalChain : ChainLang where
  forms := crystalForms
  joined := [(anyName, '!'), (anyName, '?'), (integer, '.'), (decimal, '.'), (belowOne, '.'), (grouped, '.'), (name '_' '_', '!'), (name '_' '_', '?')]

def nixChain : ChainLang where
  forms := nixForms
  joined := [(anyName, '-'), (integer, '.'), (decimal, '.'), (belowOne, '.'), (name '_' '_', '-'), (primed, '-')]

def cssChain : ChainLang where
  forms := cssForms
  joined := [(integer, '.')]
  noNumber := ['+', '.']

def dhallChain : ChainLang where
  forms := dhallForms

def texChain : ChainLang where
  forms := texForms

def matlabChain : ChainLang where
  forms := matlabForms
  joined := [(integer, '.')]
  noNumber := ['.']

def actionscriptChain : ChainLang where
  forms := actionscriptForms

def jChain : ChainLang where
  forms := jForms

def cChain : ChainLang where
  forms := cForms
  joined := [(integer, '+'), (integer, '-'), (integer, '.'), (decimal, '+'), (decimal, '-'), (decimal, '.'), (hex, '+'), (hex, '-'), (hex, '.'), (exponent, '+'), (exponent, '-'), (exponent, '.'), (binary, '+'), (binary, '-'), (binary, '.'), (belowOne, '+'), (belowOne, '-'), (belowOne, '.'), (Forms.long, '+'), (Forms.long, '-'), (Forms.long, '.')]

def cppChain : ChainLang where
  forms := cppForms
  joined := [(integer, '.'), (hex, '.')]
  noNumber := ['.']

def luaChain : ChainLang where
  forms := luaForms
  joined := [(integer, '.')]

def zigChain : ChainLang where
  forms := zigForms

def prologChain : ChainLang where
  forms := prologForms
  joined := [(integer, '.')]

def wgslChain : ChainLang where
  forms := wgslForms
  joined := [(integer, '.')]

def juliaChain : ChainLang where
  forms := juliaForms
  joined := [(anyName, '!'), (anyName, '?'), (integer, '.'), (grouped, '.'), (name '_' '_', '!'), (name '_' '_', '?')]

def nginxChain : ChainLang where
  forms := nginxForms

def witComponentChain : ChainLang where
  forms := witComponentForms

def chainLangs : List ChainLang :=
  [javaChain, goChain, kotlinChain, phpChain, typescriptChain, csharpChain, swiftChain, dartChain, dChain,
   solidityChain, valaChain, hlslChain, objectiveCChain, pascalChain, delphiChain, adaChain, vhdlChain, fortranChain,
   ocamlChain, elmChain, perlChain, powershellChain, smalltalkChain, sqlChain, verilogChain, wolframChain, nimChain,
   vlangChain, leanChain, idlChain, graphqlChain, protobufChain, watChain, haskellChain, coqChain, purescriptChain,
   crystalChain, nixChain, cssChain, dhallChain, texChain, matlabChain, actionscriptChain, jChain, cChain, cppChain,
   luaChain, zigChain, prologChain, wgslChain, juliaChain, nginxChain, witComponentChain]

end Oaks.Props
