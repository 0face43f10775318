import Verif.Proofs.LexPass1
import Verif.Proofs.LexPass2
import Verif.Proofs.LexPass3
import Verif.Proofs.LexPass4
import Verif.Proofs.LexCodeEnd
import Verif.Proofs.LexCodeHang
import Verif.Props.Cursor
import Verif.Model.HandLex.Clojure
import Verif.Model.HandLex.Coq
import Verif.Model.HandLex.Crystal
import Verif.Model.HandLex.Csharp
import Verif.Model.HandLex.Css
import Verif.Model.HandLex.D
import Verif.Model.HandLex.Dhall
import Verif.Model.HandLex.Django
import Verif.Model.HandLex.Dockerfile
import Verif.Model.HandLex.Haskell
import Verif.Model.HandLex.Jasmin
import Verif.Model.HandLex.Lua
import Verif.Model.HandLex.Purescript
import Verif.Model.HandLex.Rbq
import Verif.Model.HandLex.Solidity
import Verif.Model.HandLex.Swift
import Verif.Model.HandLex.Tailwind
import Verif.Model.HandLex.Toml
import Verif.Model.HandLex.Twig
import Verif.Model.HandLex.Typescript
import Verif.Model.HandLex.WitComponent
import Verif.Model.HandLex.Zig

/-! C87, C88, C89: example lexers end; their tokens are pieces of the text; together they are the text. -/
namespace Oaks.Props
open Spec Lc

/-- The modelled lexers that always end. -/
def lexEnds : List Code :=
  [HandLex.Cpp.run_, HandLex.Nginx.run_, HandLex.WitComponent.run_,
   HandLex.Actionscript.run_, HandLex.Ada.run_, HandLex.Apl.run_, HandLex.AsciiDoc.run_, HandLex.Bat.run_,
   HandLex.Cmd.run_, HandLex.Dart.run_, HandLex.Delphi.run_, HandLex.Elm.run_, HandLex.Fortran.run_,
   HandLex.Go.run_, HandLex.Graphql.run_, HandLex.Hlsl.run_, HandLex.Idl.run_, HandLex.J.run_, HandLex.Jasm.run_,
   HandLex.Java.run_, HandLex.Javadoc.run_, HandLex.Kotlin.run_, HandLex.Lean.run_, HandLex.Matlab.run_,
   HandLex.Mermaid.run_, HandLex.Nim.run_, HandLex.ObjectiveC.run_, HandLex.Ocaml.run_, HandLex.OrgMode.run_,
   HandLex.Pascal.run_, HandLex.Perl.run_, HandLex.Php.run_, HandLex.Powershell.run_, HandLex.Protobuf.run_,
   HandLex.Smalltalk.run_, HandLex.Sql.run_, HandLex.Tex.run_, HandLex.Vala.run_, HandLex.Verilog.run_,
   HandLex.Vhdl.run_, HandLex.Vlang.lex, HandLex.Voml.lex, HandLex.Wat.run_, HandLex.Wolfram.run_]

/-- Those whose tokens are never empty. -/
def lexProper : List Code :=
  [HandLex.Cpp.run_, HandLex.Nginx.run_,
   HandLex.Actionscript.run_, HandLex.Ada.run_, HandLex.Apl.run_, HandLex.AsciiDoc.run_, HandLex.Bat.run_,
   HandLex.Cmd.run_, HandLex.Dart.run_, HandLex.Delphi.run_, HandLex.Elm.run_, HandLex.Fortran.run_,
   HandLex.Go.run_, HandLex.Graphql.run_, HandLex.Hlsl.run_, HandLex.Idl.run_, HandLex.J.run_, HandLex.Jasm.run_,
   HandLex.Java.run_, HandLex.Javadoc.run_, HandLex.Kotlin.run_, HandLex.Lean.run_, HandLex.Matlab.run_,
   HandLex.Mermaid.run_, HandLex.Nim.run_, HandLex.ObjectiveC.run_, HandLex.Ocaml.run_, HandLex.OrgMode.run_,
   HandLex.Pascal.run_, HandLex.Perl.run_, HandLex.Php.run_, HandLex.Smalltalk.run_, HandLex.Sql.run_,
   HandLex.Tex.run_, HandLex.Vala.run_, HandLex.Vhdl.run_, HandLex.Vlang.lex, HandLex.Voml.lex, HandLex.Wat.run_,
   HandLex.Wolfram.run_]

/-- Those whose tokens are the whole text. -/
def lexTile : List Code :=
  [HandLex.Cpp.run_, HandLex.Nginx.run_, HandLex.WitComponent.run_,
   HandLex.Ada.run_, HandLex.Apl.run_, HandLex.Bat.run_, HandLex.Cmd.run_, HandLex.Go.run_, HandLex.Hlsl.run_,
   HandLex.J.run_, HandLex.Java.run_, HandLex.Javadoc.run_, HandLex.Kotlin.run_, HandLex.Lean.run_,
   HandLex.Matlab.run_, HandLex.Mermaid.run_, HandLex.Nim.run_, HandLex.ObjectiveC.run_, HandLex.OrgMode.run_,
   HandLex.Pascal.run_, HandLex.Perl.run_, HandLex.Php.run_, HandLex.Powershell.run_, HandLex.Protobuf.run_,
   HandLex.Smalltalk.run_, HandLex.Vhdl.run_, HandLex.Vlang.lex, HandLex.Voml.lex, HandLex.Wat.run_,
   HandLex.Wolfram.run_]

private theorem forall_cons {α : Type} {P : α → Prop} {a : α} {l : List α} (h : P a) (hl : ∀ x ∈ l, P x) : ∀ x ∈ a :: l, P x := by
  intro x hx
  rcases List.mem_cons.mp hx with rfl | hx
  · exact h
  · exact hl x hx
private theorem forall_nil {α : Type} {P : α → Prop} : ∀ x ∈ ([] : List α), P x := fun _ h => absurd h List.not_mem_nil

private theorem ends_pass : ∀ p ∈ lexEnds, ∃ m : Mode, m.order = true ∧ passes m p = true :=
  forall_cons (⟨_, rfl, HandLex.cpp_passes⟩) (
  forall_cons (⟨_, rfl, HandLex.nginx_passes⟩) (
  forall_cons (⟨_, rfl, HandLex.witComponent_passes⟩) (
  forall_cons (⟨_, rfl, HandLex.actionscript_passes⟩) (forall_cons (⟨_, rfl, HandLex.ada_passes⟩) (forall_cons (⟨_,
  rfl, HandLex.apl_passes⟩) (forall_cons (⟨_, rfl, HandLex.asciiDoc_passes⟩) (forall_cons (⟨_, rfl,
  HandLex.bat_passes⟩) (forall_cons (⟨_, rfl, HandLex.cmd_passes⟩) (forall_cons (⟨_, rfl, HandLex.dart_passes⟩)
  (forall_cons (⟨_, rfl, HandLex.delphi_passes⟩) (forall_cons (⟨_, rfl, HandLex.elm_passes⟩) (forall_cons (⟨_, rfl,
  HandLex.fortran_passes⟩) (forall_cons (⟨_, rfl, HandLex.go_passes⟩) (forall_cons (⟨_, rfl, HandLex.graphql_passes⟩)
  (forall_cons (⟨_, rfl, HandLex.hlsl_passes⟩) (forall_cons (⟨_, rfl, HandLex.idl_passes⟩) (forall_cons (⟨_, rfl,
  HandLex.j_passes⟩) (forall_cons (⟨_, rfl, HandLex.jasm_passes⟩) (forall_cons (⟨_, rfl, HandLex.java_passes⟩)
  (forall_cons (⟨_, rfl, HandLex.javadoc_passes⟩) (forall_cons (⟨_, rfl, HandLex.kotlin_passes⟩) (forall_cons (⟨_, rfl,
  HandLex.lean_passes⟩) (forall_cons (⟨_, rfl, HandLex.matlab_passes⟩) (forall_cons (⟨_, rfl, HandLex.mermaid_passes⟩)
  (forall_cons (⟨_, rfl, HandLex.nim_passes⟩) (forall_cons (⟨_, rfl, HandLex.objectiveC_passes⟩) (forall_cons (⟨_, rfl,
  HandLex.ocaml_passes⟩) (forall_cons (⟨_, rfl, HandLex.orgMode_passes⟩) (forall_cons (⟨_, rfl, HandLex.pascal_passes⟩)
  (forall_cons (⟨_, rfl, HandLex.perl_passes⟩) (forall_cons (⟨_, rfl, HandLex.php_passes⟩) (forall_cons (⟨_, rfl,
  HandLex.powershell_passes⟩) (forall_cons (⟨_, rfl, HandLex.protobuf_passes⟩) (forall_cons (⟨_, rfl,
  HandLex.smalltalk_passes⟩) (forall_cons (⟨_, rfl, HandLex.sql_passes⟩) (forall_cons (⟨_, rfl, HandLex.tex_passes⟩)
  (forall_cons (⟨_, rfl, HandLex.vala_passes⟩) (forall_cons (⟨_, rfl, HandLex.verilog_passes⟩) (forall_cons (⟨_, rfl,
  HandLex.vhdl_passes⟩) (forall_cons (⟨_, rfl, HandLex.vlang_passes⟩) (forall_cons (⟨_, rfl, HandLex.voml_passes⟩)
  (forall_cons (⟨_, rfl, HandLex.wat_passes⟩) (forall_cons (⟨_, rfl, HandLex.wolfram_passes⟩)
  (forall_nil))))))))))))))))))))))))))))))))))))))))))))

private theorem proper_pass : ∀ p ∈ lexProper, ∃ m : Mode, m.proper = true ∧ passes m p = true :=
  forall_cons (⟨_, rfl, HandLex.cpp_passes⟩) (
  forall_cons (⟨_, rfl, HandLex.nginx_passes⟩) (
  forall_cons (⟨_, rfl, HandLex.actionscript_passes⟩) (forall_cons (⟨_, rfl, HandLex.ada_passes⟩) (forall_cons (⟨_,
  rfl, HandLex.apl_passes⟩) (forall_cons (⟨_, rfl, HandLex.asciiDoc_passes⟩) (forall_cons (⟨_, rfl,
  HandLex.bat_passes⟩) (forall_cons (⟨_, rfl, HandLex.cmd_passes⟩) (forall_cons (⟨_, rfl, HandLex.dart_passes⟩)
  (forall_cons (⟨_, rfl, HandLex.delphi_passes⟩) (forall_cons (⟨_, rfl, HandLex.elm_passes⟩) (forall_cons (⟨_, rfl,
  HandLex.fortran_passes⟩) (forall_cons (⟨_, rfl, HandLex.go_passes⟩) (forall_cons (⟨_, rfl, HandLex.graphql_passes⟩)
  (forall_cons (⟨_, rfl, HandLex.hlsl_passes⟩) (forall_cons (⟨_, rfl, HandLex.idl_passes⟩) (forall_cons (⟨_, rfl,
  HandLex.j_passes⟩) (forall_cons (⟨_, rfl, HandLex.jasm_passes⟩) (forall_cons (⟨_, rfl, HandLex.java_passes⟩)
  (forall_cons (⟨_, rfl, HandLex.javadoc_passes⟩) (forall_cons (⟨_, rfl, HandLex.kotlin_passes⟩) (forall_cons (⟨_, rfl,
  HandLex.lean_passes⟩) (forall_cons (⟨_, rfl, HandLex.matlab_passes⟩) (forall_cons (⟨_, rfl, HandLex.mermaid_passes⟩)
  (forall_cons (⟨_, rfl, HandLex.nim_passes⟩) (forall_cons (⟨_, rfl, HandLex.objectiveC_passes⟩) (forall_cons (⟨_, rfl,
  HandLex.ocaml_passes⟩) (forall_cons (⟨_, rfl, HandLex.orgMode_passes⟩) (forall_cons (⟨_, rfl, HandLex.pascal_passes⟩)
  (forall_cons (⟨_, rfl, HandLex.perl_passes⟩) (forall_cons (⟨_, rfl, HandLex.php_passes⟩) (forall_cons (⟨_, rfl,
  HandLex.smalltalk_passes⟩) (forall_cons (⟨_, rfl, HandLex.sql_passes⟩) (forall_cons (⟨_, rfl, HandLex.tex_passes⟩)
  (forall_cons (⟨_, rfl, HandLex.vala_passes⟩) (forall_cons (⟨_, rfl, HandLex.vhdl_passes⟩) (forall_cons (⟨_, rfl,
  HandLex.vlang_passes⟩) (forall_cons (⟨_, rfl, HandLex.voml_passes⟩) (forall_cons (⟨_, rfl, HandLex.wat_passes⟩)
  (forall_cons (⟨_, rfl, HandLex.wolfram_passes⟩) (forall_nil))))))))))))))))))))))))))))))))))))))))

private theorem tile_pass : ∀ p ∈ lexTile, ∃ m : Mode, m.order = true ∧ m.tile = true ∧ passes m p = true :=
  forall_cons (⟨_, rfl, rfl, HandLex.cpp_passes⟩) (
  forall_cons (⟨_, rfl, rfl, HandLex.nginx_passes⟩) (
  forall_cons (⟨_, rfl, rfl, HandLex.witComponent_passes⟩) (
  forall_cons (⟨_, rfl, rfl, HandLex.ada_passes⟩) (forall_cons (⟨_, rfl, rfl, HandLex.apl_passes⟩) (forall_cons (⟨_,
  rfl, rfl, HandLex.bat_passes⟩) (forall_cons (⟨_, rfl, rfl, HandLex.cmd_passes⟩) (forall_cons (⟨_, rfl, rfl,
  HandLex.go_passes⟩) (forall_cons (⟨_, rfl, rfl, HandLex.hlsl_passes⟩) (forall_cons (⟨_, rfl, rfl, HandLex.j_passes⟩)
  (forall_cons (⟨_, rfl, rfl, HandLex.java_passes⟩) (forall_cons (⟨_, rfl, rfl, HandLex.javadoc_passes⟩) (forall_cons
  (⟨_, rfl, rfl, HandLex.kotlin_passes⟩) (forall_cons (⟨_, rfl, rfl, HandLex.lean_passes⟩) (forall_cons (⟨_, rfl, rfl,
  HandLex.matlab_passes⟩) (forall_cons (⟨_, rfl, rfl, HandLex.mermaid_passes⟩) (forall_cons (⟨_, rfl, rfl,
  HandLex.nim_passes⟩) (forall_cons (⟨_, rfl, rfl, HandLex.objectiveC_passes⟩) (forall_cons (⟨_, rfl, rfl,
  HandLex.orgMode_passes⟩) (forall_cons (⟨_, rfl, rfl, HandLex.pascal_passes⟩) (forall_cons (⟨_, rfl, rfl,
  HandLex.perl_passes⟩) (forall_cons (⟨_, rfl, rfl, HandLex.php_passes⟩) (forall_cons (⟨_, rfl, rfl,
  HandLex.powershell_passes⟩) (forall_cons (⟨_, rfl, rfl, HandLex.protobuf_passes⟩) (forall_cons (⟨_, rfl, rfl,
  HandLex.smalltalk_passes⟩) (forall_cons (⟨_, rfl, rfl, HandLex.vhdl_passes⟩) (forall_cons (⟨_, rfl, rfl,
  HandLex.vlang_passes⟩) (forall_cons (⟨_, rfl, rfl, HandLex.voml_passes⟩) (forall_cons (⟨_, rfl, rfl,
  HandLex.wat_passes⟩) (forall_cons (⟨_, rfl, rfl, HandLex.wolfram_passes⟩) (forall_nil))))))))))))))))))))))))))))))

private theorem supplied {src : Source} {t : Str} (h : AnySource src t) : Supplied src t :=
  supply_linked h.1 h.2 (longChunks_zero src t) (cutsAligned_zero h.1)

/-- C87: 44 lexers of the examples end on every text: no panic, no endless loop. The answers of `char::is_alphabetic`
and its kind for characters beyond ASCII do not matter. -/
theorem C87_ends_partial {src : Source} {t : Str} (h : AnySource src t) {p : Code} (hp : p ∈ lexEnds) (u : Uni) (ω : Nat → Nat) :
    ∃ toks, scanAll src u ω p = .ok toks := by
  obtain ⟨m, _, h2⟩ := ends_pass p hp
  exact passes_ends (supplied h) h2 u ω

/-- C88: the tokens of these lexers are pieces of the text (they begin and end between two characters), and each ends
before the next begins. -/
theorem C88_pieces_partial {src : Source} {t : Str} (h : AnySource src t) {p : Code} (hp : p ∈ lexEnds) {u : Uni} {ω : Nat → Nat}
    {toks : List Tok} (hr : scanAll src u ω p = .ok toks) : (∀ k ∈ toks, ∃ s, Piece t k s) ∧ InOrder toks := by
  obtain ⟨m, h1, h2⟩ := ends_pass p hp
  exact passes_pieces (supplied h) h2 h1 hr

/-- C88: in 40 of them no token is empty. -/
theorem C88_nonempty_partial {src : Source} {t : Str} (h : AnySource src t) {p : Code} (hp : p ∈ lexProper) {u : Uni} {ω : Nat → Nat}
    {toks : List Tok} (hr : scanAll src u ω p = .ok toks) : ∀ k ∈ toks, ∃ s, s ≠ [] ∧ Piece t k s := by
  obtain ⟨m, h1, h2⟩ := proper_pass p hp
  exact passes_proper (supplied h) h2 h1 hr

/-- C89: for 30 lexers the texts of the tokens, one after the other, are the text. -/
theorem C89_lossless_partial {src : Source} {t : Str} (h : AnySource src t) {p : Code} (hp : p ∈ lexTile) {u : Uni} {ω : Nat → Nat}
    {toks : List Tok} (hr : scanAll src u ω p = .ok toks) : Lossless t toks := by
  obtain ⟨m, h0, h1, h2⟩ := tile_pass p hp
  exact passes_lossless (supplied h) h2 h0 h1 hr

/-- The standard library on the characters up to U+00FF. -/
def latin : Uni where
  alpha c := (0xC0 ≤ c.toNat && c.toNat ≤ 0xFF && c != '×' && c != '÷') || c == 'ª' || c == 'µ' || c == 'º'
  num c := c == '²' || c == '³' || c == '¹' || c == '¼' || c == '½' || c == '¾'
  white c := c.toNat == 0x85 || c.toNat == 0xA0
  upper c := 0xC0 ≤ c.toNat && c.toNat ≤ 0xDE && c != '×'
  lower c := (0xDF ≤ c.toNat && c.toNat ≤ 0xFF && c != '÷') || c == 'ª' || c == 'µ' || c == 'º'
  ctrl c := 0x80 ≤ c.toNat && c.toNat ≤ 0x9F

/-- The places of the tokens. -/
def spans (toks : List Tok) : List (Nat × Nat) := toks.map fun k => (k.start, k.stop)

/-- Lexers that cut a character in two, each with a text on which it does. -/
def cutters : List (Code × Str) :=
  [(HandLex.Crystal.run_, "\"\\é".toList), (HandLex.Csharp.run_, "\"\\é".toList),
   (HandLex.Css.run_, "\"\\é".toList), (HandLex.D.run_, "\"\\é".toList), (HandLex.Dockerfile.run_, "\"\\é".toList),
   (HandLex.Jasmin.run_, "\"\\é".toList), (HandLex.Purescript.run_, "\"\\é".toList),
   (HandLex.Solidity.run_, "\"\\é".toList), (HandLex.Swift.run_, "\"\\é".toList),
   (HandLex.Tailwind.run_, "\"\\é".toList), (HandLex.Twig.run_, "\"\\é".toList),
   (HandLex.Typescript.run_, "\"\\é".toList), (HandLex.Coq.lexInternal, "é".toList),
   (HandLex.Dhall.run_, "é".toList), (HandLex.Haskell.lex, "é".toList), (HandLex.Toml.run_, "é\"".toList),
   (HandLex.Rbq.run_, "\"→\"".toList), (HandLex.Lua.run_, "-é".toList), (HandLex.Django.run_, "{é".toList), (HandLex.Zig.run_, "↯;".toList)]

private theorem not_piece {t : Str} {k : Tok} (h : (isBoundary t k.start && isBoundary t k.stop) = false) (s : Str) : ¬ Piece t k s := by
  rintro ⟨l, r, rfl, h1, h2⟩
  have e1 := isBoundary_append l (s ++ r)
  have e2 := isBoundary_append (l ++ s) r
  rw [h1, ← List.append_assoc] at e1
  rw [blen_append, h2] at e2
  rw [e1, e2] at h
  cases h

/-- C88 fails for 20 lexers: they take one byte after a backslash, one byte for an unknown character, or two for a mark of
two characters of which they saw the first, and
record a token that begins or ends inside a character. -/
theorem C88_cuts : ∀ x ∈ cutters, ∃ toks k, scanAll (strSource x.2) latin (fun _ => 0) x.1 = .ok toks ∧ k ∈ toks ∧ ∀ s, ¬ Piece x.2 k s := by
  have key : ∀ x ∈ cutters, (match scanAll (strSource x.2) latin (fun _ => 0) x.1 with
      | .ok toks => toks.any fun k => !(isBoundary x.2 k.start && isBoundary x.2 k.stop)
      | .error _ => false) = true := by decide +kernel
  intro x hx
  have := key x hx
  split at this
  · rename_i toks h
    obtain ⟨k, hk, hb⟩ := List.any_eq_true.mp this
    exact ⟨toks, k, h, hk, not_piece (by rwa [Bool.not_eq_true'] at hb)⟩
  · cases this

/-- Lexers that leave out part of the text, each with a text on which they do. -/
def gaps : List (Code × Str) :=
  [(HandLex.Actionscript.run_, "é".toList), (HandLex.AsciiDoc.run_, "'".toList),
   (HandLex.Clojure.run_, "@".toList), (HandLex.Dhall.run_, "$".toList), (HandLex.Elm.run_, "$".toList),
   (HandLex.Fortran.run_, "\\".toList), (HandLex.Graphql.run_, "\\".toList), (HandLex.Idl.run_, "\\".toList),
   (HandLex.Jasm.run_, "\\".toList), (HandLex.Ocaml.run_, "\\".toList), (HandLex.Sql.run_, "!".toList),
   (HandLex.Tailwind.run_, "\\".toList), (HandLex.Tex.run_, "'".toList), (HandLex.Toml.run_, "\\".toList),
   (HandLex.Twig.run_, "\\".toList), (HandLex.Vala.run_, "é".toList), (HandLex.Verilog.run_, "\\".toList),
   (HandLex.Lua.run_, "-é".toList), (HandLex.Django.run_, "{é".toList), (HandLex.Zig.run_, "↯;".toList)]

private theorem lossless_length {t : Str} {toks : List Tok} (h : Lossless t toks) : (toks.map fun k => k.stop - k.start).sum = blen t := by
  obtain ⟨texts, h1, rfl⟩ := h
  have : ∀ (t : Str) (toks : List Tok) (texts : List Str), List.Forall₂ (Piece t) toks texts →
      (toks.map fun k => k.stop - k.start).sum = blen texts.flatten := by
    intro t toks texts h
    induction h with
    | nil => rfl
    | cons h _ ih =>
      obtain ⟨l, r, _, h2, h3⟩ := h
      simp [ih]
      omega
  exact this _ _ _ h1

/-- C89 fails for 20 lexers: a character they do not know, or that they cut, is skipped, and no token has it. -/
theorem C89_gaps : ∀ x ∈ gaps, ∃ toks, scanAll (strSource x.2) latin (fun _ => 0) x.1 = .ok toks ∧ ¬ Lossless x.2 toks := by
  have key : ∀ x ∈ gaps, (match scanAll (strSource x.2) latin (fun _ => 0) x.1 with
      | .ok toks => !((toks.map fun k => k.stop - k.start).sum == blen x.2)
      | .error _ => false) = true := by decide +kernel
  intro x hx
  have := key x hx
  split at this
  · rename_i toks h
    refine ⟨toks, h, fun hl => ?_⟩
    rw [lossless_length hl] at this
    simp at this
  · cases this

/-- C88: the empty tokens of the four lexers that record one of their own at the end of the text. -/
theorem C88_empty : ∀ p ∈ [HandLex.Powershell.run_, HandLex.Protobuf.run_, HandLex.Verilog.run_, HandLex.WitComponent.run_],
    (scanAll (strSource "a".toList) latin (fun _ => 0) p).map spans = .ok [(0, 1), (1, 1)] := by decide +kernel

set_option maxRecDepth 100000 in
/-- C87 fails for the lexer of MSIL: on `"\é` the loop of `run` does not end, whatever the number of turns. -/
theorem C87_msil_endless (n : Nat) :
    HandLex.Msil.run_ = .scope 0 (.mark 0 ;; .loop 1 false .more (HandLex.inner HandLex.Msil.run_)) ∧
    ∀ lex, Lex.new (strSource "\"\\é".toList) = .ok lex →
      turns (exec (strSource "\"\\é".toList) latin (fun _ => 0) .more)
        (exec (strSource "\"\\é".toList) latin (fun _ => 0) (HandLex.inner HandLex.Msil.run_)) 1 n ⟨lex, fun _ => 0, 0⟩ = .error .spin :=
  ⟨rfl, fun _ hl => HandLex.endless (k := [(0, 0)]) (.inl rfl) (by decide +kernel) rfl (by decide +kernel) n hl⟩

set_option maxRecDepth 100000 in
/-- C87 fails for the lexer of Nix in the same way. -/
theorem C87_nix_endless (n : Nat) :
    HandLex.Nix.run_ = .scope 0 (.loop 0 false .more (HandLex.inner HandLex.Nix.run_)) ∧
    ∀ lex, Lex.new (strSource "\"\\é".toList) = .ok lex →
      turns (exec (strSource "\"\\é".toList) latin (fun _ => 0) .more)
        (exec (strSource "\"\\é".toList) latin (fun _ => 0) (HandLex.inner HandLex.Nix.run_)) 0 n ⟨lex, fun _ => 0, 0⟩ = .error .spin :=
  ⟨rfl, fun _ hl => HandLex.endless (k := []) (.inr rfl) (by decide +kernel) rfl (by simp) n hl⟩

example : (scanAll (textSource "int é = 10; // x".toList) latin (fun _ => 0) HandLex.Java.run_).map spans =
    .ok [(0, 3), (3, 4), (4, 6), (6, 7), (7, 8), (8, 9), (9, 11), (11, 12), (12, 13), (13, 17)] := by decide +kernel
example : HandLex.Java.run_ ∈ lexTile ∧ HandLex.Java.run_ ∈ lexProper ∧ HandLex.Java.run_ ∈ lexEnds := by
  refine ⟨?_, ?_, ?_⟩ <;> simp [lexTile, lexProper, lexEnds]

end Oaks.Props
