import Verif.Proofs.ProgRun
import Verif.Model.Hand.Ada
import Verif.Model.Hand.Apl
import Verif.Model.Hand.Bash
import Verif.Model.Hand.Bat
import Verif.Model.Hand.Cmd
import Verif.Model.Hand.Cobol
import Verif.Model.Hand.Coq
import Verif.Model.Hand.Css
import Verif.Model.Hand.Dart
import Verif.Model.Hand.Fsharp
import Verif.Model.Hand.Handlebars
import Verif.Model.Hand.Haskell
import Verif.Model.Hand.Html
import Verif.Model.Hand.J
import Verif.Model.Hand.Jasmin
import Verif.Model.Hand.Julia
import Verif.Model.Hand.LlvmIr
import Verif.Model.Hand.Matlab
import Verif.Model.Hand.Msil
import Verif.Model.Hand.Nginx
import Verif.Model.Hand.Notedown
import Verif.Model.Hand.ObjectiveC
import Verif.Model.Hand.Ocaml
import Verif.Model.Hand.OrgMode
import Verif.Model.Hand.Perl
import Verif.Model.Hand.Powershell
import Verif.Model.Hand.Prolog
import Verif.Model.Hand.Protobuf
import Verif.Model.Hand.Svelte
import Verif.Model.Hand.Tailwind
import Verif.Model.Hand.Typst
import Verif.Model.Hand.Vhdl
import Verif.Model.Hand.Voc
import Verif.Model.Hand.Wat
import Verif.Model.Hand.Wgsl

/-
The verdicts of the analysis about the hand-written parsers, each computed by the kernel.
-/
namespace Oaks
namespace HandParser
open Prog

/-- The analysis accepts the parser; at the end nothing is left, or a token of one of these kinds is next; if so said, no error is ever
returned in place of the tree. -/
def sure (h : HandParser) (tree : Bool) (ks : List Nat) : Bool :=
  match h.judge (h.sums 6) with
  | none => false
  | some R => (!tree || R.err.isNever) && !(ending R).neg && (ending R).ks.all (fun k => ks.contains k)

end HandParser

namespace Hand

theorem ada_sure : Ada.parser.sure true [114] = true := by decide +kernel
theorem apl_sure : Apl.parser.sure true [62] = true := by decide +kernel
theorem bash_sure : Bash.parser.sure true [17] = true := by decide +kernel
theorem bat_sure : Bat.parser.sure true [14] = true := by decide +kernel
theorem cmd_sure : Cmd.parser.sure true [14] = true := by decide +kernel
theorem cobol_sure : Cobol.parser.sure false [] = true := by decide +kernel
theorem coq_sure : Coq.parser.sure false [142] = true := by decide +kernel
theorem css_sure : Css.parser.sure true [] = true := by decide +kernel
theorem dart_sure : Dart.parser.sure true [] = true := by decide +kernel
theorem fsharp_sure : Fsharp.parser.sure false [] = true := by decide +kernel
theorem handlebars_sure : Handlebars.parser.sure false [] = true := by decide +kernel
theorem haskell_sure : Haskell.parser.sure true [] = true := by decide +kernel
theorem html_sure : Html.parser.sure true [] = true := by decide +kernel
theorem j_sure : J.parser.sure true [] = true := by decide +kernel
theorem jasmin_sure : Jasmin.parser.sure true [] = true := by decide +kernel
theorem julia_sure : Julia.parser.sure true [] = true := by decide +kernel
theorem llvmIr_sure : LlvmIr.parser.sure false [] = true := by decide +kernel
theorem matlab_sure : Matlab.parser.sure true [] = true := by decide +kernel
theorem msil_sure : Msil.parser.sure true [] = true := by decide +kernel
theorem nginx_sure : Nginx.parser.sure true [] = true := by decide +kernel
theorem notedown_sure : Notedown.parser.sure true [] = true := by decide +kernel
theorem objectiveC_sure : ObjectiveC.parser.sure true [] = true := by decide +kernel
theorem ocaml_sure : Ocaml.parser.sure true [] = true := by decide +kernel
theorem orgMode_sure : OrgMode.parser.sure true [] = true := by decide +kernel
theorem perl_sure : Perl.parser.sure true [] = true := by decide +kernel
theorem powershell_sure : Powershell.parser.sure true [] = true := by decide +kernel
theorem prolog_sure : Prolog.parser.sure true [] = true := by decide +kernel
theorem protobuf_sure : Protobuf.parser.sure true [] = true := by decide +kernel
theorem svelte_sure : Svelte.parser.sure true [] = true := by decide +kernel
theorem tailwind_sure : Tailwind.parser.sure false [] = true := by decide +kernel
theorem typst_sure : Typst.parser.sure true [] = true := by decide +kernel
theorem vhdl_sure : Vhdl.parser.sure true [] = true := by decide +kernel
theorem voc_sure : Voc.parser.sure false [86] = true := by decide +kernel
theorem wat_sure : Wat.parser.sure true [] = true := by decide +kernel
theorem wgsl_sure : Wgsl.parser.sure true [] = true := by decide +kernel

end Hand
end Oaks
