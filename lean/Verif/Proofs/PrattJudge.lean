import Verif.Proofs.ProgBare
import Verif.Model.HandPratt.Actionscript
import Verif.Model.HandPratt.C
import Verif.Model.HandPratt.Cpp
import Verif.Model.HandPratt.Csharp
import Verif.Model.HandPratt.Elixir
import Verif.Model.HandPratt.Go
import Verif.Model.HandPratt.Javascript

/-
The verdicts of the analysis about the parsers with operator precedence, each computed by the kernel from claims about their functions:
what can be next when a function is called, and what is next when it ends. The claims are data; the check decides whether they hold.
-/
namespace Oaks
namespace Hand
open Prog

/-- Claims about the functions of the parser of Actionscript. -/
def actionscriptClaims : List Sum :=
  [⟨⟨true, true, [94, 90, 75, 0, 1, 2]⟩, ⟨⟨true, false, []⟩, ⟨true, true, [0, 1, 2]⟩⟩, .never, .never⟩,
      ⟨⟨true, true, [0, 1, 2]⟩, ⟨⟨true, false, []⟩, ⟨true, true, [0, 1, 2]⟩⟩, .never, .never⟩,
      ⟨⟨true, true, [2, 1, 0, 0, 1, 2]⟩, ⟨.none_, ⟨true, true, [0, 1, 2]⟩⟩, ⟨⟨true, false, []⟩, ⟨true, true, [121, 113, 119, 115, 78,
     77, 76, 75, 74, 97, 96, 95, 91, 93, 92, 29, 32, 87, 86, 85, 84, 83, 81, 82, 80, 88, 89, 110, 109, 108, 107, 106, 105, 104, 103,
     102, 101, 100, 79, 0, 1, 2]⟩⟩, .never⟩,
      ⟨⟨false, false, [24]⟩, ⟨.none_, ⟨true, true, [0, 1, 2]⟩⟩, .never, .never⟩,
      ⟨⟨true, true, [0, 1, 2]⟩, ⟨⟨true, false, []⟩, ⟨true, true, [0, 1, 2]⟩⟩, .never, .never⟩,
      ⟨⟨true, true, [0, 1, 2]⟩, ⟨⟨true, false, []⟩, ⟨true, true, [0, 1, 2]⟩⟩, .never, .never⟩,
      ⟨⟨false, false, [27]⟩, ⟨.none_, ⟨true, true, [0, 1, 2]⟩⟩, .never, .never⟩,
      ⟨⟨false, false, [36]⟩, ⟨.none_, ⟨true, true, [0, 1, 2]⟩⟩, .never, .never⟩,
      ⟨⟨false, false, [13]⟩, ⟨.none_, ⟨true, true, [0, 1, 2]⟩⟩, .never, .never⟩,
      ⟨⟨false, false, [30]⟩, ⟨.none_, ⟨true, true, [0, 1, 2]⟩⟩, .never, .never⟩,
      ⟨⟨false, false, [50, 14]⟩, ⟨.none_, ⟨true, true, [0, 1, 2]⟩⟩, .never, .never⟩,
      ⟨⟨false, false, [25]⟩, ⟨.none_, ⟨true, true, [0, 1, 2]⟩⟩, .never, .never⟩,
      ⟨⟨false, false, [52]⟩, ⟨.none_, ⟨true, true, [0, 1, 2]⟩⟩, .never, .never⟩,
      ⟨⟨false, false, [23]⟩, ⟨.none_, ⟨true, true, [0, 1, 2]⟩⟩, .never, .never⟩,
      ⟨⟨false, false, [40]⟩, ⟨.none_, ⟨true, true, [0, 1, 2]⟩⟩, .never, .never⟩,
      ⟨⟨true, true, [0, 1, 2]⟩, ⟨⟨true, false, []⟩, ⟨true, true, [113, 119, 115, 78, 77, 76, 75, 74, 97, 96, 95, 91, 93, 92, 29, 32, 87,
     86, 85, 84, 83, 81, 82, 80, 88, 89, 110, 109, 108, 107, 106, 105, 104, 103, 102, 101, 100, 79, 0, 1, 2]⟩⟩, .never, .never⟩,
      ⟨⟨true, true, [0, 1, 2]⟩, ⟨⟨true, false, []⟩, ⟨true, true, [113, 119, 115, 78, 77, 76, 75, 74, 97, 96, 95, 91, 93, 92, 29, 32, 87,
     86, 85, 84, 83, 81, 82, 80, 88, 89, 110, 109, 108, 107, 106, 105, 104, 103, 102, 101, 100, 79, 0, 1, 2]⟩⟩, .never, .never⟩,
      ⟨⟨true, true, [0, 1, 2]⟩, ⟨⟨true, false, []⟩, ⟨true, true, [113, 119, 115, 78, 77, 76, 75, 74, 97, 96, 95, 91, 93, 92, 29, 32, 87,
     86, 85, 84, 83, 81, 82, 80, 88, 0, 1, 2]⟩⟩, .never, .never⟩,
      ⟨⟨true, true, [0, 1, 2]⟩, ⟨⟨true, false, []⟩, ⟨true, true, [113, 119, 115, 78, 77, 76, 75, 74, 97, 96, 95, 91, 93, 92, 29, 32, 87,
     86, 85, 84, 83, 81, 82, 80, 0, 1, 2]⟩⟩, .never, .never⟩,
      ⟨⟨true, true, [0, 1, 2]⟩, ⟨⟨true, false, []⟩, ⟨true, true, [113, 119, 115, 78, 77, 76, 75, 74, 97, 96, 95, 91, 93, 92, 29, 32, 87,
     86, 85, 84, 0, 1, 2]⟩⟩, .never, .never⟩,
      ⟨⟨true, true, [0, 1, 2]⟩, ⟨⟨true, false, []⟩, ⟨true, true, [113, 119, 115, 78, 77, 76, 75, 74, 97, 96, 95, 91, 93, 92, 0, 1, 2]⟩⟩,
     .never, .never⟩,
      ⟨⟨true, true, [0, 1, 2]⟩, ⟨⟨true, false, []⟩, ⟨true, true, [113, 119, 115, 78, 77, 76, 75, 74, 97, 96, 95, 91, 93, 0, 1, 2]⟩⟩,
     .never, .never⟩,
      ⟨⟨true, true, [0, 1, 2]⟩, ⟨⟨true, false, []⟩, ⟨true, true, [113, 119, 115, 78, 77, 76, 75, 74, 97, 96, 95, 91, 0, 1, 2]⟩⟩, .never,
     .never⟩,
      ⟨⟨true, true, [0, 1, 2]⟩, ⟨⟨true, false, []⟩, ⟨true, true, [113, 119, 115, 78, 77, 76, 75, 74, 97, 96, 95, 0, 1, 2]⟩⟩, .never,
     .never⟩,
      ⟨⟨true, true, [0, 1, 2]⟩, ⟨⟨true, false, []⟩, ⟨true, true, [113, 119, 115, 78, 77, 76, 75, 74, 0, 1, 2]⟩⟩, .never, .never⟩,
      ⟨⟨true, true, [0, 1, 2]⟩, ⟨⟨true, false, []⟩, ⟨true, true, [113, 119, 115, 78, 77, 76, 0, 1, 2]⟩⟩, .never, .never⟩,
      ⟨⟨true, true, [0, 1, 2]⟩, ⟨⟨true, false, []⟩, ⟨true, true, [113, 119, 115, 0, 1, 2]⟩⟩, .never, .never⟩]
theorem actionscript_firm : Actionscript.parser.bare.firm actionscriptClaims true = true := by decide +kernel

/-- Claims about the functions of the parser of C. -/
def cClaims : List Sum :=
  [⟨⟨true, true, [94, 95]⟩, ⟨.none_, ⟨true, true, [94, 95]⟩⟩, ⟨⟨true, false, []⟩, ⟨true, true, [7, 95, 94, 94, 95]⟩⟩, .never⟩,
      ⟨⟨true, true, [94, 95]⟩, ⟨⟨true, true, [95, 94, 94, 95]⟩, ⟨true, true, [95, 94, 94, 95]⟩⟩, .never, .never⟩,
      ⟨⟨false, false, [59, 60, 61, 49, 48, 47, 53, 51, 50, 55, 56]⟩, ⟨.none_, ⟨true, true, [94, 95]⟩⟩, .never, .never⟩,
      ⟨⟨false, false, [65]⟩, ⟨.none_, ⟨true, true, [94, 95]⟩⟩, .never, .never⟩,
      ⟨⟨false, false, [71]⟩, ⟨.none_, ⟨true, true, [94, 95]⟩⟩, .never, .never⟩,
      ⟨⟨false, false, [70]⟩, ⟨.none_, ⟨true, true, [94, 95]⟩⟩, .never, .never⟩,
      ⟨⟨false, false, [76]⟩, ⟨.none_, ⟨true, true, [94, 95]⟩⟩, .never, .never⟩,
      ⟨⟨false, false, [4]⟩, ⟨.none_, ⟨true, true, [94, 95]⟩⟩, .never, .never⟩,
      ⟨⟨true, true, [94, 95]⟩, ⟨⟨true, false, []⟩, ⟨true, true, [94, 95]⟩⟩, .never, .never⟩,
      ⟨⟨true, true, [94, 95]⟩, ⟨⟨true, false, []⟩, ⟨true, true, [44, 9, 2, 0, 15, 14, 13, 12, 11, 27, 26, 25, 24, 23, 22, 28, 29, 41,
     40, 39, 38, 37, 21, 20, 19, 18, 17, 16, 95, 94, 94, 95]⟩⟩, .never, .never⟩,
      ⟨⟨true, true, [94, 95]⟩, ⟨⟨true, false, []⟩, ⟨true, true, [44, 9, 2, 0, 15, 14, 13, 12, 11, 27, 26, 25, 24, 23, 22, 28, 29, 41,
     40, 39, 38, 37, 21, 20, 19, 18, 17, 16, 95, 94, 94, 95]⟩⟩, .never, .never⟩,
      ⟨⟨true, true, [94, 95]⟩, ⟨⟨true, false, []⟩, ⟨true, true, [44, 9, 2, 0, 15, 14, 13, 12, 11, 27, 26, 25, 24, 23, 22, 28, 95, 94,
     94, 95]⟩⟩, .never, .never⟩,
      ⟨⟨true, true, [94, 95]⟩, ⟨⟨true, false, []⟩, ⟨true, true, [44, 9, 2, 0, 15, 14, 13, 12, 11, 27, 26, 25, 24, 23, 22, 95, 94, 94,
     95]⟩⟩, .never, .never⟩,
      ⟨⟨true, true, [94, 95]⟩, ⟨⟨true, false, []⟩, ⟨true, true, [44, 9, 2, 0, 15, 14, 13, 12, 11, 95, 94, 94, 95]⟩⟩, .never, .never⟩,
      ⟨⟨true, true, [94, 95]⟩, ⟨⟨true, false, []⟩, ⟨true, true, [44, 9, 2, 0, 15, 14, 13, 95, 94, 94, 95]⟩⟩, .never, .never⟩,
      ⟨⟨true, true, [94, 95]⟩, ⟨⟨true, false, []⟩, ⟨true, true, [44, 9, 2, 0, 95, 94, 94, 95]⟩⟩, .never, .never⟩]
theorem c_firm : C.parser.bare.firm cClaims true = true := by decide +kernel

/-- Claims about the functions of the parser of Cpp. -/
def cppClaims : List Sum :=
  [⟨⟨false, true, [0, 1, 2]⟩, ⟨.none_, ⟨true, true, [0, 1, 2]⟩⟩, ⟨.none_, ⟨true, true, [47, 44, 43, 49, 54, 52, 14, 13, 12, 11, 10, 26,
     25, 24, 23, 22, 21, 27, 28, 40, 39, 38, 37, 36, 20, 19, 18, 17, 16, 15, 0, 1, 2]⟩⟩, .never⟩,
      ⟨⟨false, false, [56]⟩, ⟨.none_, ⟨true, true, [0, 1, 2]⟩⟩, ⟨.none_, ⟨true, false, []⟩⟩, .never⟩,
      ⟨⟨true, true, [0, 1, 2]⟩, ⟨⟨true, false, []⟩, ⟨true, true, [0, 1, 2]⟩⟩, .never, .never⟩,
      ⟨⟨true, true, [0, 1, 2]⟩, ⟨⟨true, false, []⟩, ⟨true, true, [0, 1, 2]⟩⟩, .never, .never⟩,
      ⟨⟨true, true, [0, 1, 2]⟩, ⟨⟨true, false, []⟩, ⟨true, true, [44, 43, 49, 54, 52, 14, 13, 12, 11, 10, 26, 25, 24, 23, 22, 21, 27,
     28, 40, 39, 38, 37, 36, 20, 19, 18, 17, 16, 15, 0, 1, 2]⟩⟩, .never, .never⟩,
      ⟨⟨true, true, [0, 1, 2]⟩, ⟨⟨true, false, []⟩, ⟨true, true, [44, 43, 49, 54, 52, 14, 13, 12, 11, 10, 26, 25, 24, 23, 22, 21, 27,
     28, 0, 1, 2]⟩⟩, .never, .never⟩,
      ⟨⟨true, true, [0, 1, 2]⟩, ⟨⟨true, false, []⟩, ⟨true, true, [44, 43, 49, 54, 52, 14, 13, 12, 11, 10, 26, 25, 24, 23, 22, 21, 27, 0,
     1, 2]⟩⟩, .never, .never⟩,
      ⟨⟨true, true, [0, 1, 2]⟩, ⟨⟨true, false, []⟩, ⟨true, true, [44, 43, 49, 54, 52, 14, 13, 12, 11, 10, 26, 25, 24, 23, 22, 21, 0, 1,
     2]⟩⟩, .never, .never⟩,
      ⟨⟨true, true, [0, 1, 2]⟩, ⟨⟨true, false, []⟩, ⟨true, true, [44, 43, 49, 54, 52, 14, 13, 12, 11, 10, 0, 1, 2]⟩⟩, .never, .never⟩,
      ⟨⟨true, true, [0, 1, 2]⟩, ⟨⟨true, false, []⟩, ⟨true, true, [44, 43, 49, 54, 52, 14, 13, 12, 0, 1, 2]⟩⟩, .never, .never⟩,
      ⟨⟨true, true, [0, 1, 2]⟩, ⟨⟨true, false, []⟩, ⟨true, true, [44, 43, 49, 54, 52, 0, 1, 2]⟩⟩, .never, .never⟩,
      ⟨⟨true, true, [0, 1, 2]⟩, ⟨⟨true, false, []⟩, ⟨true, true, [44, 0, 1, 2]⟩⟩, .never, .never⟩]
theorem cpp_firm : Cpp.parser.bare.firm cppClaims true = true := by decide +kernel

/-- Claims about the functions of the parser of Csharp. -/
def csharpClaims : List Sum :=
  [⟨⟨true, true, []⟩, ⟨⟨true, false, []⟩, ⟨true, true, []⟩⟩, .never, .never⟩,
      ⟨⟨true, true, []⟩, ⟨⟨true, false, []⟩, ⟨true, true, []⟩⟩, .never, .never⟩,
      ⟨⟨true, true, []⟩, ⟨⟨true, false, []⟩, ⟨true, true, []⟩⟩, .never, .never⟩,
      ⟨⟨false, false, [42]⟩, ⟨.none_, ⟨true, true, []⟩⟩, .never, .never⟩,
      ⟨⟨false, false, [53]⟩, ⟨.none_, ⟨true, true, []⟩⟩, .never, .never⟩,
      ⟨⟨false, false, [86]⟩, ⟨.none_, ⟨true, true, []⟩⟩, .never, .never⟩,
      ⟨⟨true, true, []⟩, ⟨.none_, ⟨true, true, []⟩⟩, ⟨⟨true, false, []⟩, ⟨true, false, []⟩⟩, .never⟩,
      ⟨⟨false, false, [24, 74, 48, 33, 65, 29, 63, 61, 62, 49, 73, 93, 12, 87, 59]⟩, ⟨.none_, ⟨true, true, []⟩⟩, .never, .never⟩,
      ⟨⟨false, false, [44]⟩, ⟨.none_, ⟨true, true, []⟩⟩, .never, .never⟩,
      ⟨⟨false, false, [90]⟩, ⟨.none_, ⟨true, true, []⟩⟩, .never, .never⟩,
      ⟨⟨false, false, [41]⟩, ⟨.none_, ⟨true, true, []⟩⟩, .never, .never⟩,
      ⟨⟨true, true, []⟩, ⟨⟨true, false, []⟩, ⟨true, true, []⟩⟩, .never, .never⟩,
      ⟨⟨false, false, [67]⟩, ⟨.none_, ⟨true, true, []⟩⟩, .never, .never⟩,
      ⟨⟨true, true, []⟩, ⟨⟨true, false, []⟩, ⟨true, true, [246, 238, 236, 195, 194, 193, 192, 191, 92, 129, 211, 209, 210, 208, 207,
     206, 212, 213, 232, 231, 230, 235, 234, 233, 226, 225, 224, 223, 222, 221]⟩⟩, .never, .never⟩,
      ⟨⟨true, true, []⟩, ⟨⟨true, false, []⟩, ⟨true, true, [246, 238, 236, 195, 194, 193, 192, 191, 92, 129, 211, 209, 210, 208, 207,
     206, 212, 213, 232, 231, 230, 235, 234, 233, 226, 225, 224, 223, 222, 221]⟩⟩, .never, .never⟩,
      ⟨⟨true, true, []⟩, ⟨⟨true, false, []⟩, ⟨true, true, [246, 238, 236, 195, 194, 193, 192, 191, 92, 129, 211, 209, 210, 208, 207,
     206, 212]⟩⟩, .never, .never⟩,
      ⟨⟨true, true, []⟩, ⟨⟨true, false, []⟩, ⟨true, true, [246, 238, 236, 195, 194, 193, 192, 191, 92, 129, 211, 209, 210, 208, 207,
     206]⟩⟩, .never, .never⟩,
      ⟨⟨true, true, []⟩, ⟨⟨true, false, []⟩, ⟨true, true, [246, 238, 236, 195, 194, 193, 192, 191]⟩⟩, .never, .never⟩,
      ⟨⟨true, true, []⟩, ⟨⟨true, false, []⟩, ⟨true, true, [246, 238, 236, 195, 194, 193]⟩⟩, .never, .never⟩,
      ⟨⟨true, true, []⟩, ⟨⟨true, false, []⟩, ⟨true, true, [246, 238, 236]⟩⟩, .never, .never⟩]
theorem csharp_firm : Csharp.parser.bare.firm csharpClaims true = true := by decide +kernel

/-- Claims about the functions of the parser of Elixir. -/
def elixirClaims : List Sum :=
  [⟨⟨true, true, [74, 67, 43, 42, 1, 3, 2]⟩, ⟨⟨true, false, []⟩, ⟨true, true, [1, 3, 2]⟩⟩, .never, .never⟩,
      ⟨⟨true, true, [1, 3, 2]⟩, ⟨⟨true, false, []⟩, ⟨true, true, [1, 3, 2]⟩⟩, .never, .never⟩,
      ⟨⟨false, false, [19]⟩, ⟨.none_, ⟨true, true, [1, 3, 2]⟩⟩, .never, .never⟩,
      ⟨⟨false, false, [17, 18]⟩, ⟨.none_, ⟨true, true, [1, 3, 2]⟩⟩, .never, .never⟩,
      ⟨⟨true, true, [1, 3, 2]⟩, ⟨⟨true, false, []⟩, ⟨true, true, [50, 46, 45, 44, 43, 42, 70, 69, 68, 71, 64, 63, 62, 61, 60, 59, 65,
     66, 58, 1, 3, 2]⟩⟩, .never, .never⟩,
      ⟨⟨true, true, [1, 3, 2]⟩, ⟨⟨true, false, []⟩, ⟨true, true, [50, 46, 45, 44, 43, 42, 70, 69, 68, 71, 64, 63, 62, 61, 60, 59, 65,
     66, 58, 1, 3, 2]⟩⟩, .never, .never⟩,
      ⟨⟨true, true, [1, 3, 2]⟩, ⟨⟨true, false, []⟩, ⟨true, true, [50, 46, 45, 44, 43, 42, 70, 69, 68, 71, 64, 63, 62, 61, 60, 59, 65, 1,
     3, 2]⟩⟩, .never, .never⟩,
      ⟨⟨true, true, [1, 3, 2]⟩, ⟨⟨true, false, []⟩, ⟨true, true, [50, 46, 45, 44, 43, 42, 70, 69, 68, 71, 64, 63, 62, 61, 60, 59, 1, 3,
     2]⟩⟩, .never, .never⟩,
      ⟨⟨true, true, [1, 3, 2]⟩, ⟨⟨true, false, []⟩, ⟨true, true, [50, 46, 45, 44, 43, 42, 70, 69, 68, 71, 64, 63, 62, 61, 1, 3, 2]⟩⟩,
     .never, .never⟩,
      ⟨⟨true, true, [1, 3, 2]⟩, ⟨⟨true, false, []⟩, ⟨true, true, [50, 46, 45, 44, 43, 42, 70, 69, 68, 71, 1, 3, 2]⟩⟩, .never, .never⟩,
      ⟨⟨true, true, [1, 3, 2]⟩, ⟨⟨true, false, []⟩, ⟨true, true, [50, 46, 45, 44, 43, 42, 70, 69, 68, 1, 3, 2]⟩⟩, .never, .never⟩,
      ⟨⟨true, true, [1, 3, 2]⟩, ⟨⟨true, false, []⟩, ⟨true, true, [50, 46, 45, 44, 43, 42, 1, 3, 2]⟩⟩, .never, .never⟩,
      ⟨⟨true, true, [1, 3, 2]⟩, ⟨⟨true, false, []⟩, ⟨true, true, [50, 46, 45, 44, 1, 3, 2]⟩⟩, .never, .never⟩,
      ⟨⟨true, true, [1, 3, 2]⟩, ⟨⟨true, false, []⟩, ⟨true, true, [50, 46, 1, 3, 2]⟩⟩, .never, .never⟩,
      ⟨⟨true, true, [1, 3, 2]⟩, ⟨⟨true, false, []⟩, ⟨true, true, [50, 1, 3, 2]⟩⟩, .never, .never⟩,
      ⟨⟨true, true, [1, 3, 2]⟩, ⟨⟨true, false, []⟩, ⟨true, true, [1, 3, 2]⟩⟩, .never, .never⟩]
theorem elixir_firm : Elixir.parser.bare.firm elixirClaims true = true := by decide +kernel

/-- Claims about the functions of the parser of Go. -/
def goClaims : List Sum :=
  [⟨⟨true, true, [156, 157]⟩, ⟨⟨true, true, [157, 156, 156, 157]⟩, ⟨true, true, [157, 156, 156, 157]⟩⟩, .never, .never⟩,
      ⟨⟨false, true, [156, 157]⟩, ⟨.none_, ⟨true, true, [157, 156, 156, 157]⟩⟩, .never, .never⟩,
      ⟨⟨false, false, [67]⟩, ⟨.none_, ⟨true, true, [156, 157]⟩⟩, .never, .never⟩,
      ⟨⟨false, false, [64]⟩, ⟨.none_, ⟨true, true, [156, 157]⟩⟩, .never, .never⟩,
      ⟨⟨false, false, [60]⟩, ⟨.none_, ⟨true, true, [156, 157]⟩⟩, .never, .never⟩,
      ⟨⟨false, false, [74]⟩, ⟨.none_, ⟨true, true, [156, 157]⟩⟩, .never, .never⟩,
      ⟨⟨false, false, [53]⟩, ⟨.none_, ⟨true, true, [156, 157]⟩⟩, .never, .never⟩,
      ⟨⟨false, false, [73]⟩, ⟨.none_, ⟨true, true, [156, 157]⟩⟩, .never, .never⟩,
      ⟨⟨false, false, [63]⟩, ⟨.none_, ⟨true, true, [157, 156, 156, 157]⟩⟩, .never, .never⟩,
      ⟨⟨false, false, [59]⟩, ⟨.none_, ⟨true, true, [157, 156, 156, 157]⟩⟩, .never, .never⟩,
      ⟨⟨false, false, [72]⟩, ⟨.none_, ⟨true, true, [156, 157]⟩⟩, .never, .never⟩,
      ⟨⟨false, false, [69]⟩, ⟨.none_, ⟨true, true, [156, 157]⟩⟩, .never, .never⟩,
      ⟨⟨true, true, [157, 156, 156, 157]⟩, ⟨⟨true, false, []⟩, ⟨true, true, [156, 157]⟩⟩, .never, .never⟩,
      ⟨⟨true, true, [129, 103, 100, 105, 137, 99, 98, 156, 157]⟩, ⟨⟨true, false, []⟩, ⟨true, true, [156, 157]⟩⟩, .never, .never⟩,
      ⟨⟨true, true, [156, 157]⟩, ⟨⟨true, false, []⟩, ⟨true, true, [157, 156, 156, 157]⟩⟩, .never, .never⟩,
      ⟨⟨true, true, [156, 157]⟩, ⟨⟨true, false, []⟩, ⟨true, true, [153, 108, 103, 107, 106, 102, 101, 100, 105, 104, 99, 98, 141, 135,
     140, 134, 139, 133, 125, 126, 142, 136, 145, 157, 156, 156, 157]⟩⟩, .never, .never⟩,
      ⟨⟨true, true, [156, 157]⟩, ⟨⟨true, false, []⟩, ⟨true, true, [153, 108, 103, 107, 106, 102, 101, 100, 105, 104, 99, 98, 141, 135,
     140, 134, 139, 133, 125, 126, 142, 136, 145, 157, 156, 156, 157]⟩⟩, .never, .never⟩,
      ⟨⟨true, true, [156, 157]⟩, ⟨⟨true, false, []⟩, ⟨true, true, [153, 108, 103, 107, 106, 102, 101, 100, 105, 104, 99, 98, 141, 135,
     140, 134, 139, 133, 125, 145, 157, 156, 156, 157]⟩⟩, .never, .never⟩,
      ⟨⟨true, true, [156, 157]⟩, ⟨⟨true, false, []⟩, ⟨true, true, [153, 108, 103, 107, 106, 102, 101, 100, 105, 104, 99, 98, 141, 135,
     140, 134, 139, 133, 145, 157, 156, 156, 157]⟩⟩, .never, .never⟩,
      ⟨⟨true, true, [156, 157]⟩, ⟨⟨true, false, []⟩, ⟨true, true, [153, 108, 103, 107, 106, 102, 101, 100, 105, 104, 99, 98, 145, 157,
     156, 156, 157]⟩⟩, .never, .never⟩,
      ⟨⟨true, true, [156, 157]⟩, ⟨⟨true, false, []⟩, ⟨true, true, [153, 108, 103, 107, 106, 102, 101, 100, 145, 157, 156, 156, 157]⟩⟩,
     .never, .never⟩,
      ⟨⟨true, true, [156, 157]⟩, ⟨⟨true, false, []⟩, ⟨true, true, [153, 145, 157, 156, 156, 157]⟩⟩, .never, .never⟩,
      ⟨⟨true, true, [156, 157]⟩, ⟨⟨true, false, []⟩, ⟨true, true, [157, 156, 156, 157]⟩⟩, .never, .never⟩]
theorem go_firm : Go.parser.firm goClaims true = true := by decide +kernel

/-- Claims about the functions of the parser of Javascript. -/
def javascriptClaims : List Sum :=
  [⟨⟨true, true, []⟩, ⟨.none_, ⟨true, true, []⟩⟩, ⟨⟨true, false, []⟩, ⟨true, true, [101, 103, 95, 54, 53, 52, 51, 50, 68, 67, 66, 65, 74,
     75, 94, 93, 92, 91, 90, 89, 88, 87, 86, 85, 84, 83, 82, 81, 80, 79]⟩⟩, .never⟩,
      ⟨⟨false, false, [21]⟩, ⟨.none_, ⟨true, true, []⟩⟩, .never, .never⟩,
      ⟨⟨false, false, [45, 28, 8]⟩, ⟨.none_, ⟨true, true, []⟩⟩, .never, .never⟩,
      ⟨⟨false, false, [22]⟩, ⟨.none_, ⟨true, true, []⟩⟩, .never, .never⟩,
      ⟨⟨false, false, [47]⟩, ⟨.none_, ⟨true, true, []⟩⟩, .never, .never⟩,
      ⟨⟨false, false, [20]⟩, ⟨.none_, ⟨true, true, []⟩⟩, .never, .never⟩,
      ⟨⟨false, false, [35]⟩, ⟨.none_, ⟨true, true, []⟩⟩, .never, .never⟩,
      ⟨⟨true, true, []⟩, ⟨⟨true, false, []⟩, ⟨true, true, []⟩⟩, .never, .never⟩,
      ⟨⟨true, true, []⟩, ⟨⟨true, false, []⟩, ⟨true, true, []⟩⟩, .never, .never⟩,
      ⟨⟨true, true, []⟩, ⟨⟨true, false, []⟩, ⟨true, true, [103, 95, 54, 53, 52, 51, 50, 68, 67, 66, 65, 74, 75, 94, 93, 92, 91, 90, 89,
     88, 87, 86, 85, 84, 83, 82, 81, 80, 79]⟩⟩, .never, .never⟩,
      ⟨⟨true, true, []⟩, ⟨⟨true, false, []⟩, ⟨true, true, [103, 95, 54, 53, 52, 51, 50, 68, 67, 66, 65, 74, 75, 94, 93, 92, 91, 90, 89,
     88, 87, 86, 85, 84, 83, 82, 81, 80, 79]⟩⟩, .never, .never⟩,
      ⟨⟨true, true, []⟩, ⟨⟨true, false, []⟩, ⟨true, true, [103, 95, 54, 53, 52, 51, 50, 68, 67, 66, 65, 74]⟩⟩, .never, .never⟩,
      ⟨⟨true, true, []⟩, ⟨⟨true, false, []⟩, ⟨true, true, [103, 95, 54, 53, 52, 51, 50, 68, 67, 66, 65]⟩⟩, .never, .never⟩,
      ⟨⟨true, true, []⟩, ⟨⟨true, false, []⟩, ⟨true, true, [103, 95, 54, 53, 52, 51, 50]⟩⟩, .never, .never⟩,
      ⟨⟨true, true, []⟩, ⟨⟨true, false, []⟩, ⟨true, true, [103, 95, 54, 53, 52]⟩⟩, .never, .never⟩,
      ⟨⟨true, true, []⟩, ⟨⟨true, false, []⟩, ⟨true, true, [103, 95]⟩⟩, .never, .never⟩]
theorem javascript_firm : Javascript.parser.bare.firm javascriptClaims true = true := by decide +kernel

end Hand
end Oaks
