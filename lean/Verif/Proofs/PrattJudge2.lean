import Verif.Proofs.ProgBare
import Verif.Model.HandPratt.Mojo
import Verif.Model.HandPratt.Php
import Verif.Model.HandPratt.Ruby
import Verif.Model.HandPratt.Rust
import Verif.Model.HandPratt.Scala
import Verif.Model.HandPratt.Sql
import Verif.Model.HandPratt.Wolfram
import Verif.Model.HandPratt.Zig

/-
The verdicts of the analysis about the parsers with operator precedence, each computed by the kernel from claims about their functions:
what can be next when a function is called, and what is next when it ends. The claims are data; the check decides whether they hold.
-/
namespace Oaks
namespace Hand
open Prog

/-- Claims about the functions of the parser of Mojo. -/
def mojoClaims : List Sum :=
  [⟨⟨true, true, [47, 48, 49, 50, 51]⟩, ⟨⟨true, true, [49, 47, 47, 48, 49, 50, 51]⟩, ⟨true, true, [49, 47, 47, 48, 49, 50, 51]⟩⟩, .never,
     .never⟩,
      ⟨⟨true, true, [48, 49, 47, 47, 48, 49, 50, 51]⟩, .never, ⟨⟨true, false, []⟩, ⟨true, true, [48, 49, 47, 47, 48, 49, 50, 51]⟩⟩,
     ⟨.none_, ⟨true, true, [49, 47, 47, 48, 49, 50, 51]⟩⟩⟩,
      ⟨⟨false, false, [0]⟩, .never, .never, ⟨.none_, ⟨true, true, [49, 47, 47, 48, 49, 50, 51]⟩⟩⟩,
      ⟨⟨false, false, [2, 3]⟩, .never, ⟨.none_, ⟨true, true, [48, 49, 47, 47, 48, 49, 50, 51]⟩⟩, ⟨.none_, ⟨true, true, [17, 49, 47, 47,
     48, 49, 50, 51]⟩⟩⟩,
      ⟨⟨false, false, [4]⟩, .never, .never, ⟨.none_, ⟨true, true, [49, 47, 47, 48, 49, 50, 51]⟩⟩⟩,
      ⟨⟨false, false, [6]⟩, .never, .never, ⟨.none_, ⟨true, true, [49, 47, 47, 48, 49, 50, 51]⟩⟩⟩,
      ⟨⟨false, false, [9]⟩, .never, ⟨.none_, ⟨true, true, [48, 32, 31, 30, 29, 28, 27, 25, 24, 23, 22, 21, 49, 47, 47, 48, 49, 50,
     51]⟩⟩, .never⟩,
      ⟨⟨true, true, [9, 6, 4, 3, 2, 0, 48, 49, 47, 47, 48, 49, 50, 51]⟩, .never, ⟨⟨true, false, []⟩, ⟨true, true, [48, 32, 31, 30, 29,
     28, 27, 25, 24, 23, 22, 21, 49, 47, 47, 48, 49, 50, 51]⟩⟩, .never⟩,
      ⟨⟨true, true, [47, 48, 49, 50, 51]⟩, .never, .never, ⟨⟨true, true, [48, 47, 48, 49, 50, 51]⟩, ⟨true, true, [48, 49, 47, 47, 48,
     49, 50, 51]⟩⟩⟩,
      ⟨⟨true, true, [49, 47, 47, 48, 49, 50, 51]⟩, ⟨⟨true, false, []⟩, ⟨true, true, [32, 31, 30, 29, 28, 27, 25, 24, 23, 22, 21, 49, 47,
     47, 48, 49, 50, 51]⟩⟩, .never, .never⟩,
      ⟨⟨true, true, [47, 48, 49, 50, 51]⟩, ⟨⟨true, false, []⟩, ⟨true, true, [25, 24, 23, 49, 47, 47, 48, 49, 50, 51]⟩⟩, .never, .never⟩,
      ⟨⟨true, true, [47, 48, 49, 50, 51]⟩, ⟨⟨true, false, []⟩, ⟨true, true, [49, 47, 47, 48, 49, 50, 51]⟩⟩, .never, .never⟩,
      ⟨⟨true, true, [47, 48, 49, 50, 51]⟩, ⟨⟨true, false, []⟩, ⟨true, true, [25, 24, 23, 22, 21, 49, 47, 47, 48, 49, 50, 51]⟩⟩, .never,
     .never⟩,
      ⟨⟨true, true, [47, 48, 49, 50, 51]⟩, ⟨⟨true, false, []⟩, ⟨true, true, [47, 48, 49, 50, 51]⟩⟩, .never, .never⟩,
      ⟨⟨true, true, [47, 48, 49, 50, 51]⟩, ⟨⟨true, false, []⟩, ⟨true, true, [47, 48, 49, 50, 51]⟩⟩, .never, .never⟩,
      ⟨⟨true, true, [49, 47, 47, 48, 49, 50, 51]⟩, ⟨⟨true, false, []⟩, ⟨true, true, [32, 31, 30, 29, 28, 27, 25, 24, 23, 22, 21, 49, 47,
     47, 48, 49, 50, 51]⟩⟩, .never, .never⟩,
      ⟨⟨true, true, [47, 48, 49, 50, 51]⟩, ⟨⟨true, false, []⟩, ⟨true, true, [25, 24, 23, 22, 21, 49, 47, 47, 48, 49, 50, 51]⟩⟩, .never,
     .never⟩,
      ⟨⟨true, true, [47, 48, 49, 50, 51]⟩, ⟨⟨true, false, []⟩, ⟨true, true, [25, 24, 23, 49, 47, 47, 48, 49, 50, 51]⟩⟩, .never, .never⟩,
      ⟨⟨true, true, [47, 48, 49, 50, 51]⟩, ⟨⟨true, false, []⟩, ⟨true, true, [49, 47, 47, 48, 49, 50, 51]⟩⟩, .never, .never⟩]
theorem mojo_firm : Mojo.parser.firm mojoClaims false = true := by decide +kernel

/-- Claims about the functions of the parser of Php. -/
def phpClaims : List Sum :=
  [⟨⟨true, true, []⟩, ⟨⟨true, false, []⟩, ⟨true, true, []⟩⟩, .never, .never⟩,
      ⟨⟨true, true, []⟩, ⟨⟨true, false, []⟩, ⟨true, true, []⟩⟩, .never, .never⟩,
      ⟨⟨true, true, []⟩, ⟨.none_, ⟨true, true, []⟩⟩, ⟨⟨true, false, []⟩, ⟨true, true, [127, 116, 123, 121, 79, 78, 77, 81, 76, 75, 90,
     89, 88, 87, 86, 85, 84, 83, 82, 91, 92, 119, 113, 112, 111, 110, 109, 108, 107, 106, 105, 104, 103, 102, 101]⟩⟩, .never⟩,
      ⟨⟨false, false, [53]⟩, ⟨.none_, ⟨true, true, []⟩⟩, .never, .never⟩,
      ⟨⟨false, false, [69]⟩, ⟨.none_, ⟨true, true, []⟩⟩, .never, .never⟩,
      ⟨⟨false, false, [41]⟩, ⟨.none_, ⟨true, true, []⟩⟩, .never, .never⟩,
      ⟨⟨false, false, [17, 50, 66, 9, 37, 59, 57, 58, 63]⟩, ⟨.none_, ⟨true, true, []⟩⟩, ⟨.none_, ⟨true, false, []⟩⟩, .never⟩,
      ⟨⟨false, false, [44]⟩, ⟨.none_, ⟨true, true, []⟩⟩, .never, .never⟩,
      ⟨⟨false, false, [71]⟩, ⟨.none_, ⟨true, true, []⟩⟩, .never, .never⟩,
      ⟨⟨false, false, [39]⟩, ⟨.none_, ⟨true, true, []⟩⟩, .never, .never⟩,
      ⟨⟨false, false, [40]⟩, ⟨.none_, ⟨true, true, []⟩⟩, .never, .never⟩,
      ⟨⟨true, true, []⟩, ⟨⟨true, false, []⟩, ⟨true, true, []⟩⟩, .never, .never⟩,
      ⟨⟨false, false, [62]⟩, ⟨.none_, ⟨true, true, []⟩⟩, .never, .never⟩,
      ⟨⟨false, false, [24]⟩, ⟨.none_, ⟨true, true, []⟩⟩, .never, .never⟩,
      ⟨⟨true, true, [125, 24, 62, 40, 39, 71, 44, 41, 63, 58, 57, 59, 37, 9, 66, 50, 17, 69, 53]⟩, ⟨.none_, ⟨true, true, []⟩⟩, ⟨⟨true,
     false, []⟩, ⟨true, true, [127, 116, 123, 121, 79, 78, 77, 81, 76, 75, 90, 89, 88, 87, 86, 85, 84, 83, 82, 91, 92, 119, 113, 112,
     111, 110, 109, 108, 107, 106, 105, 104, 103, 102, 101]⟩⟩, .never⟩,
      ⟨⟨true, true, []⟩, ⟨⟨true, false, []⟩, ⟨true, true, [116, 123, 121, 79, 78, 77, 81, 76, 75, 90, 89, 88, 87, 86, 85, 84, 83, 82,
     91, 92, 119, 113, 112, 111, 110, 109, 108, 107, 106, 105, 104, 103, 102, 101]⟩⟩, .never, .never⟩,
      ⟨⟨true, true, []⟩, ⟨⟨true, false, []⟩, ⟨true, true, [116, 123, 121, 79, 78, 77, 81, 76, 75, 90, 89, 88, 87, 86, 85, 84, 83, 82,
     91, 92, 119, 113, 112, 111, 110, 109, 108, 107, 106, 105, 104, 103, 102, 101]⟩⟩, .never, .never⟩,
      ⟨⟨true, true, []⟩, ⟨⟨true, false, []⟩, ⟨true, true, [116, 123, 121, 79, 78, 77, 81, 76, 75, 90, 89, 88, 87, 86, 85, 84, 83, 82,
     91]⟩⟩, .never, .never⟩,
      ⟨⟨true, true, []⟩, ⟨⟨true, false, []⟩, ⟨true, true, [116, 123, 121, 79, 78, 77, 81, 76, 75, 90, 89, 88, 87, 86, 85, 84, 83, 82]⟩⟩,
     .never, .never⟩,
      ⟨⟨true, true, []⟩, ⟨⟨true, false, []⟩, ⟨true, true, [116, 123, 121, 79, 78, 77, 81, 76, 75]⟩⟩, .never, .never⟩,
      ⟨⟨true, true, []⟩, ⟨⟨true, false, []⟩, ⟨true, true, [116, 123, 121, 79, 78, 77]⟩⟩, .never, .never⟩,
      ⟨⟨true, true, []⟩, ⟨⟨true, false, []⟩, ⟨true, true, [116, 123, 121]⟩⟩, .never, .never⟩]
theorem php_firm : Php.parser.bare.firm phpClaims true = true := by decide +kernel

/-- Claims about the functions of the parser of Ruby. -/
def rubyClaims : List Sum :=
  [⟨⟨false, true, [112, 111, 110, 110, 111, 112]⟩, ⟨.none_, ⟨true, true, [110, 111, 112]⟩⟩, ⟨.none_, ⟨true, true, [111, 110, 111, 112]⟩⟩,
     .never⟩,
      ⟨⟨false, false, [27]⟩, ⟨.none_, ⟨true, true, [110, 111, 112]⟩⟩, .never, .never⟩,
      ⟨⟨true, true, [110, 111, 112]⟩, ⟨.none_, ⟨true, true, [110, 111, 112]⟩⟩, ⟨⟨true, false, [35, 34, 13, 14]⟩, ⟨true, false, [35, 34,
     13, 14]⟩⟩, .never⟩,
      ⟨⟨false, false, [28]⟩, ⟨.none_, ⟨true, true, [110, 111, 112]⟩⟩, .never, .never⟩,
      ⟨⟨false, false, [29]⟩, ⟨.none_, ⟨true, true, [110, 111, 112]⟩⟩, .never, .never⟩,
      ⟨⟨false, false, [11]⟩, ⟨.none_, ⟨true, true, [110, 111, 112]⟩⟩, .never, .never⟩,
      ⟨⟨false, false, [19]⟩, ⟨.none_, ⟨true, true, [110, 111, 112]⟩⟩, .never, .never⟩,
      ⟨⟨false, false, [25]⟩, ⟨.none_, ⟨true, true, [89, 88, 66, 65, 64, 63, 62, 61, 56, 55, 59, 58, 57, 60, 110, 111, 112]⟩⟩, .never,
     .never⟩,
      ⟨⟨true, true, [80, 44, 56, 55, 110, 111, 112]⟩, ⟨⟨true, false, []⟩, ⟨true, true, [110, 111, 112]⟩⟩, .never, .never⟩,
      ⟨⟨true, true, [110, 111, 112]⟩, ⟨⟨true, false, []⟩, ⟨true, true, [110, 111, 112]⟩⟩, .never, .never⟩,
      ⟨⟨true, true, [112, 111, 110, 110, 111, 112]⟩, ⟨⟨true, false, []⟩, ⟨true, true, [89, 88, 66, 65, 64, 63, 62, 61, 56, 55, 59, 58,
     57, 60, 110, 111, 112]⟩⟩, .never, .never⟩,
      ⟨⟨true, true, [110, 111, 112]⟩, ⟨⟨true, false, []⟩, ⟨true, true, [88, 66, 65, 64, 63, 62, 61, 56, 55, 59, 58, 57, 60, 110, 111,
     112]⟩⟩, .never, .never⟩,
      ⟨⟨true, true, [110, 111, 112]⟩, ⟨⟨true, false, []⟩, ⟨true, true, [66, 65, 64, 63, 62, 61, 56, 55, 59, 58, 57, 60, 110, 111,
     112]⟩⟩, .never, .never⟩,
      ⟨⟨true, true, [110, 111, 112]⟩, ⟨⟨true, false, []⟩, ⟨true, true, [56, 55, 59, 58, 57, 60, 110, 111, 112]⟩⟩, .never, .never⟩,
      ⟨⟨true, true, [110, 111, 112]⟩, ⟨⟨true, false, []⟩, ⟨true, true, [59, 58, 57, 60, 110, 111, 112]⟩⟩, .never, .never⟩,
      ⟨⟨true, true, [110, 111, 112]⟩, ⟨⟨true, false, []⟩, ⟨true, true, [59, 58, 57, 60, 110, 111, 112]⟩⟩, .never, .never⟩,
      ⟨⟨true, true, [110, 111, 112]⟩, ⟨⟨true, false, []⟩, ⟨true, true, [60, 110, 111, 112]⟩⟩, .never, .never⟩,
      ⟨⟨true, true, [110, 111, 112]⟩, ⟨⟨true, false, []⟩, ⟨true, true, [60, 110, 111, 112]⟩⟩, .never, .never⟩]
theorem ruby_firm : Ruby.parser.firm rubyClaims true = true := by decide +kernel

/-- Claims about the functions of the parser of Rust. -/
def rustClaims : List Sum :=
  [⟨⟨true, true, [84, 88, 91, 83, 136, 135, 137, 138]⟩, ⟨⟨true, false, []⟩, ⟨true, true, [136, 135, 137, 138]⟩⟩, .never, .never⟩,
      ⟨⟨true, true, [136, 135, 137, 138]⟩, ⟨⟨true, false, []⟩, ⟨true, true, [136, 135, 137, 138]⟩⟩, .never, .never⟩,
      ⟨⟨false, true, [138, 137, 135, 136, 136, 135, 137, 138]⟩, ⟨.none_, ⟨true, true, [136, 135, 137, 138]⟩⟩, ⟨.none_, ⟨true, true, [69,
     71, 67, 63, 86, 85, 84, 83, 82, 108, 107, 88, 87, 89, 100, 94, 99, 93, 98, 97, 103, 104, 74, 72, 118, 117, 114, 116, 115, 113, 112,
     111, 110, 109, 92, 136, 135, 137, 138]⟩⟩, .never⟩,
      ⟨⟨false, false, [9]⟩, ⟨.none_, ⟨true, true, [136, 135, 137, 138]⟩⟩, .never, .never⟩,
      ⟨⟨false, false, [32]⟩, ⟨.none_, ⟨true, true, [136, 135, 137, 138]⟩⟩, .never, .never⟩,
      ⟨⟨false, false, [17]⟩, ⟨.none_, ⟨true, true, [136, 135, 137, 138]⟩⟩, .never, .never⟩,
      ⟨⟨false, false, [26]⟩, ⟨.none_, ⟨true, true, [136, 135, 137, 138]⟩⟩, .never, .never⟩,
      ⟨⟨false, false, [6]⟩, ⟨.none_, ⟨true, true, [136, 135, 137, 138]⟩⟩, .never, .never⟩,
      ⟨⟨false, false, [14]⟩, ⟨.none_, ⟨true, true, [136, 135, 137, 138]⟩⟩, .never, .never⟩,
      ⟨⟨false, false, [11]⟩, ⟨.none_, ⟨true, true, [136, 135, 137, 138]⟩⟩, .never, .never⟩,
      ⟨⟨false, false, [34]⟩, ⟨.none_, ⟨true, true, [136, 135, 137, 138]⟩⟩, .never, .never⟩,
      ⟨⟨false, false, [15]⟩, ⟨.none_, ⟨true, true, [136, 135, 137, 138]⟩⟩, .never, .never⟩,
      ⟨⟨false, false, [10]⟩, ⟨.none_, ⟨true, true, [136, 135, 137, 138]⟩⟩, .never, .never⟩,
      ⟨⟨false, false, [22]⟩, ⟨.none_, ⟨true, true, [136, 135, 137, 138]⟩⟩, .never, .never⟩,
      ⟨⟨false, false, [65]⟩, ⟨.none_, ⟨true, true, [136, 135, 137, 138]⟩⟩, .never, .never⟩,
      ⟨⟨false, false, [9]⟩, ⟨.none_, ⟨true, true, [136, 135, 137, 138]⟩⟩, .never, .never⟩,
      ⟨⟨true, true, [136, 135, 137, 138]⟩, ⟨⟨true, false, []⟩, ⟨true, true, [136, 135, 137, 138]⟩⟩, .never, .never⟩,
      ⟨⟨true, true, [136, 135, 137, 138]⟩, ⟨⟨true, false, []⟩, ⟨true, true, [136, 135, 137, 138]⟩⟩, .never, .never⟩,
      ⟨⟨false, false, [32]⟩, ⟨.none_, ⟨true, true, [136, 135, 137, 138]⟩⟩, .never, .never⟩,
      ⟨⟨false, false, [17]⟩, ⟨.none_, ⟨true, true, [136, 135, 137, 138]⟩⟩, .never, .never⟩,
      ⟨⟨false, false, [26]⟩, ⟨.none_, ⟨true, true, [136, 135, 137, 138]⟩⟩, .never, .never⟩,
      ⟨⟨false, false, [6]⟩, ⟨.none_, ⟨true, true, [136, 135, 137, 138]⟩⟩, .never, .never⟩,
      ⟨⟨false, false, [14]⟩, ⟨.none_, ⟨true, true, [136, 135, 137, 138]⟩⟩, .never, .never⟩,
      ⟨⟨false, false, [11]⟩, ⟨.none_, ⟨true, true, [136, 135, 137, 138]⟩⟩, .never, .never⟩,
      ⟨⟨false, false, [34]⟩, ⟨.none_, ⟨true, true, [136, 135, 137, 138]⟩⟩, .never, .never⟩,
      ⟨⟨false, false, [15]⟩, ⟨.none_, ⟨true, true, [136, 135, 137, 138]⟩⟩, .never, .never⟩,
      ⟨⟨false, false, [10]⟩, ⟨.none_, ⟨true, true, [136, 135, 137, 138]⟩⟩, .never, .never⟩,
      ⟨⟨false, false, [22]⟩, ⟨.none_, ⟨true, true, [136, 135, 137, 138]⟩⟩, .never, .never⟩,
      ⟨⟨true, true, [136, 135, 137, 138]⟩, ⟨⟨true, false, []⟩, ⟨true, true, [71, 67, 63, 86, 85, 84, 83, 82, 108, 107, 88, 87, 89, 100,
     94, 99, 93, 98, 97, 103, 104, 74, 72, 118, 117, 114, 116, 115, 113, 112, 111, 110, 109, 92, 136, 135, 137, 138]⟩⟩, .never, .never⟩,
      ⟨⟨true, true, [136, 135, 137, 138]⟩, ⟨⟨true, false, []⟩, ⟨true, true, [71, 67, 63, 86, 85, 84, 83, 82, 108, 107, 88, 87, 89, 100,
     94, 99, 93, 98, 97, 103, 104, 74, 72, 118, 117, 114, 116, 115, 113, 112, 111, 110, 109, 92, 136, 135, 137, 138]⟩⟩, .never, .never⟩,
      ⟨⟨true, true, [136, 135, 137, 138]⟩, ⟨⟨true, false, []⟩, ⟨true, true, [71, 67, 63, 86, 85, 84, 83, 82, 108, 107, 88, 87, 89, 100,
     94, 99, 93, 98, 97, 103, 104, 136, 135, 137, 138]⟩⟩, .never, .never⟩,
      ⟨⟨true, true, [136, 135, 137, 138]⟩, ⟨⟨true, false, []⟩, ⟨true, true, [71, 67, 63, 86, 85, 84, 83, 82, 108, 107, 88, 87, 89, 100,
     94, 99, 93, 98, 97, 103, 136, 135, 137, 138]⟩⟩, .never, .never⟩,
      ⟨⟨true, true, [136, 135, 137, 138]⟩, ⟨⟨true, false, []⟩, ⟨true, true, [71, 67, 63, 86, 85, 84, 83, 82, 108, 107, 88, 87, 89, 100,
     94, 99, 93, 98, 97, 136, 135, 137, 138]⟩⟩, .never, .never⟩,
      ⟨⟨true, true, [136, 135, 137, 138]⟩, ⟨⟨true, false, []⟩, ⟨true, true, [71, 67, 63, 86, 85, 84, 83, 82, 108, 107, 88, 87, 89, 100,
     94, 99, 93, 136, 135, 137, 138]⟩⟩, .never, .never⟩,
      ⟨⟨true, true, [136, 135, 137, 138]⟩, ⟨⟨true, false, []⟩, ⟨true, true, [71, 67, 63, 86, 85, 84, 83, 82, 108, 107, 88, 87, 89, 136,
     135, 137, 138]⟩⟩, .never, .never⟩,
      ⟨⟨true, true, [136, 135, 137, 138]⟩, ⟨⟨true, false, []⟩, ⟨true, true, [71, 67, 63, 86, 85, 84, 83, 82, 108, 107, 88, 87, 136, 135,
     137, 138]⟩⟩, .never, .never⟩,
      ⟨⟨true, true, [136, 135, 137, 138]⟩, ⟨⟨true, false, []⟩, ⟨true, true, [71, 67, 63, 86, 85, 84, 83, 82, 108, 107, 88, 136, 135,
     137, 138]⟩⟩, .never, .never⟩,
      ⟨⟨true, true, [136, 135, 137, 138]⟩, ⟨⟨true, false, []⟩, ⟨true, true, [71, 67, 63, 86, 85, 84, 83, 82, 108, 107, 136, 135, 137,
     138]⟩⟩, .never, .never⟩,
      ⟨⟨true, true, [136, 135, 137, 138]⟩, ⟨⟨true, false, []⟩, ⟨true, true, [71, 67, 63, 86, 85, 84, 83, 82, 136, 135, 137, 138]⟩⟩,
     .never, .never⟩,
      ⟨⟨true, true, [136, 135, 137, 138]⟩, ⟨⟨true, false, []⟩, ⟨true, true, [71, 67, 63, 86, 85, 84, 136, 135, 137, 138]⟩⟩, .never,
     .never⟩,
      ⟨⟨true, true, [136, 135, 137, 138]⟩, ⟨⟨true, false, []⟩, ⟨true, true, [71, 67, 63, 136, 135, 137, 138]⟩⟩, .never, .never⟩]
theorem rust_firm : Rust.parser.bare.firm rustClaims true = true := by decide +kernel

/-- Claims about the functions of the parser of Scala. -/
def scalaClaims : List Sum :=
  []
theorem scala_firm : Scala.parser.firm scalaClaims true = true := by decide +kernel

/-- Claims about the functions of the parser of Sql. -/
def sqlClaims : List Sum :=
  [⟨⟨true, true, [19, 20, 21, 22, 23]⟩, ⟨⟨true, false, []⟩, ⟨true, true, [19, 20, 21, 22, 23]⟩⟩, .never, .never⟩,
      ⟨⟨true, true, [19, 20, 21, 22, 23]⟩, ⟨⟨true, false, []⟩, ⟨true, true, [19, 20, 21, 22, 23]⟩⟩, .never, .never⟩,
      ⟨⟨false, true, [23, 22, 21, 20, 19, 19, 20, 21, 22, 23]⟩, ⟨.none_, ⟨true, true, [19, 20, 21, 22, 23]⟩⟩, ⟨.none_, ⟨true, false,
     []⟩⟩, .never⟩,
      ⟨⟨false, false, [30]⟩, ⟨.none_, ⟨true, true, [19, 20, 21, 22, 23]⟩⟩, .never, .never⟩,
      ⟨⟨false, false, [33]⟩, ⟨.none_, ⟨true, true, [19, 20, 21, 22, 23]⟩⟩, .never, .never⟩,
      ⟨⟨false, false, [36]⟩, ⟨.none_, ⟨true, true, [19, 20, 21, 22, 23]⟩⟩, .never, .never⟩,
      ⟨⟨false, false, [38]⟩, ⟨.none_, ⟨true, true, [19, 20, 21, 22, 23]⟩⟩, .never, .never⟩,
      ⟨⟨false, false, [39]⟩, ⟨.none_, ⟨true, true, [19, 20, 21, 22, 23]⟩⟩, .never, .never⟩,
      ⟨⟨false, false, [41]⟩, ⟨.none_, ⟨true, true, [19, 20, 21, 22, 23]⟩⟩, .never, .never⟩,
      ⟨⟨false, false, [42]⟩, ⟨.none_, ⟨true, true, [19, 20, 21, 22, 23]⟩⟩, .never, .never⟩,
      ⟨⟨true, true, [19, 20, 21, 22, 23]⟩, ⟨⟨true, false, []⟩, ⟨true, true, [117, 116, 115, 114, 113, 60, 59, 57, 58, 123, 122, 121,
     120, 119, 118, 55, 56, 19, 20, 21, 22, 23]⟩⟩, .never, .never⟩,
      ⟨⟨true, true, [19, 20, 21, 22, 23]⟩, ⟨⟨true, false, []⟩, ⟨true, true, [117, 116, 115, 114, 113, 60, 59, 57, 58, 123, 122, 121,
     120, 119, 118, 55, 19, 20, 21, 22, 23]⟩⟩, .never, .never⟩,
      ⟨⟨true, true, [19, 20, 21, 22, 23]⟩, ⟨⟨true, false, []⟩, ⟨true, true, [117, 116, 115, 114, 113, 60, 59, 57, 58, 123, 122, 121,
     120, 119, 118, 19, 20, 21, 22, 23]⟩⟩, .never, .never⟩,
      ⟨⟨true, true, [19, 20, 21, 22, 23]⟩, ⟨⟨true, false, []⟩, ⟨true, true, [117, 116, 115, 114, 113, 19, 20, 21, 22, 23]⟩⟩, .never,
     .never⟩,
      ⟨⟨true, true, [19, 20, 21, 22, 23]⟩, ⟨⟨true, false, []⟩, ⟨true, true, [117, 116, 115, 19, 20, 21, 22, 23]⟩⟩, .never, .never⟩,
      ⟨⟨true, true, [19, 20, 21, 22, 23]⟩, ⟨⟨true, false, []⟩, ⟨true, true, [19, 20, 21, 22, 23]⟩⟩, .never, .never⟩]
theorem sql_firm : Sql.parser.firm sqlClaims true = true := by decide +kernel

/-- Claims about the functions of the parser of Wolfram. -/
def wolframClaims : List Sum :=
  [⟨⟨true, true, []⟩, ⟨⟨true, false, []⟩, ⟨true, true, [41, 56, 55, 54, 53, 51, 40, 39, 38, 37, 47, 46, 45, 44, 43, 42, 48, 49, 52, 77,
     23, 22, 25, 24, 62, 85, 57]⟩⟩, .never, .never⟩,
      ⟨⟨true, true, []⟩, ⟨⟨true, false, []⟩, ⟨true, true, [41, 56, 55, 54, 53, 51, 40, 39, 38, 37, 47, 46, 45, 44, 43, 42, 48, 49, 52,
     77, 23, 22, 25, 24, 62, 85, 57]⟩⟩, .never, .never⟩,
      ⟨⟨true, true, []⟩, ⟨⟨true, false, []⟩, ⟨true, true, [41, 56, 55, 54, 53, 51, 85]⟩⟩, .never, .never⟩,
      ⟨⟨true, true, []⟩, ⟨⟨true, false, []⟩, ⟨true, true, [41, 56, 55, 54, 53, 85]⟩⟩, .never, .never⟩,
      ⟨⟨true, true, []⟩, ⟨⟨true, false, []⟩, ⟨true, true, [41, 85]⟩⟩, .never, .never⟩,
      ⟨⟨true, true, []⟩, ⟨⟨true, false, []⟩, ⟨true, true, [85]⟩⟩, .never, .never⟩,
      ⟨⟨true, true, []⟩, ⟨⟨true, false, []⟩, ⟨true, true, [41, 56, 55, 54, 53, 51, 40, 39, 38, 37, 47, 46, 45, 44, 43, 42, 48, 49, 52,
     77, 23, 22, 25, 24, 62, 85]⟩⟩, .never, .never⟩,
      ⟨⟨true, true, []⟩, ⟨⟨true, false, []⟩, ⟨true, true, [41, 56, 55, 54, 53, 51, 40, 39, 38, 37, 47, 46, 45, 44, 43, 42, 48, 49, 52,
     77, 23, 22, 85]⟩⟩, .never, .never⟩,
      ⟨⟨true, true, []⟩, ⟨⟨true, false, []⟩, ⟨true, true, [41, 56, 55, 54, 53, 51, 40, 39, 38, 37, 47, 46, 45, 44, 43, 42, 48, 49,
     85]⟩⟩, .never, .never⟩,
      ⟨⟨true, true, []⟩, ⟨⟨true, false, []⟩, ⟨true, true, [41, 56, 55, 54, 53, 51, 40, 39, 38, 37, 47, 46, 45, 44, 43, 42, 48, 85]⟩⟩,
     .never, .never⟩,
      ⟨⟨true, true, []⟩, ⟨⟨true, false, []⟩, ⟨true, true, [41, 56, 55, 54, 53, 51, 40, 39, 38, 37, 47, 46, 45, 44, 43, 42, 85]⟩⟩,
     .never, .never⟩,
      ⟨⟨true, true, []⟩, ⟨⟨true, false, []⟩, ⟨true, true, [41, 56, 55, 54, 53, 51, 40, 39, 38, 37, 85]⟩⟩, .never, .never⟩,
      ⟨⟨true, true, []⟩, ⟨⟨true, false, []⟩, ⟨true, true, [41, 56, 55, 54, 53, 51, 40, 39, 85]⟩⟩, .never, .never⟩,
      ⟨⟨true, true, []⟩, ⟨⟨true, false, []⟩, ⟨true, true, [41, 56, 55, 54, 53, 51, 85]⟩⟩, .never, .never⟩,
      ⟨⟨false, false, [69]⟩, ⟨.none_, ⟨true, true, []⟩⟩, .never, .never⟩,
      ⟨⟨false, false, [71]⟩, ⟨.none_, ⟨true, true, []⟩⟩, .never, .never⟩,
      ⟨⟨true, true, [85, 38]⟩, ⟨⟨true, false, []⟩, ⟨true, true, []⟩⟩, .never, .never⟩,
      ⟨⟨true, true, []⟩, ⟨⟨true, false, []⟩, ⟨true, true, []⟩⟩, .never, .never⟩,
      ⟨⟨true, true, []⟩, ⟨⟨true, false, []⟩, ⟨true, true, [41, 56, 55, 54, 53, 51, 40, 39, 38, 37, 47, 46, 45, 44, 43, 42, 48, 49, 52,
     77, 23, 22, 25, 24, 62, 85, 57]⟩⟩, .never, .never⟩,
      ⟨⟨true, true, []⟩, ⟨⟨true, false, []⟩, ⟨true, true, [41, 56, 55, 54, 53, 51, 40, 39, 38, 37, 47, 46, 45, 44, 43, 42, 48, 49, 52,
     77, 23, 22, 25, 24, 62, 85]⟩⟩, .never, .never⟩,
      ⟨⟨true, true, []⟩, ⟨⟨true, false, []⟩, ⟨true, true, [41, 56, 55, 54, 53, 51, 40, 39, 38, 37, 47, 46, 45, 44, 43, 42, 48, 49, 52,
     77, 23, 22, 85]⟩⟩, .never, .never⟩,
      ⟨⟨true, true, []⟩, ⟨⟨true, false, []⟩, ⟨true, true, [41, 56, 55, 54, 53, 51, 40, 39, 38, 37, 47, 46, 45, 44, 43, 42, 48, 49,
     85]⟩⟩, .never, .never⟩,
      ⟨⟨true, true, []⟩, ⟨⟨true, false, []⟩, ⟨true, true, [41, 56, 55, 54, 53, 51, 40, 39, 38, 37, 47, 46, 45, 44, 43, 42, 48, 85]⟩⟩,
     .never, .never⟩,
      ⟨⟨true, true, []⟩, ⟨⟨true, false, []⟩, ⟨true, true, [41, 56, 55, 54, 53, 51, 40, 39, 38, 37, 47, 46, 45, 44, 43, 42, 85]⟩⟩,
     .never, .never⟩,
      ⟨⟨true, true, []⟩, ⟨⟨true, false, []⟩, ⟨true, true, [41, 56, 55, 54, 53, 51, 40, 39, 38, 37, 85]⟩⟩, .never, .never⟩,
      ⟨⟨true, true, []⟩, ⟨⟨true, false, []⟩, ⟨true, true, [41, 56, 55, 54, 53, 51, 40, 39, 85]⟩⟩, .never, .never⟩,
      ⟨⟨true, true, []⟩, ⟨⟨true, false, []⟩, ⟨true, true, [41, 56, 55, 54, 53, 51, 85]⟩⟩, .never, .never⟩,
      ⟨⟨true, true, []⟩, ⟨⟨true, false, []⟩, ⟨true, true, [41, 56, 55, 54, 53, 51, 85]⟩⟩, .never, .never⟩,
      ⟨⟨true, true, []⟩, ⟨⟨true, false, []⟩, ⟨true, true, [41, 56, 55, 54, 53, 85]⟩⟩, .never, .never⟩,
      ⟨⟨true, true, []⟩, ⟨⟨true, false, []⟩, ⟨true, true, [41, 85]⟩⟩, .never, .never⟩,
      ⟨⟨true, true, []⟩, ⟨⟨true, false, []⟩, ⟨true, true, [85]⟩⟩, .never, .never⟩]
theorem wolfram_firm : Wolfram.parser.firm wolframClaims true = true := by decide +kernel

/-- Claims about the functions of the parser of Zig. -/
def zigClaims : List Sum :=
  [⟨⟨true, true, [148, 147, 102, 142, 105, 92, 1, 2, 3, 4]⟩, ⟨⟨true, false, []⟩, ⟨true, true, [1, 2, 3, 4]⟩⟩, .never, .never⟩,
      ⟨⟨true, true, [1, 2, 3, 4]⟩, ⟨⟨true, false, []⟩, ⟨true, true, [1, 2, 3, 4]⟩⟩, .never, .never⟩,
      ⟨⟨true, true, [1, 2, 3, 4]⟩, ⟨.none_, ⟨true, true, [1, 2, 3, 4]⟩⟩, ⟨⟨true, false, []⟩, ⟨true, true, [133, 131, 127, 135, 145, 146,
     96, 99, 95, 94, 93, 100, 98, 97, 92, 91, 113, 112, 111, 110, 109, 108, 114, 55, 115, 56, 126, 125, 124, 123, 122, 121, 120, 119,
     118, 117, 116, 1, 2, 3, 4]⟩⟩, .never⟩,
      ⟨⟨false, false, [15]⟩, ⟨.none_, ⟨true, true, [1, 2, 3, 4]⟩⟩, .never, .never⟩,
      ⟨⟨false, false, [13, 14]⟩, ⟨.none_, ⟨true, true, [1, 2, 3, 4]⟩⟩, .never, .never⟩,
      ⟨⟨false, false, [31]⟩, ⟨.none_, ⟨true, true, [1, 2, 3, 4]⟩⟩, .never, .never⟩,
      ⟨⟨false, false, [34]⟩, ⟨.none_, ⟨true, true, [1, 2, 3, 4]⟩⟩, .never, .never⟩,
      ⟨⟨false, false, [35]⟩, ⟨.none_, ⟨true, true, [1, 2, 3, 4]⟩⟩, .never, .never⟩,
      ⟨⟨false, false, [38]⟩, ⟨.none_, ⟨true, true, [1, 2, 3, 4]⟩⟩, .never, .never⟩,
      ⟨⟨true, false, [129]⟩, ⟨⟨true, false, []⟩, ⟨true, true, [1, 2, 3, 4]⟩⟩, .never, .never⟩,
      ⟨⟨true, true, [1, 2, 3, 4]⟩, ⟨⟨true, false, []⟩, ⟨true, true, [131, 127, 135, 145, 146, 96, 99, 95, 94, 93, 100, 98, 97, 92, 91,
     113, 112, 111, 110, 109, 108, 114, 55, 115, 56, 126, 125, 124, 123, 122, 121, 120, 119, 118, 117, 116, 1, 2, 3, 4]⟩⟩, .never,
     .never⟩,
      ⟨⟨true, true, [1, 2, 3, 4]⟩, ⟨⟨true, false, []⟩, ⟨true, true, [131, 127, 135, 145, 146, 96, 99, 95, 94, 93, 100, 98, 97, 92, 91,
     113, 112, 111, 110, 109, 108, 114, 55, 115, 56, 126, 125, 124, 123, 122, 121, 120, 119, 118, 117, 116, 1, 2, 3, 4]⟩⟩, .never,
     .never⟩,
      ⟨⟨true, true, [1, 2, 3, 4]⟩, ⟨⟨true, false, []⟩, ⟨true, true, [131, 127, 135, 145, 146, 96, 99, 95, 94, 93, 100, 98, 97, 92, 91,
     113, 112, 111, 110, 109, 108, 114, 55, 1, 2, 3, 4]⟩⟩, .never, .never⟩,
      ⟨⟨true, true, [1, 2, 3, 4]⟩, ⟨⟨true, false, []⟩, ⟨true, true, [131, 127, 135, 145, 146, 96, 99, 95, 94, 93, 100, 98, 97, 92, 91,
     113, 112, 111, 110, 109, 108, 1, 2, 3, 4]⟩⟩, .never, .never⟩,
      ⟨⟨true, true, [1, 2, 3, 4]⟩, ⟨⟨true, false, []⟩, ⟨true, true, [131, 127, 135, 145, 146, 96, 99, 95, 94, 93, 100, 98, 97, 92, 91,
     1, 2, 3, 4]⟩⟩, .never, .never⟩,
      ⟨⟨true, true, [1, 2, 3, 4]⟩, ⟨⟨true, false, []⟩, ⟨true, true, [131, 127, 135, 145, 146, 96, 99, 95, 94, 93, 1, 2, 3, 4]⟩⟩, .never,
     .never⟩,
      ⟨⟨true, true, [1, 2, 3, 4]⟩, ⟨⟨true, false, []⟩, ⟨true, true, [131, 127, 135, 145, 146, 1, 2, 3, 4]⟩⟩, .never, .never⟩,
      ⟨⟨true, true, [1, 2, 3, 4]⟩, ⟨⟨true, false, []⟩, ⟨true, true, [1, 2, 3, 4]⟩⟩, .never, .never⟩]
theorem zig_firm : Zig.parser.bare.firm zigClaims true = true := by decide +kernel

end Hand
end Oaks
