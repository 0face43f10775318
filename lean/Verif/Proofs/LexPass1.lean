import Verif.Model.HandLex.Actionscript
import Verif.Model.HandLex.Ada
import Verif.Model.HandLex.Apl
import Verif.Model.HandLex.AsciiDoc
import Verif.Model.HandLex.Bat
import Verif.Model.HandLex.Cmd
import Verif.Model.HandLex.Dart
import Verif.Model.HandLex.Delphi
import Verif.Model.HandLex.Elm
import Verif.Model.HandLex.Fortran
import Verif.Model.HandLex.Go
import Verif.Proofs.LexCodeCheck

/-! Lexers that pass the analysis of Proofs/LexCodeCheck.lean. -/
namespace Oaks.HandLex
open Lc

set_option maxRecDepth 100000

theorem actionscript_passes : passes ⟨true, false, true⟩ Actionscript.run_ = true := by decide +kernel
theorem ada_passes : passes ⟨true, true, true⟩ Ada.run_ = true := by decide +kernel
theorem apl_passes : passes ⟨true, true, true⟩ Apl.run_ = true := by decide +kernel
theorem asciiDoc_passes : passes ⟨true, false, true⟩ AsciiDoc.run_ = true := by decide +kernel
theorem bat_passes : passes ⟨true, true, true⟩ Bat.run_ = true := by decide +kernel
theorem cmd_passes : passes ⟨true, true, true⟩ Cmd.run_ = true := by decide +kernel
theorem dart_passes : passes ⟨true, false, true⟩ Dart.run_ = true := by decide +kernel
theorem delphi_passes : passes ⟨true, false, true⟩ Delphi.run_ = true := by decide +kernel
theorem elm_passes : passes ⟨true, false, true⟩ Elm.run_ = true := by decide +kernel
theorem fortran_passes : passes ⟨true, false, true⟩ Fortran.run_ = true := by decide +kernel
theorem go_passes : passes ⟨true, true, true⟩ Go.run_ = true := by decide +kernel

end Oaks.HandLex
