import Verif.Model.HandLex.Nim
import Verif.Model.HandLex.ObjectiveC
import Verif.Model.HandLex.Ocaml
import Verif.Model.HandLex.OrgMode
import Verif.Model.HandLex.Pascal
import Verif.Model.HandLex.Perl
import Verif.Model.HandLex.Php
import Verif.Model.HandLex.Powershell
import Verif.Model.HandLex.Protobuf
import Verif.Model.HandLex.Smalltalk
import Verif.Model.HandLex.Sql
import Verif.Proofs.LexCodeCheck

/-! Lexers that pass the analysis of Proofs/LexCodeCheck.lean. -/
namespace Oaks.HandLex
open Lc

set_option maxRecDepth 100000

theorem nim_passes : passes ⟨true, true, true⟩ Nim.run_ = true := by decide +kernel
theorem objectiveC_passes : passes ⟨true, true, true⟩ ObjectiveC.run_ = true := by decide +kernel
theorem ocaml_passes : passes ⟨true, false, true⟩ Ocaml.run_ = true := by decide +kernel
theorem orgMode_passes : passes ⟨true, true, true⟩ OrgMode.run_ = true := by decide +kernel
theorem pascal_passes : passes ⟨true, true, true⟩ Pascal.run_ = true := by decide +kernel
theorem perl_passes : passes ⟨true, true, true⟩ Perl.run_ = true := by decide +kernel
theorem php_passes : passes ⟨true, true, true⟩ Php.run_ = true := by decide +kernel
theorem powershell_passes : passes ⟨true, true, false⟩ Powershell.run_ = true := by decide +kernel
theorem protobuf_passes : passes ⟨true, true, false⟩ Protobuf.run_ = true := by decide +kernel
theorem smalltalk_passes : passes ⟨true, true, true⟩ Smalltalk.run_ = true := by decide +kernel
theorem sql_passes : passes ⟨true, false, true⟩ Sql.run_ = true := by decide +kernel

end Oaks.HandLex
