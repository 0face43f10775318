import Verif.Model.HandLex.Graphql
import Verif.Model.HandLex.Hlsl
import Verif.Model.HandLex.Idl
import Verif.Model.HandLex.J
import Verif.Model.HandLex.Jasm
import Verif.Model.HandLex.Java
import Verif.Model.HandLex.Javadoc
import Verif.Model.HandLex.Kotlin
import Verif.Model.HandLex.Lean
import Verif.Model.HandLex.Matlab
import Verif.Model.HandLex.Mermaid
import Verif.Proofs.LexCodeCheck

/-! Lexers that pass the analysis of Proofs/LexCodeCheck.lean. -/
namespace Oaks.HandLex
open Lc

set_option maxRecDepth 100000

theorem graphql_passes : passes ⟨true, false, true⟩ Graphql.run_ = true := by decide +kernel
theorem hlsl_passes : passes ⟨true, true, true⟩ Hlsl.run_ = true := by decide +kernel
theorem idl_passes : passes ⟨true, false, true⟩ Idl.run_ = true := by decide +kernel
theorem j_passes : passes ⟨true, true, true⟩ J.run_ = true := by decide +kernel
theorem jasm_passes : passes ⟨true, false, true⟩ Jasm.run_ = true := by decide +kernel
theorem java_passes : passes ⟨true, true, true⟩ Java.run_ = true := by decide +kernel
theorem javadoc_passes : passes ⟨true, true, true⟩ Javadoc.run_ = true := by decide +kernel
theorem kotlin_passes : passes ⟨true, true, true⟩ Kotlin.run_ = true := by decide +kernel
theorem lean_passes : passes ⟨true, true, true⟩ Lean.run_ = true := by decide +kernel
theorem matlab_passes : passes ⟨true, true, true⟩ Matlab.run_ = true := by decide +kernel
theorem mermaid_passes : passes ⟨true, true, true⟩ Mermaid.run_ = true := by decide +kernel

end Oaks.HandLex
