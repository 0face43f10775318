import Verif.Model.HandLex.Cpp
import Verif.Model.HandLex.Nginx
import Verif.Model.HandLex.WitComponent
import Verif.Model.HandLex.Tex
import Verif.Model.HandLex.Vala
import Verif.Model.HandLex.Verilog
import Verif.Model.HandLex.Vhdl
import Verif.Model.HandLex.Vlang
import Verif.Model.HandLex.Voml
import Verif.Model.HandLex.Wat
import Verif.Model.HandLex.Wolfram
import Verif.Proofs.LexCodeCheck

/-! Lexers that pass the analysis of Proofs/LexCodeCheck.lean. -/
namespace Oaks.HandLex
open Lc

set_option maxRecDepth 100000

theorem cpp_passes : passes ⟨true, true, true⟩ Cpp.run_ = true := by decide +kernel
theorem nginx_passes : passes ⟨true, true, true⟩ Nginx.run_ = true := by decide +kernel
theorem witComponent_passes : passes ⟨true, true, false⟩ WitComponent.run_ = true := by decide +kernel
theorem tex_passes : passes ⟨true, false, true⟩ Tex.run_ = true := by decide +kernel
theorem vala_passes : passes ⟨true, false, true⟩ Vala.run_ = true := by decide +kernel
theorem verilog_passes : passes ⟨true, false, false⟩ Verilog.run_ = true := by decide +kernel
theorem vhdl_passes : passes ⟨true, true, true⟩ Vhdl.run_ = true := by decide +kernel
theorem vlang_passes : passes ⟨true, true, true⟩ Vlang.lex = true := by decide +kernel
theorem voml_passes : passes ⟨true, true, true⟩ Voml.lex = true := by decide +kernel
theorem wat_passes : passes ⟨true, true, true⟩ Wat.run_ = true := by decide +kernel
theorem wolfram_passes : passes ⟨true, true, true⟩ Wolfram.run_ = true := by decide +kernel

end Oaks.HandLex
