import Verif.Props.LexPhrasesTable

/-! Each lexer against its phrases: checked by the kernel. -/
namespace Oaks.Props

set_option maxRecDepth 100000

theorem csharpPhr_right : csharpPhr.right = true := by decide +kernel
theorem valaPhr_right : valaPhr.right = true := by decide +kernel
theorem cPhr_right : cPhr.right = true := by decide +kernel
theorem goPhr_right : goPhr.right = true := by decide +kernel
theorem wgslPhr_right : wgslPhr.right = true := by decide +kernel
theorem adaPhr_right : adaPhr.right = true := by decide +kernel
theorem elmPhr_right : elmPhr.right = true := by decide +kernel
theorem wolframPhr_right : wolframPhr.right = true := by decide +kernel
theorem coqPhr_right : coqPhr.right = true := by decide +kernel
theorem luaPhr_right : luaPhr.right = true := by decide +kernel
theorem nixPhr_right : nixPhr.right = true := by decide +kernel
theorem protobufPhr_right : protobufPhr.right = true := by decide +kernel
theorem nginxPhr_right : nginxPhr.right = true := by decide +kernel

end Oaks.Props
