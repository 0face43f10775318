import Verif.Props.LexPhrasesTable

/-! Each lexer against its phrases: checked by the kernel. -/
namespace Oaks.Props

set_option maxRecDepth 100000

theorem dPhr_right : dPhr.right = true := by decide +kernel
theorem objectiveCPhr_right : objectiveCPhr.right = true := by decide +kernel
theorem typescriptPhr_right : typescriptPhr.right = true := by decide +kernel
theorem kotlinPhr_right : kotlinPhr.right = true := by decide +kernel
theorem pascalPhr_right : pascalPhr.right = true := by decide +kernel
theorem fortranPhr_right : fortranPhr.right = true := by decide +kernel
theorem sqlPhr_right : sqlPhr.right = true := by decide +kernel
theorem leanPhr_right : leanPhr.right = true := by decide +kernel
theorem crystalPhr_right : crystalPhr.right = true := by decide +kernel
theorem juliaPhr_right : juliaPhr.right = true := by decide +kernel
theorem powershellPhr_right : powershellPhr.right = true := by decide +kernel
theorem watPhr_right : watPhr.right = true := by decide +kernel
theorem texPhr_right : texPhr.right = true := by decide +kernel

end Oaks.Props
