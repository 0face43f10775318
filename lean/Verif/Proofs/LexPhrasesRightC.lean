import Verif.Props.LexPhrasesTable

/-! Each lexer against its phrases: checked by the kernel. -/
namespace Oaks.Props

set_option maxRecDepth 100000

theorem dartPhr_right : dartPhr.right = true := by decide +kernel
theorem hlslPhr_right : hlslPhr.right = true := by decide +kernel
theorem cppPhr_right : cppPhr.right = true := by decide +kernel
theorem vlangPhr_right : vlangPhr.right = true := by decide +kernel
theorem swiftPhr_right : swiftPhr.right = true := by decide +kernel
theorem vhdlPhr_right : vhdlPhr.right = true := by decide +kernel
theorem perlPhr_right : perlPhr.right = true := by decide +kernel
theorem nimPhr_right : nimPhr.right = true := by decide +kernel
theorem purescriptPhr_right : purescriptPhr.right = true := by decide +kernel
theorem prologPhr_right : prologPhr.right = true := by decide +kernel
theorem smalltalkPhr_right : smalltalkPhr.right = true := by decide +kernel
theorem cssPhr_right : cssPhr.right = true := by decide +kernel
theorem witComponentPhr_right : witComponentPhr.right = true := by decide +kernel

end Oaks.Props
