import Verif.Props.LexWordsTable

/-! Each lexer against its words: checked by the kernel. -/
namespace Oaks.Props

set_option maxRecDepth 100000

theorem leanLang_right : leanLang.right = true := by decide +kernel
theorem idlLang_right : idlLang.right = true := by decide +kernel
theorem graphqlLang_right : graphqlLang.right = true := by decide +kernel
theorem protobufLang_right : protobufLang.right = true := by decide +kernel
theorem watLang_right : watLang.right = true := by decide +kernel
theorem haskellLang_right : haskellLang.right = true := by decide +kernel
theorem coqLang_right : coqLang.right = true := by decide +kernel
theorem purescriptLang_right : purescriptLang.right = true := by decide +kernel
theorem crystalLang_right : crystalLang.right = true := by decide +kernel
theorem nixLang_right : nixLang.right = true := by decide +kernel
theorem cssLang_right : cssLang.right = true := by decide +kernel
theorem dhallLang_right : dhallLang.right = true := by decide +kernel
theorem texLang_right : texLang.right = true := by decide +kernel
theorem matlabLang_right : matlabLang.right = true := by decide +kernel

end Oaks.Props
