import Verif.Props.LexWordsTable

/-! Each lexer against its words: checked by the kernel. -/
namespace Oaks.Props

set_option maxRecDepth 100000

theorem javaLang_right : javaLang.right = true := by decide +kernel
theorem goLang_right : goLang.right = true := by decide +kernel
theorem kotlinLang_right : kotlinLang.right = true := by decide +kernel
theorem phpLang_right : phpLang.right = true := by decide +kernel
theorem typescriptLang_right : typescriptLang.right = true := by decide +kernel
theorem csharpLang_right : csharpLang.right = true := by decide +kernel
theorem swiftLang_right : swiftLang.right = true := by decide +kernel
theorem dartLang_right : dartLang.right = true := by decide +kernel
theorem dLang_right : dLang.right = true := by decide +kernel
theorem solidityLang_right : solidityLang.right = true := by decide +kernel
theorem valaLang_right : valaLang.right = true := by decide +kernel
theorem hlslLang_right : hlslLang.right = true := by decide +kernel
theorem objectiveCLang_right : objectiveCLang.right = true := by decide +kernel
theorem pascalLang_right : pascalLang.right = true := by decide +kernel

end Oaks.Props
