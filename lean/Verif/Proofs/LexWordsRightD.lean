import Verif.Props.LexWordsTable

/-! Each lexer against its words: checked by the kernel. -/
namespace Oaks.Props

set_option maxRecDepth 100000

theorem actionscriptLang_right : actionscriptLang.right = true := by decide +kernel
theorem jLang_right : jLang.right = true := by decide +kernel
theorem cLang_right : cLang.right = true := by decide +kernel
theorem cppLang_right : cppLang.right = true := by decide +kernel
theorem luaLang_right : luaLang.right = true := by decide +kernel
theorem zigLang_right : zigLang.right = true := by decide +kernel
theorem prologLang_right : prologLang.right = true := by decide +kernel
theorem wgslLang_right : wgslLang.right = true := by decide +kernel
theorem juliaLang_right : juliaLang.right = true := by decide +kernel
theorem nginxLang_right : nginxLang.right = true := by decide +kernel
theorem witComponentLang_right : witComponentLang.right = true := by decide +kernel

end Oaks.Props
