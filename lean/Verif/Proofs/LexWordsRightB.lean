import Verif.Props.LexWordsTable

/-! Each lexer against its words: checked by the kernel. -/
namespace Oaks.Props

set_option maxRecDepth 100000

theorem delphiLang_right : delphiLang.right = true := by decide +kernel
theorem adaLang_right : adaLang.right = true := by decide +kernel
theorem vhdlLang_right : vhdlLang.right = true := by decide +kernel
theorem fortranLang_right : fortranLang.right = true := by decide +kernel
theorem ocamlLang_right : ocamlLang.right = true := by decide +kernel
theorem elmLang_right : elmLang.right = true := by decide +kernel
theorem perlLang_right : perlLang.right = true := by decide +kernel
theorem powershellLang_right : powershellLang.right = true := by decide +kernel
theorem smalltalkLang_right : smalltalkLang.right = true := by decide +kernel
theorem sqlLang_right : sqlLang.right = true := by decide +kernel
theorem verilogLang_right : verilogLang.right = true := by decide +kernel
theorem wolframLang_right : wolframLang.right = true := by decide +kernel
theorem nimLang_right : nimLang.right = true := by decide +kernel
theorem vlangLang_right : vlangLang.right = true := by decide +kernel

end Oaks.Props
