import Verif.Props.LexPhrasesTable

/-! Each lexer against its phrases: checked by the kernel. -/
namespace Oaks.Props

set_option maxRecDepth 100000

theorem javaPhr_right : javaPhr.right = true := by decide +kernel
theorem solidityPhr_right : solidityPhr.right = true := by decide +kernel
theorem actionscriptPhr_right : actionscriptPhr.right = true := by decide +kernel
theorem phpPhr_right : phpPhr.right = true := by decide +kernel
theorem zigPhr_right : zigPhr.right = true := by decide +kernel
theorem delphiPhr_right : delphiPhr.right = true := by decide +kernel
theorem ocamlPhr_right : ocamlPhr.right = true := by decide +kernel
theorem verilogPhr_right : verilogPhr.right = true := by decide +kernel
theorem haskellPhr_right : haskellPhr.right = true := by decide +kernel
theorem matlabPhr_right : matlabPhr.right = true := by decide +kernel
theorem dhallPhr_right : dhallPhr.right = true := by decide +kernel
theorem graphqlPhr_right : graphqlPhr.right = true := by decide +kernel
theorem idlPhr_right : idlPhr.right = true := by decide +kernel
theorem jPhr_right : jPhr.right = true := by decide +kernel

end Oaks.Props
