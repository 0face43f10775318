import Verif.Props.LexChainTable

/-! C95: the lexers end the words as the table says (part B). -/
namespace Oaks.Props

theorem goChain_right : goChain.right = true := by decide +kernel
theorem phpChain_right : phpChain.right = true := by decide +kernel
theorem csharpChain_right : csharpChain.right = true := by decide +kernel
theorem dartChain_right : dartChain.right = true := by decide +kernel
theorem solidityChain_right : solidityChain.right = true := by decide +kernel
theorem hlslChain_right : hlslChain.right = true := by decide +kernel
theorem pascalChain_right : pascalChain.right = true := by decide +kernel
theorem adaChain_right : adaChain.right = true := by decide +kernel
theorem fortranChain_right : fortranChain.right = true := by decide +kernel
theorem elmChain_right : elmChain.right = true := by decide +kernel
theorem powershellChain_right : powershellChain.right = true := by decide +kernel
theorem sqlChain_right : sqlChain.right = true := by decide +kernel
theorem wolframChain_right : wolframChain.right = true := by decide +kernel
theorem vlangChain_right : vlangChain.right = true := by decide +kernel
theorem idlChain_right : idlChain.right = true := by decide +kernel
theorem protobufChain_right : protobufChain.right = true := by decide +kernel
theorem haskellChain_right : haskellChain.right = true := by decide +kernel
theorem purescriptChain_right : purescriptChain.right = true := by decide +kernel
theorem nixChain_right : nixChain.right = true := by decide +kernel
theorem dhallChain_right : dhallChain.right = true := by decide +kernel
theorem matlabChain_right : matlabChain.right = true := by decide +kernel
theorem jChain_right : jChain.right = true := by decide +kernel
theorem cppChain_right : cppChain.right = true := by decide +kernel
theorem zigChain_right : zigChain.right = true := by decide +kernel
theorem wgslChain_right : wgslChain.right = true := by decide +kernel
theorem nginxChain_right : nginxChain.right = true := by decide +kernel

end Oaks.Props
