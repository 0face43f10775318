import Verif.Props.LexFormsTable

/-! C94: the lexers treat the forms as the table says (part B). -/
namespace Oaks.Props

theorem goForms_right : goForms.right = true := by decide +kernel
theorem phpForms_right : phpForms.right = true := by decide +kernel
theorem csharpForms_right : csharpForms.right = true := by decide +kernel
theorem dartForms_right : dartForms.right = true := by decide +kernel
theorem solidityForms_right : solidityForms.right = true := by decide +kernel
theorem hlslForms_right : hlslForms.right = true := by decide +kernel
theorem pascalForms_right : pascalForms.right = true := by decide +kernel
theorem adaForms_right : adaForms.right = true := by decide +kernel
theorem fortranForms_right : fortranForms.right = true := by decide +kernel
theorem elmForms_right : elmForms.right = true := by decide +kernel
theorem powershellForms_right : powershellForms.right = true := by decide +kernel
theorem sqlForms_right : sqlForms.right = true := by decide +kernel
theorem wolframForms_right : wolframForms.right = true := by decide +kernel
theorem vlangForms_right : vlangForms.right = true := by decide +kernel
theorem idlForms_right : idlForms.right = true := by decide +kernel
theorem protobufForms_right : protobufForms.right = true := by decide +kernel
theorem haskellForms_right : haskellForms.right = true := by decide +kernel
theorem purescriptForms_right : purescriptForms.right = true := by decide +kernel
theorem nixForms_right : nixForms.right = true := by decide +kernel
theorem dhallForms_right : dhallForms.right = true := by decide +kernel
theorem matlabForms_right : matlabForms.right = true := by decide +kernel
theorem jForms_right : jForms.right = true := by decide +kernel
theorem cppForms_right : cppForms.right = true := by decide +kernel
theorem zigForms_right : zigForms.right = true := by decide +kernel
theorem wgslForms_right : wgslForms.right = true := by decide +kernel
theorem nginxForms_right : nginxForms.right = true := by decide +kernel

end Oaks.Props
