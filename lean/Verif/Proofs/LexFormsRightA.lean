import Verif.Props.LexFormsTable

/-! C94: the lexers treat the forms as the table says (part A). -/
namespace Oaks.Props

theorem javaForms_right : javaForms.right = true := by decide +kernel
theorem kotlinForms_right : kotlinForms.right = true := by decide +kernel
theorem typescriptForms_right : typescriptForms.right = true := by decide +kernel
theorem swiftForms_right : swiftForms.right = true := by decide +kernel
theorem dForms_right : dForms.right = true := by decide +kernel
theorem valaForms_right : valaForms.right = true := by decide +kernel
theorem objectiveCForms_right : objectiveCForms.right = true := by decide +kernel
theorem delphiForms_right : delphiForms.right = true := by decide +kernel
theorem vhdlForms_right : vhdlForms.right = true := by decide +kernel
theorem ocamlForms_right : ocamlForms.right = true := by decide +kernel
theorem perlForms_right : perlForms.right = true := by decide +kernel
theorem smalltalkForms_right : smalltalkForms.right = true := by decide +kernel
theorem verilogForms_right : verilogForms.right = true := by decide +kernel
theorem nimForms_right : nimForms.right = true := by decide +kernel
theorem leanForms_right : leanForms.right = true := by decide +kernel
theorem graphqlForms_right : graphqlForms.right = true := by decide +kernel
theorem watForms_right : watForms.right = true := by decide +kernel
theorem coqForms_right : coqForms.right = true := by decide +kernel
theorem crystalForms_right : crystalForms.right = true := by decide +kernel
theorem cssForms_right : cssForms.right = true := by decide +kernel
theorem texForms_right : texForms.right = true := by decide +kernel
theorem actionscriptForms_right : actionscriptForms.right = true := by decide +kernel
theorem cForms_right : cForms.right = true := by decide +kernel
theorem luaForms_right : luaForms.right = true := by decide +kernel
theorem prologForms_right : prologForms.right = true := by decide +kernel
theorem juliaForms_right : juliaForms.right = true := by decide +kernel
theorem witComponentForms_right : witComponentForms.right = true := by decide +kernel

end Oaks.Props
