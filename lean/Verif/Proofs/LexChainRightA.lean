import Verif.Props.LexChainTable

/-! C95: the lexers end the words as the table says (part A). -/
namespace Oaks.Props

theorem javaChain_right : javaChain.right = true := by decide +kernel
theorem kotlinChain_right : kotlinChain.right = true := by decide +kernel
theorem typescriptChain_right : typescriptChain.right = true := by decide +kernel
theorem swiftChain_right : swiftChain.right = true := by decide +kernel
theorem dChain_right : dChain.right = true := by decide +kernel
theorem valaChain_right : valaChain.right = true := by decide +kernel
theorem objectiveCChain_right : objectiveCChain.right = true := by decide +kernel
theorem delphiChain_right : delphiChain.right = true := by decide +kernel
theorem vhdlChain_right : vhdlChain.right = true := by decide +kernel
theorem ocamlChain_right : ocamlChain.right = true := by decide +kernel
theorem perlChain_right : perlChain.right = true := by decide +kernel
theorem smalltalkChain_right : smalltalkChain.right = true := by decide +kernel
theorem verilogChain_right : verilogChain.right = true := by decide +kernel
theorem nimChain_right : nimChain.right = true := by decide +kernel
theorem leanChain_right : leanChain.right = true := by decide +kernel
theorem graphqlChain_right : graphqlChain.right = true := by decide +kernel
theorem watChain_right : watChain.right = true := by decide +kernel
theorem coqChain_right : coqChain.right = true := by decide +kernel
theorem crystalChain_right : crystalChain.right = true := by decide +kernel
theorem cssChain_right : cssChain.right = true := by decide +kernel
theorem texChain_right : texChain.right = true := by decide +kernel
theorem actionscriptChain_right : actionscriptChain.right = true := by decide +kernel
theorem cChain_right : cChain.right = true := by decide +kernel
theorem luaChain_right : luaChain.right = true := by decide +kernel
theorem prologChain_right : prologChain.right = true := by decide +kernel
theorem juliaChain_right : juliaChain.right = true := by decide +kernel
theorem witComponentChain_right : witComponentChain.right = true := by decide +kernel

end Oaks.Props
