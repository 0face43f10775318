import Verif.Model.LexCode

/-
The lexer of the example `oak-cmd` as a program of Model/LexCode.lean, function by function in the order of
the calls. Kinds of tokens and messages are left out.
-/
namespace Oaks.HandLex.Cmd

open Oaks.Lc

/-- `run` (examples/oak-cmd/src/lexer/mod.rs:32-41). -/
def run_ : Code :=
  .scope 0
    (.loop 0 false .more
      ((.mark 1) ;; (.ite ((.look 2) ;; (.chr 2 (.rg 0 1114111))) ((.advc 2) ;; (.tok 1)) (.val true))))

end Oaks.HandLex.Cmd
