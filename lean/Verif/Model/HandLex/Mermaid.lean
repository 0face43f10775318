import Verif.Model.LexCode

/-
The lexer of the example `oak-mermaid` as a program of Model/LexCode.lean, function by function in the order of
the calls. Kinds of tokens and messages are left out.
-/
namespace Oaks.HandLex.Mermaid

open Oaks.Lc

/-- `skip_whitespace` (examples/oak-mermaid/src/lexer/mod.rs:54-71). -/
def skipWhitespace : Code :=
  .scope 2
    ((.mark 2) ;;
     (.loop 3 true ((.look 4) ;; (.chr 4 (.rg 0 1114111)))
       (.ite (.ite (.ite (.ite (.chr 4 (.rg 32 32)) (.val true) (.chr 4 (.rg 9 9))) (.val true) (.chr 4 (.rg 13 13)))
           (.val true)
           (.chr 4 (.rg 10 10)))
         (.advc 4)
         .brk)) ;;
     (.ite (.moved 2) ((.tok 2) ;; (.val true)) (.val false)))

/-- `run` (examples/oak-mermaid/src/lexer/mod.rs:33-52). -/
def run_ : Code :=
  .scope 0
    (.loop 0 false .more
      ((.mark 1) ;;
       (.ite skipWhitespace .cont (.val true)) ;;
       (.mark 5) ;;
       (.ite ((.look 6) ;; (.chr 6 (.rg 0 1114111))) ((.advc 6) ;; (.tok 5)) (.val true)) ;;
       (.guard 1)))

end Oaks.HandLex.Mermaid
