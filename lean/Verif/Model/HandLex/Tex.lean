import Verif.Model.LexCode

/-
The lexer of the example `oak-tex` as a program of Model/LexCode.lean, function by function in the order of
the calls. Kinds of tokens and messages are left out.
-/
namespace Oaks.HandLex.Tex

open Oaks.Lc

/-- `skip_whitespace` (examples/oak-tex/src/lexer/mod.rs:78-80). -/
def skipWhitespace : Code :=
  .scope 2
    (.space true)

/-- `skip_comment` (examples/oak-tex/src/lexer/mod.rs:82-84). -/
def skipComment : Code :=
  .scope 2
    (.comment ⟨['%'], [], [], false⟩)

/-- `lex_command` (examples/oak-tex/src/lexer/mod.rs:86-200). -/
def lexCommand : Code :=
  .scope 2
    ((.mark 2) ;;
     (.ite (.ite ((.look 3) ;; (.chr 3 (.rg 92 92))) (.val false) (.val true)) (.ret false) (.val true)) ;;
     (.adv 1) ;;
     (.put 4 0) ;;
     (.ite ((.look 5) ;; (.chr 5 (.rg 0 1114111)))
       (.ite (.chr 5 (.or (.rg 65 90) (.rg 97 122)))
         (.loop 6 true ((.look 7) ;; (.chr 7 (.rg 0 1114111)))
           (.ite (.chr 7 (.or (.rg 65 90) (.rg 97 122))) ((.advc 7) ;; (.put 4 1)) .brk))
         ((.advc 5) ;; (.put 4 1)))
       (.val true)) ;;
     (.ite (.flag 4) ((.mark 8) ;; (.tok 2) ;; (.ret true)) (.val true)) ;;
     (.tok 2) ;;
     (.val true))

/-- `lex_math_delimiters` (examples/oak-tex/src/lexer/mod.rs:202-216). -/
def lexMathDelimiters : Code :=
  .scope 9
    ((.mark 9) ;;
     (.ite (.ite (.starts ['$', '$']) ((.adv 2) ;; (.val true)) (.val false)) ((.tok 9) ;; (.ret true)) (.val true)) ;;
     (.ite (.ite (.starts ['$']) ((.adv 1) ;; (.val true)) (.val false)) ((.tok 9) ;; (.ret true)) (.val true)) ;;
     (.val false))

/-- `lex_braces_and_brackets` (examples/oak-tex/src/lexer/mod.rs:218-238). -/
def lexBracesAndBrackets : Code :=
  .scope 10
    ((.mark 10) ;;
     (.ite ((.look 11) ;; (.chr 11 (.rg 0 1114111)))
       ((.ite (.chr 11 (.rg 123 123))
          (.val true)
          (.ite (.chr 11 (.rg 125 125))
            (.val true)
            (.ite (.chr 11 (.rg 91 91))
              (.val true)
              (.ite (.chr 11 (.rg 93 93))
                (.val true)
                (.ite (.chr 11 (.rg 40 40)) (.val true) (.ite (.chr 11 (.rg 41 41)) (.val true) (.ret false))))))) ;;
        (.advc 11) ;;
        (.tok 10) ;;
        (.ret true))
       (.val true)) ;;
     (.val false))

/-- `lex_special_chars` (examples/oak-tex/src/lexer/mod.rs:240-274). -/
def lexSpecialChars : Code :=
  .scope 12
    ((.mark 12) ;;
     (.ite ((.look 13) ;; (.chr 13 (.rg 0 1114111)))
       ((.ite (.chr 13 (.rg 38 38))
          (.val true)
          (.ite (.chr 13 (.rg 35 35))
            (.val true)
            (.ite (.chr 13 (.rg 94 94))
              (.val true)
              (.ite (.chr 13 (.rg 95 95))
                (.val true)
                (.ite (.chr 13 (.rg 126 126))
                  (.val true)
                  (.ite (.chr 13 (.rg 61 61))
                    (.val true)
                    (.ite (.chr 13 (.rg 43 43))
                      (.val true)
                      (.ite (.chr 13 (.rg 45 45))
                        (.val true)
                        (.ite (.chr 13 (.rg 42 42))
                          (.val true)
                          (.ite (.chr 13 (.rg 47 47))
                            (.val true)
                            (.ite (.chr 13 (.rg 124 124))
                              (.val true)
                              (.ite (.chr 13 (.rg 60 60))
                                (.val true)
                                (.ite (.chr 13 (.rg 62 62))
                                  (.val true)
                                  (.ite (.chr 13 (.rg 33 33))
                                    (.val true)
                                    (.ite (.chr 13 (.rg 63 63))
                                      (.val true)
                                      (.ite (.chr 13 (.rg 64 64))
                                        (.val true)
                                        (.ite (.chr 13 (.rg 58 58))
                                          (.val true)
                                          (.ite (.chr 13 (.rg 59 59))
                                            (.val true)
                                            (.ite (.chr 13 (.rg 44 44))
                                              (.val true)
                                              (.ite (.chr 13 (.rg 46 46)) (.val true) (.ret false))))))))))))))))))))) ;;
        (.advc 13) ;;
        (.tok 12) ;;
        (.ret true))
       (.val true)) ;;
     (.val false))

/-- `lex_number` (examples/oak-tex/src/lexer/mod.rs:276-299). -/
def lexNumber : Code :=
  .scope 14
    ((.mark 14) ;;
     (.ite ((.look 15) ;; (.chr 15 (.rg 0 1114111))) (.val true) (.ret false)) ;;
     (.ite (.ite (.chr 15 (.rg 48 57)) (.val false) (.val true)) (.ret false) (.val true)) ;;
     (.adv 1) ;;
     (.loop 16 true ((.look 17) ;; (.chr 17 (.rg 0 1114111)))
       (.ite (.ite (.chr 17 (.rg 48 57)) (.val true) (.chr 17 (.rg 46 46))) (.adv 1) .brk)) ;;
     (.tok 14) ;;
     (.val true))

/-- `lex_text` (examples/oak-tex/src/lexer/mod.rs:301-321). -/
def lexText : Code :=
  .scope 18
    ((.mark 18) ;;
     (.ite ((.look 19) ;; (.chr 19 (.rg 0 1114111)))
       (.ite (.chr 19 .alpha)
         ((.advc 19) ;;
          (.loop 20 true ((.look 21) ;; (.chr 21 (.rg 0 1114111))) (.ite (.chr 21 .alnum) (.advc 21) .brk)) ;;
          (.tok 18) ;;
          (.ret true))
         (.val true))
       (.val true)) ;;
     (.val false))

/-- `run` (examples/oak-tex/src/lexer/mod.rs:36-76). -/
def run_ : Code :=
  .scope 0
    (.loop 0 false .more
      ((.mark 1) ;;
       (.ite skipWhitespace .cont (.val true)) ;;
       (.ite skipComment .cont (.val true)) ;;
       (.ite lexCommand .cont (.val true)) ;;
       (.ite lexMathDelimiters .cont (.val true)) ;;
       (.ite lexBracesAndBrackets .cont (.val true)) ;;
       (.ite lexSpecialChars .cont (.val true)) ;;
       (.ite lexNumber .cont (.val true)) ;;
       (.ite lexText .cont (.val true)) ;;
       (.guard 1)))

end Oaks.HandLex.Tex
