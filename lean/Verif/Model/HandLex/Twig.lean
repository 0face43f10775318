import Verif.Model.LexCode

/-
The lexer of the example `oak-twig` as a program of Model/LexCode.lean, function by function in the order of
the calls. Kinds of tokens and messages are left out.
-/
namespace Oaks.HandLex.Twig

open Oaks.Lc

/-- `skip_whitespace` (examples/oak-twig/src/lexer/mod.rs:65-84). -/
def skipWhitespace : Code :=
  .scope 2
    ((.mark 2) ;;
     (.put 3 0) ;;
     (.loop 4 true ((.look 5) ;; (.chr 5 (.rg 0 1114111))) (.ite (.chr 5 .white) ((.advc 5) ;; (.put 3 1)) .brk)) ;;
     (.ite (.flag 3) (.tok 2) (.val true)) ;;
     (.flag 3))

/-- `skip_comment` (examples/oak-twig/src/lexer/mod.rs:86-101). -/
def skipComment : Code :=
  .scope 6
    ((.mark 6) ;;
     (.ite (.ite (.starts ['{', '#']) ((.adv 2) ;; (.val true)) (.val false))
       ((.loop 7 true .more
          ((.ite (.ite (.starts ['#', '}']) ((.adv 2) ;; (.val true)) (.val false)) .brk (.val true)) ;;
           (.ite ((.look 8) ;; (.chr 8 (.rg 0 1114111))) (.advc 8) (.val true)))) ;;
        (.tok 6) ;;
        (.ret true))
       (.val true)) ;;
     (.val false))

/-- `lex_string` (examples/oak-twig/src/lexer/mod.rs:103-132). -/
def lexString : Code :=
  .scope 9
    ((.mark 9) ;;
     (.ite ((.look 10) ;; (.chr 10 (.rg 0 1114111)))
       (.ite (.ite (.chr 10 (.rg 34 34)) (.val true) (.chr 10 (.rg 39 39)))
         ((.adv 1) ;;
          (.loop 11 true ((.look 12) ;; (.chr 12 (.rg 0 1114111)))
            (.ite (.same 12 10)
              ((.adv 1) ;; .brk)
              (.ite (.chr 12 (.rg 92 92))
                ((.adv 1) ;; (.ite ((.look 13) ;; (.chr 13 (.rg 0 1114111))) (.adv 1) (.val true)))
                (.advc 12)))) ;;
          (.tok 9) ;;
          (.ret true))
         (.val true))
       (.val true)) ;;
     (.val false))

/-- `lex_number` (examples/oak-twig/src/lexer/mod.rs:134-156). -/
def lexNumber : Code :=
  .scope 14
    ((.mark 14) ;;
     (.ite ((.look 15) ;; (.chr 15 (.rg 0 1114111)))
       (.ite (.chr 15 (.rg 48 57))
         ((.adv 1) ;;
          (.loop 16 true ((.look 17) ;; (.chr 17 (.rg 0 1114111)))
            (.ite (.ite (.chr 17 (.rg 48 57)) (.val true) (.chr 17 (.rg 46 46))) (.adv 1) .brk)) ;;
          (.tok 14) ;;
          (.ret true))
         (.val true))
       (.val true)) ;;
     (.val false))

/-- `lex_punctuation` (examples/oak-twig/src/lexer/mod.rs:158-220). -/
def lexPunctuation : Code :=
  .scope 18
    ((.mark 18) ;;
     (.val true) ;;
     (.ite (.restStarts ['{', '{']) ((.adv 2) ;; (.tok 18) ;; (.ret true)) (.val true)) ;;
     (.ite (.restStarts ['}', '}']) ((.adv 2) ;; (.tok 18) ;; (.ret true)) (.val true)) ;;
     (.ite (.restStarts ['{', '%']) ((.adv 2) ;; (.tok 18) ;; (.ret true)) (.val true)) ;;
     (.ite (.restStarts ['%', '}']) ((.adv 2) ;; (.tok 18) ;; (.ret true)) (.val true)) ;;
     (.ite ((.look 19) ;; (.chr 19 (.rg 0 1114111)))
       ((.ite (.chr 19 (.rg 123 123))
          (.val true)
          (.ite (.chr 19 (.rg 125 125))
            (.val true)
            (.ite (.chr 19 (.rg 40 40))
              (.val true)
              (.ite (.chr 19 (.rg 41 41))
                (.val true)
                (.ite (.chr 19 (.rg 91 91))
                  (.val true)
                  (.ite (.chr 19 (.rg 93 93))
                    (.val true)
                    (.ite (.chr 19 (.rg 44 44))
                      (.val true)
                      (.ite (.chr 19 (.rg 46 46))
                        (.val true)
                        (.ite (.chr 19 (.rg 58 58))
                          (.val true)
                          (.ite (.chr 19 (.rg 59 59))
                            (.val true)
                            (.ite (.chr 19 (.rg 124 124))
                              (.val true)
                              (.ite (.chr 19 (.rg 61 61))
                                (.val true)
                                (.ite (.chr 19 (.rg 43 43))
                                  (.val true)
                                  (.ite (.chr 19 (.rg 45 45))
                                    (.val true)
                                    (.ite (.chr 19 (.rg 42 42))
                                      (.val true)
                                      (.ite (.chr 19 (.rg 47 47))
                                        (.val true)
                                        (.ite (.chr 19 (.rg 37 37))
                                          (.val true)
                                          (.ite (.chr 19 (.rg 33 33))
                                            (.val true)
                                            (.ite (.chr 19 (.rg 63 63))
                                              (.val true)
                                              (.ite (.chr 19 (.rg 60 60))
                                                (.val true)
                                                (.ite (.chr 19 (.rg 62 62))
                                                  (.val true)
                                                  (.ite (.chr 19 (.rg 38 38))
                                                    (.val true)
                                                    (.ite (.chr 19 (.rg 94 94))
                                                      (.val true)
                                                      (.ite (.chr 19 (.rg 126 126)) (.val true) (.ret false))))))))))))))))))))))))) ;;
        (.advc 19) ;;
        (.tok 18) ;;
        (.ret true))
       (.val true)) ;;
     (.val false))

/-- `lex_identifier` (examples/oak-twig/src/lexer/mod.rs:222-251). -/
def lexIdentifier : Code :=
  .scope 20
    ((.mark 20) ;;
     (.ite ((.look 21) ;; (.chr 21 (.rg 0 1114111)))
       (.ite (.ite (.chr 21 (.or (.rg 65 90) (.rg 97 122))) (.val true) (.chr 21 (.rg 95 95)))
         ((.advc 21) ;;
          (.loop 22 true ((.look 23) ;; (.chr 23 (.rg 0 1114111)))
            (.ite (.ite (.chr 23 (.or (.or (.rg 48 57) (.rg 65 90)) (.rg 97 122))) (.val true) (.chr 23 (.rg 95 95)))
              (.advc 23)
              .brk)) ;;
          (.mark 24) ;;
          (.tokTo 20 24) ;;
          (.ret true))
         (.val true))
       (.val true)) ;;
     (.val false))

/-- `run` (examples/oak-twig/src/lexer/mod.rs:31-63). -/
def run_ : Code :=
  .scope 0
    (.loop 0 false .more
      ((.mark 1) ;;
       (.ite skipWhitespace .cont (.val true)) ;;
       (.ite skipComment .cont (.val true)) ;;
       (.ite lexString .cont (.val true)) ;;
       (.ite lexNumber .cont (.val true)) ;;
       (.ite lexPunctuation .cont (.val true)) ;;
       (.ite lexIdentifier .cont (.val true)) ;;
       (.guard 1)))

end Oaks.HandLex.Twig
