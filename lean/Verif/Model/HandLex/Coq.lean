import Verif.Model.LexCode

/-
The lexer of the example `oak-coq` as a program of Model/LexCode.lean, function by function in the order of
the calls. Kinds of tokens and messages are left out.
-/
namespace Oaks.HandLex.Coq

open Oaks.Lc

/-- `lex_comment` (examples/oak-coq/src/lexer/mod.rs:307-333). -/
def lexComment : Code :=
  .scope 24
    ((.put 24 1) ;;
     (.loop 25 true ((.look 26) ;; (.chr 26 (.rg 0 1114111)))
       (.ite (.chr 26 (.rg 40 40))
         ((.adv 1) ;;
          (.ite ((.look 28) ;; (.chr 28 (.rg 42 42))) ((.adv 1) ;; (.comp 24 24 (· + 1))) (.val true)))
         (.ite (.chr 26 (.rg 42 42))
           ((.adv 1) ;;
            (.ite ((.look 27) ;; (.chr 27 (.rg 41 41)))
              ((.adv 1) ;;
               (.comp 24 24 (· - 1)) ;;
               (.ite (.ask 24 (· == 0)) ((.tok 2) ;; (.ret true)) (.val true)))
              (.val true)))
           (.adv 1)))) ;;
     (.tok 2))

/-- `lex_string` (examples/oak-coq/src/lexer/mod.rs:335-352). -/
def lexString : Code :=
  .scope 8
    ((.loop 8 true ((.look 9) ;; (.chr 9 (.rg 0 1114111)))
       (.ite (.chr 9 (.rg 34 34))
         ((.adv 1) ;; (.ite ((.look 10) ;; (.chr 10 (.rg 34 34))) (.adv 1) ((.tok 2) ;; (.ret true))))
         (.adv 1))) ;;
     (.tok 2))

/-- `lex_internal` (examples/oak-coq/src/lexer/mod.rs:33-305). -/
def lexInternal : Code :=
  .scope 0
    (.loop 0 false ((.look 1) ;; (.chr 1 (.rg 0 1114111)))
      ((.mark 2) ;;
       (.ite (.chr 1 (.or (.or (.rg 32 32) (.rg 9 9)) (.rg 13 13)))
         ((.adv 1) ;;
          (.loop 29 false (.val true)
            (.ite ((.look 30) ;; (.chr 30 (.or (.or (.rg 32 32) (.rg 9 9)) (.rg 13 13)))) (.adv 1) .brk)) ;;
          (.tok 2))
         (.ite (.chr 1 (.rg 10 10))
           ((.adv 1) ;; (.tok 2))
           (.ite (.chr 1 (.rg 40 40))
             ((.adv 1) ;; (.ite ((.look 23) ;; (.chr 23 (.rg 42 42))) ((.adv 1) ;; lexComment) (.tok 2)))
             (.ite (.chr 1 (.rg 41 41))
               ((.adv 1) ;; (.tok 2))
               (.ite (.chr 1 (.rg 91 91))
                 ((.adv 1) ;; (.tok 2))
                 (.ite (.chr 1 (.rg 93 93))
                   ((.adv 1) ;; (.tok 2))
                   (.ite (.chr 1 (.rg 123 123))
                     ((.adv 1) ;; (.tok 2))
                     (.ite (.chr 1 (.rg 125 125))
                       ((.adv 1) ;; (.tok 2))
                       (.ite (.chr 1 (.rg 44 44))
                         ((.adv 1) ;; (.tok 2))
                         (.ite (.chr 1 (.rg 59 59))
                           ((.adv 1) ;; (.tok 2))
                           (.ite (.chr 1 (.rg 46 46))
                             ((.adv 1) ;; (.tok 2))
                             (.ite (.chr 1 (.rg 58 58))
                               ((.adv 1) ;;
                                (.ite ((.look 21) ;; (.chr 21 (.rg 58 58)))
                                  ((.adv 1) ;;
                                   (.ite ((.look 22) ;; (.chr 22 (.rg 61 61))) ((.adv 1) ;; (.tok 2)) (.tok 2)))
                                  (.ite ((.look 20) ;; (.chr 20 (.rg 61 61))) ((.adv 1) ;; (.tok 2)) (.tok 2))))
                               (.ite (.chr 1 (.rg 61 61))
                                 ((.adv 1) ;;
                                  (.ite ((.look 19) ;; (.chr 19 (.rg 62 62))) ((.adv 1) ;; (.tok 2)) (.tok 2)))
                                 (.ite (.chr 1 (.rg 60 60))
                                   ((.adv 1) ;;
                                    (.ite ((.look 18) ;; (.chr 18 (.rg 45 45)))
                                      ((.adv 1) ;; (.tok 2))
                                      (.ite ((.look 17) ;; (.chr 17 (.rg 62 62)))
                                        ((.adv 1) ;; (.tok 2))
                                        (.ite ((.look 16) ;; (.chr 16 (.rg 61 61))) ((.adv 1) ;; (.tok 2)) (.tok 2)))))
                                   (.ite (.chr 1 (.rg 62 62))
                                     ((.adv 1) ;;
                                      (.ite ((.look 15) ;; (.chr 15 (.rg 61 61))) ((.adv 1) ;; (.tok 2)) (.tok 2)))
                                     (.ite (.chr 1 (.rg 124 124))
                                       ((.adv 1) ;;
                                        (.ite ((.look 14) ;; (.chr 14 (.rg 45 45))) ((.adv 1) ;; (.tok 2)) (.tok 2)))
                                       (.ite (.chr 1 (.rg 45 45))
                                         ((.adv 1) ;;
                                          (.ite ((.look 13) ;; (.chr 13 (.rg 62 62))) ((.adv 1) ;; (.tok 2)) (.tok 2)))
                                         (.ite (.chr 1 (.rg 43 43))
                                           ((.adv 1) ;; (.tok 2))
                                           (.ite (.chr 1 (.rg 42 42))
                                             ((.adv 1) ;; (.tok 2))
                                             (.ite (.chr 1 (.rg 47 47))
                                               ((.adv 1) ;;
                                                (.ite ((.look 12) ;; (.chr 12 (.rg 92 92)))
                                                  ((.adv 1) ;; (.tok 2))
                                                  (.tok 2)))
                                               (.ite (.chr 1 (.rg 92 92))
                                                 ((.adv 1) ;;
                                                  (.ite ((.look 11) ;; (.chr 11 (.rg 47 47)))
                                                    ((.adv 1) ;; (.tok 2))
                                                    (.tok 2)))
                                                 (.ite (.chr 1 (.rg 126 126))
                                                   ((.adv 1) ;; (.tok 2))
                                                   (.ite (.chr 1 (.rg 33 33))
                                                     ((.adv 1) ;; (.tok 2))
                                                     (.ite (.chr 1 (.rg 63 63))
                                                       ((.adv 1) ;; (.tok 2))
                                                       (.ite (.chr 1 (.rg 64 64))
                                                         ((.adv 1) ;; (.tok 2))
                                                         (.ite (.chr 1 (.rg 35 35))
                                                           ((.adv 1) ;; (.tok 2))
                                                           (.ite (.chr 1 (.rg 36 36))
                                                             ((.adv 1) ;; (.tok 2))
                                                             (.ite (.chr 1 (.rg 37 37))
                                                               ((.adv 1) ;; (.tok 2))
                                                               (.ite (.chr 1 (.rg 94 94))
                                                                 ((.adv 1) ;; (.tok 2))
                                                                 (.ite (.chr 1 (.rg 38 38))
                                                                   ((.adv 1) ;; (.tok 2))
                                                                   (.ite (.chr 1 (.rg 34 34))
                                                                     ((.adv 1) ;; lexString)
                                                                     (.ite (.chr 1 (.rg 48 57))
                                                                       ((.adv 1) ;;
                                                                        (.loop 6 false (.val true)
                                                                          (.ite ((.look 7) ;; (.chr 7 (.rg 48 57)))
                                                                            (.adv 1)
                                                                            .brk)) ;;
                                                                        (.tok 2))
                                                                       (.ite (.chr 1 (.or (.or (.rg 97 122) (.rg 65 90)) (.rg 95 95)))
                                                                         ((.adv 1) ;;
                                                                          (.loop 3 false (.val true)
                                                                            (.ite ((.look 4) ;;
                                                                               (.chr 4 (.or (.or (.or (.or (.rg 97 122) (.rg 65 90)) (.rg 48 57)) (.rg 95 95)) (.rg 39 39))))
                                                                              (.adv 1)
                                                                              .brk)) ;;
                                                                          (.mark 5) ;;
                                                                          (.tokTo 2 5))
                                                                         ((.adv 1) ;; (.tok 2)))))))))))))))))))))))))))))))))))))

end Oaks.HandLex.Coq
