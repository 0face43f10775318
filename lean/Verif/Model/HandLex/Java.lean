import Verif.Model.LexCode

/-
The lexer of the example `oak-java` as a program of Model/LexCode.lean, function by function in the order of
the calls. Kinds of tokens and messages are left out.
-/
namespace Oaks.HandLex.Java

open Oaks.Lc

/-- `skip_whitespace` (examples/oak-java/src/lexer/mod.rs:81-98). -/
def skipWhitespace : Code :=
  .scope 2
    ((.mark 2) ;;
     (.loop 3 true ((.look 4) ;; (.chr 4 (.rg 0 1114111)))
       (.ite (.ite (.ite (.chr 4 (.rg 32 32)) (.val true) (.chr 4 (.rg 9 9))) (.val true) (.chr 4 (.rg 13 13)))
         (.advc 4)
         .brk)) ;;
     (.ite (.moved 2) ((.tok 2) ;; (.ret true)) (.val true)) ;;
     (.val false))

/-- `lex_newline` (examples/oak-java/src/lexer/mod.rs:101-112). -/
def lexNewline : Code :=
  .scope 5
    ((.mark 5) ;; (.ite ((.look 6) ;; (.chr 6 (.rg 10 10))) ((.adv 1) ;; (.tok 5) ;; (.val true)) (.val false)))

/-- `skip_comment` (examples/oak-java/src/lexer/mod.rs:115-147). -/
def skipComment : Code :=
  .scope 7
    ((.mark 7) ;;
     (.ite (.ite ((.look 8) ;; (.chr 8 (.rg 47 47))) ((.lookN 9 1) ;; (.chr 9 (.rg 47 47))) (.val false))
       ((.adv 2) ;;
        (.loop 10 true ((.look 11) ;; (.chr 11 (.rg 0 1114111)))
          ((.ite (.chr 11 (.rg 10 10)) .brk (.val true)) ;; (.advc 11))) ;;
        (.tok 7) ;;
        (.ret true))
       (.val true)) ;;
     (.ite (.ite ((.look 12) ;; (.chr 12 (.rg 47 47))) ((.lookN 13 1) ;; (.chr 13 (.rg 42 42))) (.val false))
       ((.mark 14) ;;
        (.adv 2) ;;
        (.loop 15 true ((.look 16) ;; (.chr 16 (.rg 0 1114111)))
          ((.ite (.ite (.chr 16 (.rg 42 42)) ((.lookN 17 1) ;; (.chr 17 (.rg 47 47))) (.val false))
             ((.adv 2) ;; .brk)
             (.val true)) ;;
           (.advc 16))) ;;
        (.tok 14) ;;
        (.ret true))
       (.val true)) ;;
     (.val false))

/-- `lex_string_literal` (examples/oak-java/src/lexer/mod.rs:150-181). -/
def lexStringLiteral : Code :=
  .scope 18
    ((.mark 18) ;;
     (.ite ((.look 19) ;; (.chr 19 (.rg 34 34)))
       ((.adv 1) ;;
        (.loop 20 true ((.look 21) ;; (.chr 21 (.rg 0 1114111)))
          (.ite (.chr 21 (.rg 34 34))
            ((.adv 1) ;; .brk)
            (.ite (.chr 21 (.rg 92 92))
              ((.adv 1) ;; (.ite ((.look 22) ;; (.chr 22 (.rg 0 1114111))) (.advc 22) (.val true)))
              (.ite (.chr 21 (.rg 10 10)) .brk (.advc 21))))) ;;
        (.tok 18) ;;
        (.ret true))
       (.val true)) ;;
     (.val false))

/-- `lex_char_literal` (examples/oak-java/src/lexer/mod.rs:184-211). -/
def lexCharLiteral : Code :=
  .scope 23
    ((.mark 23) ;;
     (.ite ((.look 24) ;; (.chr 24 (.rg 39 39)))
       ((.adv 1) ;;
        (.ite ((.look 25) ;; (.chr 25 (.rg 0 1114111)))
          (.ite (.chr 25 (.rg 92 92))
            ((.adv 1) ;; (.ite ((.look 26) ;; (.chr 26 (.rg 0 1114111))) (.advc 26) (.val true)))
            (.ite (.ite (.ite (.chr 25 (.rg 39 39)) (.val false) (.val true))
                (.ite (.chr 25 (.rg 10 10)) (.val false) (.val true))
                (.val false))
              (.advc 25)
              (.val true)))
          (.val true)) ;;
        (.ite ((.look 27) ;; (.chr 27 (.rg 39 39))) (.adv 1) (.val true)) ;;
        (.tok 23) ;;
        (.ret true))
       (.val true)) ;;
     (.val false))

/-- `lex_number_literal` (examples/oak-java/src/lexer/mod.rs:214-283). -/
def lexNumberLiteral : Code :=
  .scope 28
    ((.mark 28) ;;
     (.ite ((.look 29) ;; (.chr 29 (.rg 0 1114111)))
       (.ite (.chr 29 (.rg 48 57))
         ((.loop 30 true ((.look 31) ;; (.chr 31 (.rg 0 1114111))) (.ite (.chr 31 (.rg 48 57)) (.advc 31) .brk)) ;;
          (.ite (.ite ((.look 32) ;; (.chr 32 (.rg 46 46))) ((.lookN 33 1) ;; (.chr 33 (.rg 48 57))) (.val false))
            ((.adv 1) ;;
             (.loop 34 true ((.look 35) ;; (.chr 35 (.rg 0 1114111))) (.ite (.chr 35 (.rg 48 57)) (.advc 35) .brk)))
            (.val true)) ;;
          (.ite ((.look 36) ;; (.chr 36 (.rg 0 1114111)))
            (.ite (.ite (.chr 36 (.rg 101 101)) (.val true) (.chr 36 (.rg 69 69)))
              ((.adv 1) ;;
               (.ite ((.look 37) ;; (.chr 37 (.rg 0 1114111)))
                 (.ite (.ite (.chr 37 (.rg 43 43)) (.val true) (.chr 37 (.rg 45 45))) (.adv 1) (.val true))
                 (.val true)) ;;
               (.loop 38 true ((.look 39) ;; (.chr 39 (.rg 0 1114111))) (.ite (.chr 39 (.rg 48 57)) (.advc 39) .brk)))
              (.val true))
            (.val true)) ;;
          (.ite ((.look 40) ;; (.chr 40 (.rg 0 1114111)))
            (.ite (.ite (.ite (.ite (.ite (.ite (.chr 40 (.rg 102 102)) (.val true) (.chr 40 (.rg 70 70)))
                      (.val true)
                      (.chr 40 (.rg 100 100)))
                    (.val true)
                    (.chr 40 (.rg 68 68)))
                  (.val true)
                  (.chr 40 (.rg 108 108)))
                (.val true)
                (.chr 40 (.rg 76 76)))
              (.adv 1)
              (.val true))
            (.val true)) ;;
          (.tok 28) ;;
          (.ret true))
         (.val true))
       (.val true)) ;;
     (.val false))

/-- `lex_identifier_or_keyword` (examples/oak-java/src/lexer/mod.rs:286-316). -/
def lexIdentifierOrKeyword : Code :=
  .scope 41
    ((.mark 41) ;;
     (.ite ((.look 42) ;; (.chr 42 (.rg 0 1114111)))
       (.ite (.ite (.ite (.chr 42 (.or (.rg 65 90) (.rg 97 122))) (.val true) (.chr 42 (.rg 95 95)))
           (.val true)
           (.chr 42 (.rg 36 36)))
         ((.advc 42) ;;
          (.loop 43 true ((.look 44) ;; (.chr 44 (.rg 0 1114111)))
            (.ite (.ite (.ite (.chr 44 (.or (.or (.rg 48 57) (.rg 65 90)) (.rg 97 122))) (.val true) (.chr 44 (.rg 95 95)))
                (.val true)
                (.chr 44 (.rg 36 36)))
              (.advc 44)
              .brk)) ;;
          (.val true) ;;
          (.val true) ;;
          (.val true) ;;
          (.tok 41) ;;
          (.val true))
         (.val false))
       (.val false)))

/-- `lex_operator_or_delimiter` (examples/oak-java/src/lexer/mod.rs:380-618). -/
def lexOperatorOrDelimiter : Code :=
  .scope 45
    ((.mark 45) ;;
     (.ite ((.look 46) ;; (.chr 46 (.rg 0 1114111)))
       ((.ite (.chr 46 (.rg 43 43))
          ((.adv 1) ;;
           (.ite ((.look 70) ;; (.chr 70 (.rg 43 43)))
             (.adv 1)
             (.ite ((.look 69) ;; (.chr 69 (.rg 61 61))) (.adv 1) (.val true))))
          (.ite (.chr 46 (.rg 45 45))
            ((.adv 1) ;;
             (.ite ((.look 68) ;; (.chr 68 (.rg 45 45)))
               (.adv 1)
               (.ite ((.look 67) ;; (.chr 67 (.rg 61 61))) (.adv 1) (.val true))))
            (.ite (.chr 46 (.rg 42 42))
              ((.adv 1) ;; (.ite ((.look 66) ;; (.chr 66 (.rg 61 61))) (.adv 1) (.val true)))
              (.ite (.chr 46 (.rg 47 47))
                ((.adv 1) ;; (.ite ((.look 65) ;; (.chr 65 (.rg 61 61))) (.adv 1) (.val true)))
                (.ite (.chr 46 (.rg 37 37))
                  ((.adv 1) ;; (.ite ((.look 64) ;; (.chr 64 (.rg 61 61))) (.adv 1) (.val true)))
                  (.ite (.chr 46 (.rg 61 61))
                    ((.adv 1) ;; (.ite ((.look 63) ;; (.chr 63 (.rg 61 61))) (.adv 1) (.val true)))
                    (.ite (.chr 46 (.rg 33 33))
                      ((.adv 1) ;; (.ite ((.look 62) ;; (.chr 62 (.rg 61 61))) (.adv 1) (.val true)))
                      (.ite (.chr 46 (.rg 60 60))
                        ((.adv 1) ;;
                         (.ite ((.look 61) ;; (.chr 61 (.rg 61 61)))
                           (.adv 1)
                           (.ite ((.look 59) ;; (.chr 59 (.rg 60 60)))
                             ((.adv 1) ;; (.ite ((.look 60) ;; (.chr 60 (.rg 61 61))) (.adv 1) (.val true)))
                             (.val true))))
                        (.ite (.chr 46 (.rg 62 62))
                          ((.adv 1) ;;
                           (.ite ((.look 58) ;; (.chr 58 (.rg 61 61)))
                             (.adv 1)
                             (.ite ((.look 54) ;; (.chr 54 (.rg 62 62)))
                               ((.adv 1) ;;
                                (.ite ((.look 56) ;; (.chr 56 (.rg 62 62)))
                                  ((.adv 1) ;; (.ite ((.look 57) ;; (.chr 57 (.rg 61 61))) (.adv 1) (.val true)))
                                  (.ite ((.look 55) ;; (.chr 55 (.rg 61 61))) (.adv 1) (.val true))))
                               (.val true))))
                          (.ite (.chr 46 (.rg 38 38))
                            ((.adv 1) ;;
                             (.ite ((.look 53) ;; (.chr 53 (.rg 38 38)))
                               (.adv 1)
                               (.ite ((.look 52) ;; (.chr 52 (.rg 61 61))) (.adv 1) (.val true))))
                            (.ite (.chr 46 (.rg 124 124))
                              ((.adv 1) ;;
                               (.ite ((.look 51) ;; (.chr 51 (.rg 124 124)))
                                 (.adv 1)
                                 (.ite ((.look 50) ;; (.chr 50 (.rg 61 61))) (.adv 1) (.val true))))
                              (.ite (.chr 46 (.rg 94 94))
                                ((.adv 1) ;; (.ite ((.look 49) ;; (.chr 49 (.rg 61 61))) (.adv 1) (.val true)))
                                (.ite (.chr 46 (.rg 126 126))
                                  (.adv 1)
                                  (.ite (.chr 46 (.rg 63 63))
                                    (.adv 1)
                                    (.ite (.chr 46 (.rg 58 58))
                                      (.adv 1)
                                      (.ite (.chr 46 (.rg 59 59))
                                        (.adv 1)
                                        (.ite (.chr 46 (.rg 44 44))
                                          (.adv 1)
                                          (.ite (.chr 46 (.rg 46 46))
                                            ((.adv 1) ;;
                                             (.ite (.ite ((.look 47) ;; (.chr 47 (.rg 46 46)))
                                                 ((.lookN 48 1) ;; (.chr 48 (.rg 46 46)))
                                                 (.val false))
                                               (.adv 2)
                                               (.val true)))
                                            (.ite (.chr 46 (.rg 40 40))
                                              (.adv 1)
                                              (.ite (.chr 46 (.rg 41 41))
                                                (.adv 1)
                                                (.ite (.chr 46 (.rg 123 123))
                                                  (.adv 1)
                                                  (.ite (.chr 46 (.rg 125 125))
                                                    (.adv 1)
                                                    (.ite (.chr 46 (.rg 91 91))
                                                      (.adv 1)
                                                      (.ite (.chr 46 (.rg 93 93))
                                                        (.adv 1)
                                                        (.ite (.chr 46 (.rg 64 64)) (.adv 1) (.ret false)))))))))))))))))))))))))) ;;
        (.tok 45) ;;
        (.val true))
       (.val false)))

/-- `run` (examples/oak-java/src/lexer/mod.rs:31-78). -/
def run_ : Code :=
  .scope 0
    (.loop 0 false .more
      ((.mark 1) ;;
       (.ite skipWhitespace .cont (.val true)) ;;
       (.ite lexNewline .cont (.val true)) ;;
       (.ite skipComment .cont (.val true)) ;;
       (.ite lexStringLiteral .cont (.val true)) ;;
       (.ite lexCharLiteral .cont (.val true)) ;;
       (.ite lexNumberLiteral .cont (.val true)) ;;
       (.ite lexIdentifierOrKeyword .cont (.val true)) ;;
       (.ite lexOperatorOrDelimiter .cont (.val true)) ;;
       (.mark 71) ;;
       (.ite ((.look 72) ;; (.chr 72 (.rg 0 1114111))) ((.advc 72) ;; (.tok 71)) (.val true)) ;;
       (.guard 1)))

end Oaks.HandLex.Java
