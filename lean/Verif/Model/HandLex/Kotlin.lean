import Verif.Model.LexCode

/-
The lexer of the example `oak-kotlin` as a program of Model/LexCode.lean, function by function in the order of
the calls. Kinds of tokens and messages are left out.
-/
namespace Oaks.HandLex.Kotlin

open Oaks.Lc

/-- `skip_whitespace` (examples/oak-kotlin/src/lexer/mod.rs:39-53). -/
def skipWhitespace : Code :=
  .scope 2
    ((.mark 2) ;;
     (.loop 3 true ((.look 4) ;; (.chr 4 (.rg 0 1114111)))
       (.ite (.ite (.chr 4 (.rg 32 32)) (.val true) (.chr 4 (.rg 9 9))) (.advc 4) .brk)) ;;
     (.ite (.moved 2) ((.tok 2) ;; (.val true)) (.val false)))

/-- `lex_newline` (examples/oak-kotlin/src/lexer/mod.rs:56-75). -/
def lexNewline : Code :=
  .scope 5
    ((.mark 5) ;;
     (.ite ((.look 8) ;; (.chr 8 (.rg 10 10)))
       ((.adv 1) ;; (.tok 5) ;; (.val true))
       (.ite ((.look 6) ;; (.chr 6 (.rg 13 13)))
         ((.adv 1) ;; (.ite ((.look 7) ;; (.chr 7 (.rg 10 10))) (.adv 1) (.val true)) ;; (.tok 5) ;; (.val true))
         (.val false))))

/-- `lex_comment` (examples/oak-kotlin/src/lexer/mod.rs:78-133). -/
def lexComment : Code :=
  .scope 9
    ((.mark 9) ;;
     (.ite ((.look 10) ;; (.chr 10 (.rg 47 47)))
       ((.adv 1) ;;
        (.ite ((.look 19) ;; (.chr 19 (.rg 47 47)))
          ((.adv 1) ;;
           (.loop 20 true ((.look 21) ;; (.chr 21 (.rg 0 1114111)))
             ((.ite (.ite (.chr 21 (.rg 10 10)) (.val true) (.chr 21 (.rg 13 13))) .brk (.val true)) ;; (.advc 21))) ;;
           (.tok 9) ;;
           (.val true))
          (.ite ((.look 11) ;; (.chr 11 (.rg 42 42)))
            ((.adv 1) ;;
             (.put 12 1) ;;
             (.loop 13 true (.ite (.ask 12 (· > 0)) .more (.val false))
               (.ite ((.look 17) ;; (.chr 17 (.rg 47 47)))
                 ((.adv 1) ;;
                  (.ite ((.look 18) ;; (.chr 18 (.rg 42 42)))
                    ((.adv 1) ;; (.comp 12 12 (· + 1)))
                    (.val true)))
                 (.ite ((.look 15) ;; (.chr 15 (.rg 42 42)))
                   ((.adv 1) ;;
                    (.ite ((.look 16) ;; (.chr 16 (.rg 47 47)))
                      ((.adv 1) ;; (.comp 12 12 (· - 1)))
                      (.val true)))
                   (.ite ((.look 14) ;; (.chr 14 (.rg 0 1114111))) (.advc 14) .brk)))) ;;
             (.tok 9) ;;
             (.val true))
            ((.goto 9) ;; (.val false)))))
       (.val false)))

/-- `lex_string` (examples/oak-kotlin/src/lexer/mod.rs:136-225). -/
def lexString : Code :=
  .scope 22
    ((.mark 22) ;;
     (.ite ((.look 27) ;; (.chr 27 (.rg 34 34)))
       ((.adv 1) ;;
        (.ite ((.look 28) ;; (.chr 28 (.rg 34 34)))
          ((.adv 1) ;;
           (.ite ((.look 29) ;; (.chr 29 (.rg 34 34)))
             ((.adv 1) ;;
              (.loop 30 true .more
                (.ite ((.look 32) ;; (.chr 32 (.rg 34 34)))
                  ((.adv 1) ;;
                   (.ite ((.look 33) ;; (.chr 33 (.rg 34 34)))
                     ((.adv 1) ;; (.ite ((.look 34) ;; (.chr 34 (.rg 34 34))) ((.adv 1) ;; .brk) (.val true)))
                     (.val true)))
                  (.ite ((.look 31) ;; (.chr 31 (.rg 0 1114111))) (.advc 31) .brk))) ;;
              (.tok 22) ;;
              (.ret true))
             ((.tok 22) ;; (.ret true))))
          (.val true)) ;;
        (.loop 35 true ((.look 36) ;; (.chr 36 (.rg 0 1114111)))
          (.ite (.chr 36 (.rg 34 34))
            ((.adv 1) ;; .brk)
            (.ite (.chr 36 (.rg 92 92))
              ((.adv 1) ;; (.ite ((.look 37) ;; (.chr 37 (.rg 0 1114111))) (.advc 37) (.val true)))
              (.ite (.ite (.chr 36 (.rg 10 10)) (.val true) (.chr 36 (.rg 13 13))) .brk (.advc 36))))) ;;
        (.tok 22) ;;
        (.val true))
       (.ite ((.look 23) ;; (.chr 23 (.rg 39 39)))
         ((.adv 1) ;;
          (.loop 24 true ((.look 25) ;; (.chr 25 (.rg 0 1114111)))
            (.ite (.chr 25 (.rg 39 39))
              ((.adv 1) ;; .brk)
              (.ite (.chr 25 (.rg 92 92))
                ((.adv 1) ;; (.ite ((.look 26) ;; (.chr 26 (.rg 0 1114111))) (.advc 26) (.val true)))
                (.ite (.ite (.chr 25 (.rg 10 10)) (.val true) (.chr 25 (.rg 13 13))) .brk (.advc 25))))) ;;
          (.tok 22) ;;
          (.val true))
         (.val false))))

/-- `lex_number` (examples/oak-kotlin/src/lexer/mod.rs:228-282). -/
def lexNumber : Code :=
  .scope 38
    ((.mark 38) ;;
     (.ite ((.look 39) ;; (.chr 39 (.rg 0 1114111)))
       (.ite (.chr 39 (.rg 48 57))
         ((.adv 1) ;;
          (.loop 40 true ((.look 41) ;; (.chr 41 (.rg 0 1114111)))
            (.ite (.ite (.chr 41 (.rg 48 57)) (.val true) (.chr 41 (.rg 95 95))) (.adv 1) .brk)) ;;
          (.ite ((.look 42) ;; (.chr 42 (.rg 46 46)))
            (.ite ((.lookN 43 1) ;; (.chr 43 (.rg 0 1114111)))
              (.ite (.chr 43 (.rg 48 57))
                ((.adv 1) ;;
                 (.loop 44 true ((.look 45) ;; (.chr 45 (.rg 0 1114111)))
                   (.ite (.ite (.chr 45 (.rg 48 57)) (.val true) (.chr 45 (.rg 95 95))) (.adv 1) .brk)))
                (.val true))
              (.val true))
            (.val true)) ;;
          (.ite ((.look 46) ;; (.chr 46 (.or (.rg 101 101) (.rg 69 69))))
            ((.adv 1) ;;
             (.ite ((.look 47) ;; (.chr 47 (.or (.rg 43 43) (.rg 45 45)))) (.adv 1) (.val true)) ;;
             (.loop 48 true ((.look 49) ;; (.chr 49 (.rg 0 1114111)))
               (.ite (.ite (.chr 49 (.rg 48 57)) (.val true) (.chr 49 (.rg 95 95))) (.adv 1) .brk)))
            (.val true)) ;;
          (.tok 38) ;;
          (.ret true))
         (.val true))
       (.val true)) ;;
     (.val false))

/-- `lex_identifier_or_keyword` (examples/oak-kotlin/src/lexer/mod.rs:285-367). -/
def lexIdentifierOrKeyword : Code :=
  .scope 50
    ((.mark 50) ;;
     (.ite ((.look 51) ;; (.chr 51 (.rg 0 1114111)))
       (.ite (.ite (.ite (.chr 51 .alpha) (.val true) (.chr 51 (.rg 95 95))) (.val true) (.chr 51 (.rg 36 36)))
         ((.advc 51) ;;
          (.loop 52 true ((.look 53) ;; (.chr 53 (.rg 0 1114111)))
            (.ite (.ite (.ite (.chr 53 .alnum) (.val true) (.chr 53 (.rg 95 95))) (.val true) (.chr 53 (.rg 36 36)))
              (.advc 53)
              .brk)) ;;
          (.val true) ;;
          (.val true) ;;
          (.tok 50) ;;
          (.val true))
         (.val false))
       (.val false)))

/-- `lex_special_char` (examples/oak-kotlin/src/lexer/mod.rs:370-500). -/
def lexSpecialChar : Code :=
  .scope 54
    ((.mark 54) ;;
     (.ite ((.look 55) ;; (.chr 55 (.rg 0 1114111)))
       ((.ite (.chr 55 (.rg 40 40))
          (.adv 1)
          (.ite (.chr 55 (.rg 41 41))
            (.adv 1)
            (.ite (.chr 55 (.rg 123 123))
              (.adv 1)
              (.ite (.chr 55 (.rg 125 125))
                (.adv 1)
                (.ite (.chr 55 (.rg 91 91))
                  (.adv 1)
                  (.ite (.chr 55 (.rg 93 93))
                    (.adv 1)
                    (.ite (.chr 55 (.rg 44 44))
                      (.adv 1)
                      (.ite (.chr 55 (.rg 59 59))
                        (.adv 1)
                        (.ite (.chr 55 (.rg 58 58))
                          ((.adv 1) ;;
                           (.ite (.ite (.starts [':']) ((.adv 1) ;; (.val true)) (.val false))
                             (.val true)
                             (.val true)))
                          (.ite (.chr 55 (.rg 46 46))
                            ((.adv 1) ;;
                             (.ite (.ite (.starts ['.']) ((.adv 1) ;; (.val true)) (.val false))
                               (.val true)
                               (.val true)))
                            (.ite (.chr 55 (.rg 63 63))
                              (.adv 1)
                              (.ite (.chr 55 (.rg 33 33))
                                ((.adv 1) ;;
                                 (.ite (.ite (.starts ['!']) ((.adv 1) ;; (.val true)) (.val false))
                                   (.val true)
                                   (.ite (.ite (.starts ['=']) ((.adv 1) ;; (.val true)) (.val false))
                                     (.val true)
                                     (.val true))))
                                (.ite (.chr 55 (.rg 43 43))
                                  ((.adv 1) ;;
                                   (.ite (.ite (.starts ['=']) ((.adv 1) ;; (.val true)) (.val false))
                                     (.val true)
                                     (.val true)))
                                  (.ite (.chr 55 (.rg 45 45))
                                    ((.adv 1) ;;
                                     (.ite (.ite (.starts ['=']) ((.adv 1) ;; (.val true)) (.val false))
                                       (.val true)
                                       (.ite (.ite (.starts ['>']) ((.adv 1) ;; (.val true)) (.val false))
                                         (.val true)
                                         (.val true))))
                                    (.ite (.chr 55 (.rg 42 42))
                                      ((.adv 1) ;;
                                       (.ite (.ite (.starts ['=']) ((.adv 1) ;; (.val true)) (.val false))
                                         (.val true)
                                         (.val true)))
                                      (.ite (.chr 55 (.rg 47 47))
                                        ((.adv 1) ;;
                                         (.ite (.ite (.starts ['=']) ((.adv 1) ;; (.val true)) (.val false))
                                           (.val true)
                                           (.val true)))
                                        (.ite (.chr 55 (.rg 37 37))
                                          ((.adv 1) ;;
                                           (.ite (.ite (.starts ['=']) ((.adv 1) ;; (.val true)) (.val false))
                                             (.val true)
                                             (.val true)))
                                          (.ite (.chr 55 (.rg 61 61))
                                            ((.adv 1) ;;
                                             (.ite (.ite (.starts ['=']) ((.adv 1) ;; (.val true)) (.val false))
                                               (.val true)
                                               (.val true)))
                                            (.ite (.chr 55 (.rg 60 60))
                                              ((.adv 1) ;;
                                               (.ite (.ite (.starts ['=']) ((.adv 1) ;; (.val true)) (.val false))
                                                 (.val true)
                                                 (.val true)))
                                              (.ite (.chr 55 (.rg 62 62))
                                                ((.adv 1) ;;
                                                 (.ite (.ite (.starts ['=']) ((.adv 1) ;; (.val true)) (.val false))
                                                   (.val true)
                                                   (.val true)))
                                                (.ite (.chr 55 (.rg 38 38))
                                                  ((.adv 1) ;;
                                                   (.ite (.ite (.starts ['&']) ((.adv 1) ;; (.val true)) (.val false))
                                                     (.val true)
                                                     (.val true)))
                                                  (.ite (.chr 55 (.rg 124 124))
                                                    ((.adv 1) ;;
                                                     (.ite (.ite (.starts ['|']) ((.adv 1) ;; (.val true)) (.val false))
                                                       (.val true)
                                                       (.val true)))
                                                    (.ite (.chr 55 (.rg 94 94))
                                                      (.adv 1)
                                                      (.ite (.chr 55 (.rg 126 126))
                                                        (.adv 1)
                                                        (.ite (.chr 55 (.rg 64 64)) (.adv 1) (.ret false)))))))))))))))))))))))))) ;;
        (.tok 54) ;;
        (.val true))
       (.val false)))

/-- `run` (examples/oak-kotlin/src/lexer/mod.rs:515-558). -/
def run_ : Code :=
  .scope 0
    (.loop 0 false .more
      ((.mark 1) ;;
       (.ite skipWhitespace .cont (.val true)) ;;
       (.ite lexNewline .cont (.val true)) ;;
       (.ite lexComment .cont (.val true)) ;;
       (.ite lexString .cont (.val true)) ;;
       (.ite lexNumber .cont (.val true)) ;;
       (.ite lexIdentifierOrKeyword .cont (.val true)) ;;
       (.ite lexSpecialChar .cont (.val true)) ;;
       (.mark 56) ;;
       (.ite ((.look 57) ;; (.chr 57 (.rg 0 1114111))) ((.advc 57) ;; (.tok 56)) (.val true)) ;;
       (.guard 1)))

end Oaks.HandLex.Kotlin
