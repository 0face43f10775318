import Verif.Model.LexCode

/-
The lexer of the example `oak-php` as a program of Model/LexCode.lean, function by function in the order of
the calls. Kinds of tokens and messages are left out.
-/
namespace Oaks.HandLex.Php

open Oaks.Lc

/-- `skip_whitespace` (examples/oak-php/src/lexer/mod.rs:79-98). -/
def skipWhitespace : Code :=
  .scope 1
    ((.mark 1) ;;
     (.loop 2 true ((.look 3) ;; (.chr 3 (.rg 0 1114111)))
       (.ite (.ite (.chr 3 (.rg 32 32)) (.val true) (.chr 3 (.rg 9 9))) (.advc 3) .brk)) ;;
     (.ite (.moved 1) ((.tok 1) ;; (.val true)) (.val false)))

/-- `lex_newline` (examples/oak-php/src/lexer/mod.rs:100-119). -/
def lexNewline : Code :=
  .scope 4
    ((.mark 4) ;;
     (.ite ((.look 7) ;; (.chr 7 (.rg 10 10)))
       ((.adv 1) ;; (.tok 4) ;; (.val true))
       (.ite ((.look 5) ;; (.chr 5 (.rg 13 13)))
         ((.adv 1) ;; (.ite ((.look 6) ;; (.chr 6 (.rg 10 10))) (.adv 1) (.val true)) ;; (.tok 4) ;; (.val true))
         (.val false))))

/-- `lex_comment` (examples/oak-php/src/lexer/mod.rs:121-177). -/
def lexComment : Code :=
  .scope 8
    ((.mark 8) ;;
     (.ite ((.look 12) ;; (.chr 12 (.rg 47 47)))
       ((.adv 1) ;;
        (.ite ((.look 17) ;; (.chr 17 (.rg 47 47)))
          ((.adv 1) ;;
           (.loop 18 true ((.look 19) ;; (.chr 19 (.rg 0 1114111)))
             ((.ite (.ite (.chr 19 (.rg 10 10)) (.val true) (.chr 19 (.rg 13 13))) .brk (.val true)) ;; (.advc 19))) ;;
           (.tok 8) ;;
           (.ret true))
          (.ite ((.look 13) ;; (.chr 13 (.rg 42 42)))
            ((.adv 1) ;;
             (.loop 14 true ((.look 15) ;; (.chr 15 (.rg 0 1114111)))
               (.ite (.chr 15 (.rg 42 42))
                 ((.adv 1) ;; (.ite ((.look 16) ;; (.chr 16 (.rg 47 47))) ((.adv 1) ;; .brk) (.val true)))
                 (.advc 15))) ;;
             (.tok 8) ;;
             (.ret true))
            ((.goto 8) ;; (.ret false)))))
       (.ite ((.look 9) ;; (.chr 9 (.rg 35 35)))
         ((.adv 1) ;;
          (.loop 10 true ((.look 11) ;; (.chr 11 (.rg 0 1114111)))
            ((.ite (.ite (.chr 11 (.rg 10 10)) (.val true) (.chr 11 (.rg 13 13))) .brk (.val true)) ;; (.advc 11))) ;;
          (.tok 8) ;;
          (.val true))
         (.val false))))

/-- `lex_string` (examples/oak-php/src/lexer/mod.rs:179-219). -/
def lexString : Code :=
  .scope 20
    ((.mark 20) ;;
     (.ite ((.look 21) ;; (.chr 21 (.rg 0 1114111)))
       (.ite (.ite (.chr 21 (.rg 34 34)) (.val true) (.chr 21 (.rg 39 39)))
         ((.adv 1) ;;
          (.put 22 0) ;;
          (.loop 23 true ((.look 24) ;; (.chr 24 (.rg 0 1114111)))
            (.ite (.flag 22)
              ((.put 22 0) ;; (.advc 24))
              (.ite (.chr 24 (.rg 92 92))
                ((.put 22 1) ;; (.adv 1))
                (.ite (.same 24 21)
                  ((.adv 1) ;; .brk)
                  (.ite (.ite (.chr 24 (.rg 10 10)) (.val true) (.chr 24 (.rg 13 13))) .brk (.advc 24)))))) ;;
          (.tok 20) ;;
          (.val true))
         (.val false))
       (.val false)))

/-- `lex_number` (examples/oak-php/src/lexer/mod.rs:221-280). -/
def lexNumber : Code :=
  .scope 25
    (.ite ((.look 25) ;; (.chr 25 (.rg 0 1114111)))
      (.ite (.chr 25 (.rg 48 57))
        ((.mark 26) ;;
         (.loop 27 true ((.look 28) ;; (.chr 28 (.rg 0 1114111))) (.ite (.chr 28 (.rg 48 57)) (.adv 1) .brk)) ;;
         (.ite ((.look 29) ;; (.chr 29 (.rg 46 46)))
           ((.adv 1) ;;
            (.loop 30 true ((.look 31) ;; (.chr 31 (.rg 0 1114111))) (.ite (.chr 31 (.rg 48 57)) (.adv 1) .brk)))
           (.val true)) ;;
         (.ite ((.look 32) ;; (.chr 32 (.rg 0 1114111)))
           (.ite (.ite (.chr 32 (.rg 101 101)) (.val true) (.chr 32 (.rg 69 69)))
             ((.adv 1) ;;
              (.ite ((.look 33) ;; (.chr 33 (.rg 0 1114111)))
                (.ite (.ite (.chr 33 (.rg 43 43)) (.val true) (.chr 33 (.rg 45 45))) (.adv 1) (.val true))
                (.val true)) ;;
              (.loop 34 true ((.look 35) ;; (.chr 35 (.rg 0 1114111))) (.ite (.chr 35 (.rg 48 57)) (.adv 1) .brk)))
             (.val true))
           (.val true)) ;;
         (.tok 26) ;;
         (.val true))
        (.val false))
      (.val false))

/-- `lex_identifier_or_keyword` (examples/oak-php/src/lexer/mod.rs:282-384). -/
def lexIdentifierOrKeyword : Code :=
  .scope 36
    (.ite ((.look 36) ;; (.chr 36 (.rg 0 1114111)))
      (.ite (.ite (.ite (.chr 36 .alpha) (.val true) (.chr 36 (.rg 95 95))) (.val true) (.chr 36 (.rg 36 36)))
        ((.mark 37) ;;
         (.loop 38 true ((.look 39) ;; (.chr 39 (.rg 0 1114111)))
           (.ite (.ite (.ite (.chr 39 .alnum) (.val true) (.chr 39 (.rg 95 95))) (.val true) (.chr 39 (.rg 36 36)))
             (.advc 39)
             .brk)) ;;
         (.mark 40) ;;
         (.val true) ;;
         (.val true) ;;
         (.tok 37) ;;
         (.val true))
        (.val false))
      (.val false))

/-- `lex_operators_and_punctuation` (examples/oak-php/src/lexer/mod.rs:386-658). -/
def lexOperatorsAndPunctuation : Code :=
  .scope 41
    (.ite ((.look 41) ;; (.chr 41 (.rg 0 1114111)))
      ((.mark 42) ;;
       (.ite (.chr 41 (.rg 43 43))
         ((.adv 1) ;;
          (.ite ((.look 71) ;; (.chr 71 (.rg 43 43)))
            (.adv 1)
            (.ite ((.look 70) ;; (.chr 70 (.rg 61 61))) (.adv 1) (.val true))))
         (.ite (.chr 41 (.rg 45 45))
           ((.adv 1) ;;
            (.ite ((.look 69) ;; (.chr 69 (.rg 45 45)))
              (.adv 1)
              (.ite ((.look 68) ;; (.chr 68 (.rg 61 61)))
                (.adv 1)
                (.ite ((.look 67) ;; (.chr 67 (.rg 62 62))) (.adv 1) (.val true)))))
           (.ite (.chr 41 (.rg 42 42))
             ((.adv 1) ;;
              (.ite ((.look 66) ;; (.chr 66 (.rg 42 42)))
                (.adv 1)
                (.ite ((.look 65) ;; (.chr 65 (.rg 61 61))) (.adv 1) (.val true))))
             (.ite (.chr 41 (.rg 47 47))
               ((.adv 1) ;; (.ite ((.look 64) ;; (.chr 64 (.rg 61 61))) (.adv 1) (.val true)))
               (.ite (.chr 41 (.rg 37 37))
                 ((.adv 1) ;; (.ite ((.look 63) ;; (.chr 63 (.rg 61 61))) (.adv 1) (.val true)))
                 (.ite (.chr 41 (.rg 61 61))
                   ((.adv 1) ;;
                    (.ite ((.look 61) ;; (.chr 61 (.rg 61 61)))
                      ((.adv 1) ;; (.ite ((.look 62) ;; (.chr 62 (.rg 61 61))) (.adv 1) (.val true)))
                      (.ite ((.look 60) ;; (.chr 60 (.rg 62 62))) (.adv 1) (.val true))))
                   (.ite (.chr 41 (.rg 33 33))
                     ((.adv 1) ;;
                      (.ite ((.look 58) ;; (.chr 58 (.rg 61 61)))
                        ((.adv 1) ;; (.ite ((.look 59) ;; (.chr 59 (.rg 61 61))) (.adv 1) (.val true)))
                        (.val true)))
                     (.ite (.chr 41 (.rg 60 60))
                       ((.adv 1) ;;
                        (.ite ((.look 57) ;; (.chr 57 (.rg 61 61)))
                          (.adv 1)
                          (.ite ((.look 55) ;; (.chr 55 (.rg 60 60)))
                            ((.adv 1) ;; (.ite ((.look 56) ;; (.chr 56 (.rg 61 61))) (.adv 1) (.val true)))
                            (.ite ((.look 54) ;; (.chr 54 (.rg 62 62))) (.adv 1) (.val true)))))
                       (.ite (.chr 41 (.rg 62 62))
                         ((.adv 1) ;;
                          (.ite ((.look 53) ;; (.chr 53 (.rg 61 61)))
                            (.adv 1)
                            (.ite ((.look 51) ;; (.chr 51 (.rg 62 62)))
                              ((.adv 1) ;; (.ite ((.look 52) ;; (.chr 52 (.rg 61 61))) (.adv 1) (.val true)))
                              (.val true))))
                         (.ite (.chr 41 (.rg 38 38))
                           ((.adv 1) ;;
                            (.ite ((.look 50) ;; (.chr 50 (.rg 38 38)))
                              (.adv 1)
                              (.ite ((.look 49) ;; (.chr 49 (.rg 61 61))) (.adv 1) (.val true))))
                           (.ite (.chr 41 (.rg 124 124))
                             ((.adv 1) ;;
                              (.ite ((.look 48) ;; (.chr 48 (.rg 124 124)))
                                (.adv 1)
                                (.ite ((.look 47) ;; (.chr 47 (.rg 61 61))) (.adv 1) (.val true))))
                             (.ite (.chr 41 (.rg 94 94))
                               ((.adv 1) ;; (.ite ((.look 46) ;; (.chr 46 (.rg 61 61))) (.adv 1) (.val true)))
                               (.ite (.chr 41 (.rg 126 126))
                                 (.adv 1)
                                 (.ite (.chr 41 (.rg 63 63))
                                   ((.adv 1) ;; (.ite ((.look 45) ;; (.chr 45 (.rg 63 63))) (.adv 1) (.val true)))
                                   (.ite (.chr 41 (.rg 58 58))
                                     ((.adv 1) ;; (.ite ((.look 44) ;; (.chr 44 (.rg 58 58))) (.adv 1) (.val true)))
                                     (.ite (.chr 41 (.rg 59 59))
                                       (.adv 1)
                                       (.ite (.chr 41 (.rg 44 44))
                                         (.adv 1)
                                         (.ite (.chr 41 (.rg 46 46))
                                           ((.adv 1) ;;
                                            (.ite ((.look 43) ;; (.chr 43 (.rg 61 61))) (.adv 1) (.val true)))
                                           (.ite (.chr 41 (.rg 40 40))
                                             (.adv 1)
                                             (.ite (.chr 41 (.rg 41 41))
                                               (.adv 1)
                                               (.ite (.chr 41 (.rg 91 91))
                                                 (.adv 1)
                                                 (.ite (.chr 41 (.rg 93 93))
                                                   (.adv 1)
                                                   (.ite (.chr 41 (.rg 123 123))
                                                     (.adv 1)
                                                     (.ite (.chr 41 (.rg 125 125))
                                                       (.adv 1)
                                                       (.ite (.chr 41 (.rg 36 36))
                                                         (.adv 1)
                                                         (.ite (.chr 41 (.rg 64 64)) (.adv 1) (.ret false))))))))))))))))))))))))))) ;;
       (.tok 42) ;;
       (.val true))
      (.val false))

/-- `run` (examples/oak-php/src/lexer/mod.rs:34-77). -/
def run_ : Code :=
  .scope 0
    (.loop 0 false .more
      ((.ite skipWhitespace .cont (.val true)) ;;
       (.ite lexNewline .cont (.val true)) ;;
       (.ite lexComment .cont (.val true)) ;;
       (.ite lexString .cont (.val true)) ;;
       (.ite lexNumber .cont (.val true)) ;;
       (.ite lexIdentifierOrKeyword .cont (.val true)) ;;
       (.ite lexOperatorsAndPunctuation .cont (.val true)) ;;
       (.ite ((.look 72) ;; (.chr 72 (.rg 0 1114111))) ((.mark 73) ;; (.advc 72) ;; (.tok 73)) .brk)))

end Oaks.HandLex.Php
