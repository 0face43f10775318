import Verif.Model.LexCode

/-
The lexer of the example `oak-haskell` as a program of Model/LexCode.lean, function by function in the order of
the calls. Kinds of tokens and messages are left out.
-/
namespace Oaks.HandLex.Haskell

open Oaks.Lc

/-- `skip_whitespace` (examples/oak-haskell/src/lexer/mod.rs:19-37). -/
def skipWhitespace : Code :=
  .scope 2
    ((.mark 2) ;;
     (.loop 3 true ((.look 4) ;; (.chr 4 (.rg 0 1114111)))
       (.ite (.ite (.chr 4 (.rg 32 32)) (.val true) (.chr 4 (.rg 9 9)))
         ((.look 5) ;; (.ite (.chr 5 (.rg 0 1114111)) (.advc 5) (.val true)))
         .brk)) ;;
     (.ite (.moved 2) ((.tok 2) ;; (.val true)) (.val false)))

/-- `lex_newline` (examples/oak-haskell/src/lexer/mod.rs:39-58). -/
def lexNewline : Code :=
  .scope 6
    ((.mark 6) ;;
     (.ite ((.look 11) ;; (.chr 11 (.rg 10 10)))
       (((.look 12) ;; (.ite (.chr 12 (.rg 0 1114111)) (.advc 12) (.val true))) ;; (.tok 6) ;; (.val true))
       (.ite ((.look 7) ;; (.chr 7 (.rg 13 13)))
         (((.look 8) ;; (.ite (.chr 8 (.rg 0 1114111)) (.advc 8) (.val true))) ;;
          (.ite ((.look 9) ;; (.chr 9 (.rg 10 10)))
            ((.look 10) ;; (.ite (.chr 10 (.rg 0 1114111)) (.advc 10) (.val true)))
            (.val true)) ;;
          (.tok 6) ;;
          (.val true))
         (.val false))))

/-- `lex_single_line_comment` (examples/oak-haskell/src/lexer/mod.rs:60-82). -/
def lexSingleLineComment : Code :=
  .scope 13
    ((.mark 13) ;;
     (.ite ((.look 14) ;; (.chr 14 (.rg 45 45)))
       (.ite ((.lookN 15 1) ;; (.chr 15 (.rg 45 45)))
         ((.adv 2) ;;
          (.loop 16 true ((.look 17) ;; (.chr 17 (.rg 0 1114111)))
            ((.ite (.ite (.chr 17 (.rg 10 10)) (.val true) (.chr 17 (.rg 13 13))) .brk (.val true)) ;;
             (.look 18) ;;
             (.ite (.chr 18 (.rg 0 1114111)) (.advc 18) (.val true)))) ;;
          (.tok 13) ;;
          (.val true))
         (.val false))
       (.val false)))

/-- `lex_multi_line_comment` (examples/oak-haskell/src/lexer/mod.rs:84-117). -/
def lexMultiLineComment : Code :=
  .scope 19
    ((.mark 19) ;;
     (.ite ((.look 20) ;; (.chr 20 (.rg 123 123)))
       (.ite ((.lookN 21 1) ;; (.chr 21 (.rg 45 45)))
         ((.adv 2) ;;
          (.put 22 1) ;;
          (.loop 23 true ((.look 24) ;; (.chr 24 (.rg 0 1114111)))
            (.ite (.ite (.chr 24 (.rg 123 123)) ((.lookN 27 1) ;; (.chr 27 (.rg 45 45))) (.val false))
              ((.comp 22 22 (· + 1)) ;; (.adv 2))
              (.ite (.ite (.chr 24 (.rg 45 45)) ((.lookN 26 1) ;; (.chr 26 (.rg 125 125))) (.val false))
                ((.comp 22 22 (· - 1)) ;; (.adv 2) ;; (.ite (.ask 22 (· == 0)) .brk (.val true)))
                ((.look 25) ;; (.ite (.chr 25 (.rg 0 1114111)) (.advc 25) (.val true)))))) ;;
          (.tok 19) ;;
          (.val true))
         (.val false))
       (.val false)))

/-- `lex_identifier_or_keyword` (examples/oak-haskell/src/lexer/mod.rs:119-149). -/
def lexIdentifierOrKeyword : Code :=
  .scope 28
    ((.mark 28) ;;
     (.ite ((.look 29) ;; (.chr 29 (.rg 0 1114111)))
       (.ite (.ite (.chr 29 (.or (.rg 65 90) (.rg 97 122))) (.val true) (.chr 29 (.rg 95 95)))
         (((.look 30) ;; (.ite (.chr 30 (.rg 0 1114111)) (.advc 30) (.val true))) ;;
          (.loop 31 true ((.look 32) ;; (.chr 32 (.rg 0 1114111)))
            (.ite (.ite (.ite (.chr 32 (.or (.or (.rg 48 57) (.rg 65 90)) (.rg 97 122))) (.val true) (.chr 32 (.rg 95 95)))
                (.val true)
                (.chr 32 (.rg 39 39)))
              ((.look 33) ;; (.ite (.chr 33 (.rg 0 1114111)) (.advc 33) (.val true)))
              .brk)) ;;
          (.mark 34) ;;
          (.val true) ;;
          (.val true) ;;
          (.tokTo 28 34) ;;
          (.val true))
         (.val false))
       (.val false)))

/-- `lex_number` (examples/oak-haskell/src/lexer/mod.rs:178-216). -/
def lexNumber : Code :=
  .scope 35
    ((.mark 35) ;;
     (.ite ((.look 36) ;; (.chr 36 (.rg 0 1114111)))
       (.ite (.chr 36 (.rg 48 57))
         (((.look 37) ;; (.ite (.chr 37 (.rg 0 1114111)) (.advc 37) (.val true))) ;;
          (.loop 38 true ((.look 39) ;; (.chr 39 (.rg 0 1114111)))
            (.ite (.chr 39 (.rg 48 57))
              ((.look 44) ;; (.ite (.chr 44 (.rg 0 1114111)) (.advc 44) (.val true)))
              (.ite (.chr 39 (.rg 46 46))
                ((.look 40) ;;
                 (.ite (.chr 40 (.rg 0 1114111)) (.advc 40) (.val true)) ;;
                 (.loop 41 true ((.look 42) ;; (.chr 42 (.rg 0 1114111)))
                   (.ite (.chr 42 (.rg 48 57))
                     ((.look 43) ;; (.ite (.chr 43 (.rg 0 1114111)) (.advc 43) (.val true)))
                     .brk)) ;;
                 .brk)
                .brk))) ;;
          (.tok 35) ;;
          (.val true))
         (.val false))
       (.val false)))

/-- `lex_string` (examples/oak-haskell/src/lexer/mod.rs:218-247). -/
def lexString : Code :=
  .scope 45
    ((.mark 45) ;;
     (.ite ((.look 46) ;; (.chr 46 (.rg 34 34)))
       (((.look 47) ;; (.ite (.chr 47 (.rg 0 1114111)) (.advc 47) (.val true))) ;;
        (.loop 48 true ((.look 49) ;; (.chr 49 (.rg 0 1114111)))
          (.ite (.chr 49 (.rg 34 34))
            ((.look 54) ;; (.ite (.chr 54 (.rg 0 1114111)) (.advc 54) (.val true)) ;; (.tok 45) ;; (.ret true))
            (.ite (.chr 49 (.rg 92 92))
              ((.look 51) ;;
               (.ite (.chr 51 (.rg 0 1114111)) (.advc 51) (.val true)) ;;
               (.ite ((.look 52) ;; (.chr 52 (.rg 0 1114111)))
                 ((.look 53) ;; (.ite (.chr 53 (.rg 0 1114111)) (.advc 53) (.val true)))
                 (.val true)))
              ((.look 50) ;; (.ite (.chr 50 (.rg 0 1114111)) (.advc 50) (.val true)))))) ;;
        (.tok 45) ;;
        (.val true))
       (.val false)))

/-- `lex_char` (examples/oak-haskell/src/lexer/mod.rs:249-280). -/
def lexChar : Code :=
  .scope 55
    ((.mark 55) ;;
     (.ite ((.look 56) ;; (.chr 56 (.rg 39 39)))
       (((.look 57) ;; (.ite (.chr 57 (.rg 0 1114111)) (.advc 57) (.val true))) ;;
        (.ite ((.look 58) ;; (.chr 58 (.rg 0 1114111)))
          (.ite (.chr 58 (.rg 92 92))
            ((.look 60) ;;
             (.ite (.chr 60 (.rg 0 1114111)) (.advc 60) (.val true)) ;;
             (.ite ((.look 61) ;; (.chr 61 (.rg 0 1114111)))
               ((.look 62) ;; (.ite (.chr 62 (.rg 0 1114111)) (.advc 62) (.val true)))
               (.val true)))
            (.ite (.ite (.chr 58 (.rg 39 39)) (.val false) (.val true))
              ((.look 59) ;; (.ite (.chr 59 (.rg 0 1114111)) (.advc 59) (.val true)))
              (.val true)))
          (.val true)) ;;
        (.ite ((.look 63) ;; (.chr 63 (.rg 39 39)))
          (((.look 64) ;; (.ite (.chr 64 (.rg 0 1114111)) (.advc 64) (.val true))) ;; (.tok 55) ;; (.val true))
          ((.tok 55) ;; (.val true))))
       (.val false)))

/-- `lex_operators` (examples/oak-haskell/src/lexer/mod.rs:282-422). -/
def lexOperators : Code :=
  .scope 65
    ((.mark 65) ;;
     (.ite ((.look 66) ;; (.chr 66 (.rg 0 1114111)))
       ((.ite (.chr 66 (.rg 43 43))
          ((.look 100) ;;
           (.ite (.chr 100 (.rg 0 1114111)) (.advc 100) (.val true)) ;;
           (.ite ((.look 101) ;; (.chr 101 (.rg 43 43)))
             ((.look 102) ;; (.ite (.chr 102 (.rg 0 1114111)) (.advc 102) (.val true)))
             (.val true)))
          (.ite (.chr 66 (.rg 45 45))
            ((.look 97) ;;
             (.ite (.chr 97 (.rg 0 1114111)) (.advc 97) (.val true)) ;;
             (.ite ((.look 98) ;; (.chr 98 (.rg 62 62)))
               ((.look 99) ;; (.ite (.chr 99 (.rg 0 1114111)) (.advc 99) (.val true)))
               (.val true)))
            (.ite (.chr 66 (.rg 42 42))
              ((.look 96) ;; (.ite (.chr 96 (.rg 0 1114111)) (.advc 96) (.val true)))
              (.ite (.chr 66 (.rg 47 47))
                ((.look 95) ;; (.ite (.chr 95 (.rg 0 1114111)) (.advc 95) (.val true)))
                (.ite (.chr 66 (.rg 61 61))
                  ((.look 92) ;;
                   (.ite (.chr 92 (.rg 0 1114111)) (.advc 92) (.val true)) ;;
                   (.ite ((.look 93) ;; (.chr 93 (.rg 61 61)))
                     ((.look 94) ;; (.ite (.chr 94 (.rg 0 1114111)) (.advc 94) (.val true)))
                     (.val true)))
                  (.ite (.chr 66 (.rg 60 60))
                    ((.look 87) ;;
                     (.ite (.chr 87 (.rg 0 1114111)) (.advc 87) (.val true)) ;;
                     (.ite ((.look 90) ;; (.chr 90 (.rg 61 61)))
                       ((.look 91) ;; (.ite (.chr 91 (.rg 0 1114111)) (.advc 91) (.val true)))
                       (.ite ((.look 88) ;; (.chr 88 (.rg 45 45)))
                         ((.look 89) ;; (.ite (.chr 89 (.rg 0 1114111)) (.advc 89) (.val true)))
                         (.val true))))
                    (.ite (.chr 66 (.rg 62 62))
                      ((.look 84) ;;
                       (.ite (.chr 84 (.rg 0 1114111)) (.advc 84) (.val true)) ;;
                       (.ite ((.look 85) ;; (.chr 85 (.rg 61 61)))
                         ((.look 86) ;; (.ite (.chr 86 (.rg 0 1114111)) (.advc 86) (.val true)))
                         (.val true)))
                      (.ite (.chr 66 (.rg 58 58))
                        ((.look 81) ;;
                         (.ite (.chr 81 (.rg 0 1114111)) (.advc 81) (.val true)) ;;
                         (.ite ((.look 82) ;; (.chr 82 (.rg 58 58)))
                           ((.look 83) ;; (.ite (.chr 83 (.rg 0 1114111)) (.advc 83) (.val true)))
                           (.val true)))
                        (.ite (.chr 66 (.rg 124 124))
                          ((.look 80) ;; (.ite (.chr 80 (.rg 0 1114111)) (.advc 80) (.val true)))
                          (.ite (.chr 66 (.rg 38 38))
                            ((.look 79) ;; (.ite (.chr 79 (.rg 0 1114111)) (.advc 79) (.val true)))
                            (.ite (.chr 66 (.rg 33 33))
                              ((.look 78) ;; (.ite (.chr 78 (.rg 0 1114111)) (.advc 78) (.val true)))
                              (.ite (.chr 66 (.rg 63 63))
                                ((.look 77) ;; (.ite (.chr 77 (.rg 0 1114111)) (.advc 77) (.val true)))
                                (.ite (.chr 66 (.rg 59 59))
                                  ((.look 76) ;; (.ite (.chr 76 (.rg 0 1114111)) (.advc 76) (.val true)))
                                  (.ite (.chr 66 (.rg 44 44))
                                    ((.look 75) ;; (.ite (.chr 75 (.rg 0 1114111)) (.advc 75) (.val true)))
                                    (.ite (.chr 66 (.rg 46 46))
                                      ((.look 72) ;;
                                       (.ite (.chr 72 (.rg 0 1114111)) (.advc 72) (.val true)) ;;
                                       (.ite ((.look 73) ;; (.chr 73 (.rg 46 46)))
                                         ((.look 74) ;; (.ite (.chr 74 (.rg 0 1114111)) (.advc 74) (.val true)))
                                         (.val true)))
                                      (.ite (.chr 66 (.rg 36 36))
                                        ((.look 71) ;; (.ite (.chr 71 (.rg 0 1114111)) (.advc 71) (.val true)))
                                        (.ite (.chr 66 (.rg 64 64))
                                          ((.look 70) ;; (.ite (.chr 70 (.rg 0 1114111)) (.advc 70) (.val true)))
                                          (.ite (.chr 66 (.rg 126 126))
                                            ((.look 69) ;; (.ite (.chr 69 (.rg 0 1114111)) (.advc 69) (.val true)))
                                            (.ite (.chr 66 (.rg 92 92))
                                              ((.look 68) ;; (.ite (.chr 68 (.rg 0 1114111)) (.advc 68) (.val true)))
                                              (.ite (.chr 66 (.rg 96 96))
                                                ((.look 67) ;;
                                                 (.ite (.chr 67 (.rg 0 1114111)) (.advc 67) (.val true)))
                                                (.ret false))))))))))))))))))))) ;;
        (.tok 65) ;;
        (.val true))
       (.val false)))

/-- `lex_delimiters` (examples/oak-haskell/src/lexer/mod.rs:424-462). -/
def lexDelimiters : Code :=
  .scope 103
    ((.mark 103) ;;
     (.ite ((.look 104) ;; (.chr 104 (.rg 0 1114111)))
       ((.ite (.chr 104 (.rg 40 40))
          ((.look 110) ;; (.ite (.chr 110 (.rg 0 1114111)) (.advc 110) (.val true)))
          (.ite (.chr 104 (.rg 41 41))
            ((.look 109) ;; (.ite (.chr 109 (.rg 0 1114111)) (.advc 109) (.val true)))
            (.ite (.chr 104 (.rg 91 91))
              ((.look 108) ;; (.ite (.chr 108 (.rg 0 1114111)) (.advc 108) (.val true)))
              (.ite (.chr 104 (.rg 93 93))
                ((.look 107) ;; (.ite (.chr 107 (.rg 0 1114111)) (.advc 107) (.val true)))
                (.ite (.chr 104 (.rg 123 123))
                  ((.look 106) ;; (.ite (.chr 106 (.rg 0 1114111)) (.advc 106) (.val true)))
                  (.ite (.chr 104 (.rg 125 125))
                    ((.look 105) ;; (.ite (.chr 105 (.rg 0 1114111)) (.advc 105) (.val true)))
                    (.ret false))))))) ;;
        (.tok 103) ;;
        (.val true))
       (.val false)))

/-- `lex` (examples/oak-haskell/src/lexer/mod.rs:466-526). -/
def lex : Code :=
  .scope 0
    ((.loop 0 false .more
       ((.mark 1) ;;
        (.ite skipWhitespace .cont (.val true)) ;;
        (.ite lexNewline .cont (.val true)) ;;
        (.ite lexSingleLineComment .cont (.val true)) ;;
        (.ite lexMultiLineComment .cont (.val true)) ;;
        (.ite lexIdentifierOrKeyword .cont (.val true)) ;;
        (.ite lexNumber .cont (.val true)) ;;
        (.ite lexString .cont (.val true)) ;;
        (.ite lexChar .cont (.val true)) ;;
        (.ite lexOperators .cont (.val true)) ;;
        (.ite lexDelimiters .cont (.val true)) ;;
        (.mark 111) ;;
        (.ite ((.look 112) ;; (.chr 112 (.rg 0 1114111))) ((.adv 1) ;; (.tok 111)) (.val true)) ;;
        (.guard 1))) ;;
     (.mark 113) ;;
     (.tokTo 113 113))

end Oaks.HandLex.Haskell
