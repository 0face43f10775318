import Verif.Model.LexCode

/-
The lexer of the example `oak-swift` as a program of Model/LexCode.lean, function by function in the order of
the calls. Kinds of tokens and messages are left out.
-/
namespace Oaks.HandLex.Swift

open Oaks.Lc

/-- `skip_whitespace` (examples/oak-swift/src/lexer/mod.rs:32-51). -/
def skipWhitespace : Code :=
  .scope 2
    ((.mark 2) ;;
     (.loop 3 true ((.look 4) ;; (.chr 4 (.rg 0 1114111)))
       (.ite (.ite (.chr 4 (.rg 32 32)) (.val true) (.chr 4 (.rg 9 9))) (.advc 4) .brk)) ;;
     (.ite (.moved 2) ((.tok 2) ;; (.val true)) (.val false)))

/-- `lex_newline` (examples/oak-swift/src/lexer/mod.rs:54-73). -/
def lexNewline : Code :=
  .scope 5
    ((.mark 5) ;;
     (.ite ((.look 8) ;; (.chr 8 (.rg 10 10)))
       ((.adv 1) ;; (.tok 5) ;; (.val true))
       (.ite ((.look 6) ;; (.chr 6 (.rg 13 13)))
         ((.adv 1) ;; (.ite ((.look 7) ;; (.chr 7 (.rg 10 10))) (.adv 1) (.val true)) ;; (.tok 5) ;; (.val true))
         (.val false))))

/-- `lex_comment` (examples/oak-swift/src/lexer/mod.rs:76-126). -/
def lexComment : Code :=
  .scope 9
    ((.mark 9) ;;
     (.ite ((.look 10) ;; (.chr 10 (.rg 47 47)))
       (.ite ((.lookN 17 1) ;; (.chr 17 (.rg 47 47)))
         ((.adv 2) ;;
          (.loop 18 true ((.look 19) ;; (.chr 19 (.rg 0 1114111)))
            ((.ite (.ite (.chr 19 (.rg 10 10)) (.val true) (.chr 19 (.rg 13 13))) .brk (.val true)) ;; (.advc 19))) ;;
          (.tok 9) ;;
          (.val true))
         (.ite ((.lookN 11 1) ;; (.chr 11 (.rg 42 42)))
           ((.adv 2) ;;
            (.put 12 1) ;;
            (.loop 13 true ((.look 14) ;; (.chr 14 (.rg 0 1114111)))
              (.ite (.ite (.chr 14 (.rg 47 47)) ((.lookN 16 1) ;; (.chr 16 (.rg 42 42))) (.val false))
                ((.adv 2) ;; (.comp 12 12 (· + 1)))
                (.ite (.ite (.chr 14 (.rg 42 42)) ((.lookN 15 1) ;; (.chr 15 (.rg 47 47))) (.val false))
                  ((.adv 2) ;; (.comp 12 12 (· - 1)) ;; (.ite (.ask 12 (· == 0)) .brk (.val true)))
                  (.advc 14)))) ;;
            (.tok 9) ;;
            (.val true))
           (.val false)))
       (.val false)))

/-- `lex_string_literal` (examples/oak-swift/src/lexer/mod.rs:378-429). -/
def lexStringLiteral : Code :=
  .scope 20
    ((.mark 20) ;;
     (.ite ((.look 21) ;; (.chr 21 (.rg 34 34)))
       ((.ite ((.lookN 22 1) ;; (.chr 22 (.rg 34 34)))
          (.ite ((.lookN 23 2) ;; (.chr 23 (.rg 34 34)))
            ((.adv 3) ;;
             (.loop 24 true ((.look 25) ;; (.chr 25 (.rg 0 1114111)))
               ((.ite (.chr 25 (.rg 34 34))
                  (.ite ((.lookN 26 1) ;; (.chr 26 (.rg 34 34)))
                    (.ite ((.lookN 27 2) ;; (.chr 27 (.rg 34 34))) ((.adv 3) ;; .brk) (.val true))
                    (.val true))
                  (.val true)) ;;
                (.advc 25))) ;;
             (.tok 20) ;;
             (.ret true))
            (.val true))
          (.val true)) ;;
        (.adv 1) ;;
        (.loop 28 true ((.look 29) ;; (.chr 29 (.rg 0 1114111)))
          (.ite (.chr 29 (.rg 34 34))
            ((.adv 1) ;; .brk)
            (.ite (.chr 29 (.rg 92 92))
              ((.adv 1) ;; (.ite ((.look 30) ;; (.chr 30 (.rg 0 1114111))) (.adv 1) (.val true)))
              (.ite (.ite (.chr 29 (.rg 10 10)) (.val true) (.chr 29 (.rg 13 13))) .brk (.advc 29))))) ;;
        (.tok 20) ;;
        (.val true))
       (.val false)))

/-- `lex_number_literal` (examples/oak-swift/src/lexer/mod.rs:261-375). -/
def lexNumberLiteral : Code :=
  .scope 31
    ((.mark 31) ;;
     (.ite ((.look 32) ;; (.chr 32 (.rg 0 1114111)))
       (.ite (.chr 32 (.rg 48 57))
         ((.adv 1) ;;
          (.ite (.chr 32 (.rg 48 48))
            (.ite ((.look 43) ;; (.chr 43 (.or (.rg 98 98) (.rg 66 66))))
              ((.adv 1) ;;
               (.loop 44 true ((.look 45) ;; (.chr 45 (.rg 0 1114111)))
                 (.ite (.ite (.ite (.chr 45 (.rg 48 48)) (.val true) (.chr 45 (.rg 49 49)))
                     (.val true)
                     (.chr 45 (.rg 95 95)))
                   (.adv 1)
                   .brk)))
              (.ite ((.look 40) ;; (.chr 40 (.or (.rg 111 111) (.rg 79 79))))
                ((.adv 1) ;;
                 (.loop 41 true ((.look 42) ;; (.chr 42 (.rg 0 1114111)))
                   (.ite (.ite (.ite (.chr 42 (.rg 48 57)) (.chr 42 (.rg 0 55)) (.val false))
                       (.val true)
                       (.chr 42 (.rg 95 95)))
                     (.adv 1)
                     .brk)))
                (.ite ((.look 37) ;; (.chr 37 (.or (.rg 120 120) (.rg 88 88))))
                  ((.adv 1) ;;
                   (.loop 38 true ((.look 39) ;; (.chr 39 (.rg 0 1114111)))
                     (.ite (.ite (.chr 39 (.or (.or (.rg 48 57) (.rg 65 70)) (.rg 97 102)))
                         (.val true)
                         (.chr 39 (.rg 95 95)))
                       (.adv 1)
                       .brk)))
                  (.loop 35 true ((.look 36) ;; (.chr 36 (.rg 0 1114111)))
                    (.ite (.ite (.chr 36 (.rg 48 57)) (.val true) (.chr 36 (.rg 95 95))) (.adv 1) .brk)))))
            (.loop 33 true ((.look 34) ;; (.chr 34 (.rg 0 1114111)))
              (.ite (.ite (.chr 34 (.rg 48 57)) (.val true) (.chr 34 (.rg 95 95))) (.adv 1) .brk))) ;;
          (.ite ((.look 46) ;; (.chr 46 (.rg 46 46)))
            (.ite ((.lookN 47 1) ;; (.chr 47 (.rg 0 1114111)))
              (.ite (.ite (.chr 47 (.rg 46 46)) (.val false) (.val true))
                ((.adv 1) ;;
                 (.loop 48 true ((.look 49) ;; (.chr 49 (.rg 0 1114111)))
                   (.ite (.ite (.chr 49 (.rg 48 57)) (.val true) (.chr 49 (.rg 95 95))) (.adv 1) .brk)))
                (.val true))
              (.adv 1))
            (.val true)) ;;
          (.ite ((.look 50) ;; (.chr 50 (.or (.rg 101 101) (.rg 69 69))))
            ((.adv 1) ;;
             (.ite ((.look 51) ;; (.chr 51 (.or (.rg 43 43) (.rg 45 45)))) (.adv 1) (.val true)) ;;
             (.loop 52 true ((.look 53) ;; (.chr 53 (.rg 0 1114111)))
               (.ite (.ite (.chr 53 (.rg 48 57)) (.val true) (.chr 53 (.rg 95 95))) (.adv 1) .brk)))
            (.val true)) ;;
          (.tok 31) ;;
          (.val true))
         (.val false))
       (.val false)))

/-- `lex_identifier_or_keyword` (examples/oak-swift/src/lexer/mod.rs:129-258). -/
def lexIdentifierOrKeyword : Code :=
  .scope 54
    ((.mark 54) ;;
     (.ite ((.look 56) ;; (.chr 56 (.rg 96 96))) ((.adv 1) ;; (.put 55 1)) (.put 55 0)) ;;
     (.ite ((.look 57) ;; (.chr 57 (.rg 0 1114111)))
       (.ite (.ite (.chr 57 (.or (.rg 65 90) (.rg 97 122))) (.val true) (.chr 57 (.rg 95 95)))
         ((.advc 57) ;;
          (.loop 58 true ((.look 59) ;; (.chr 59 (.rg 0 1114111)))
            (.ite (.ite (.chr 59 (.or (.or (.rg 48 57) (.rg 65 90)) (.rg 97 122))) (.val true) (.chr 59 (.rg 95 95)))
              (.advc 59)
              .brk)) ;;
          (.ite (.flag 55)
            ((.ite ((.look 60) ;; (.chr 60 (.rg 96 96))) (.adv 1) (.val true)) ;; (.tok 54) ;; (.ret true))
            (.val true)) ;;
          (.val true) ;;
          (.val true) ;;
          (.tok 54) ;;
          (.val true))
         ((.ite (.flag 55) (.goto 54) (.val true)) ;; (.val false)))
       ((.ite (.flag 55) (.goto 54) (.val true)) ;; (.val false))))

/-- `lex_operator` (examples/oak-swift/src/lexer/mod.rs:432-632). -/
def lexOperator : Code :=
  .scope 61
    ((.mark 61) ;;
     (.ite ((.look 62) ;; (.chr 62 (.rg 0 1114111)))
       ((.ite (.chr 62 (.rg 43 43))
          ((.adv 1) ;; (.ite ((.look 79) ;; (.chr 79 (.rg 61 61))) (.adv 1) (.val true)))
          (.ite (.chr 62 (.rg 45 45))
            ((.adv 1) ;;
             (.look 78) ;;
             (.ite (.chr 78 (.rg 61 61)) (.adv 1) (.ite (.chr 78 (.rg 62 62)) (.adv 1) (.val true))))
            (.ite (.chr 62 (.rg 42 42))
              ((.adv 1) ;; (.ite ((.look 77) ;; (.chr 77 (.rg 61 61))) (.adv 1) (.val true)))
              (.ite (.chr 62 (.rg 47 47))
                ((.adv 1) ;; (.ite ((.look 76) ;; (.chr 76 (.rg 61 61))) (.adv 1) (.val true)))
                (.ite (.chr 62 (.rg 37 37))
                  ((.adv 1) ;; (.ite ((.look 75) ;; (.chr 75 (.rg 61 61))) (.adv 1) (.val true)))
                  (.ite (.chr 62 (.rg 61 61))
                    ((.adv 1) ;; (.ite ((.look 74) ;; (.chr 74 (.rg 61 61))) (.adv 1) (.val true)))
                    (.ite (.chr 62 (.rg 33 33))
                      ((.adv 1) ;; (.ite ((.look 73) ;; (.chr 73 (.rg 61 61))) (.adv 1) (.val true)))
                      (.ite (.chr 62 (.rg 60 60))
                        ((.adv 1) ;;
                         (.look 71) ;;
                         (.ite (.chr 71 (.rg 61 61))
                           (.adv 1)
                           (.ite (.chr 71 (.rg 60 60))
                             ((.adv 1) ;; (.ite ((.look 72) ;; (.chr 72 (.rg 61 61))) (.adv 1) (.val true)))
                             (.val true))))
                        (.ite (.chr 62 (.rg 62 62))
                          ((.adv 1) ;;
                           (.look 69) ;;
                           (.ite (.chr 69 (.rg 61 61))
                             (.adv 1)
                             (.ite (.chr 69 (.rg 62 62))
                               ((.adv 1) ;; (.ite ((.look 70) ;; (.chr 70 (.rg 61 61))) (.adv 1) (.val true)))
                               (.val true))))
                          (.ite (.chr 62 (.rg 38 38))
                            ((.adv 1) ;;
                             (.look 68) ;;
                             (.ite (.chr 68 (.rg 38 38)) (.adv 1) (.ite (.chr 68 (.rg 61 61)) (.adv 1) (.val true))))
                            (.ite (.chr 62 (.rg 124 124))
                              ((.adv 1) ;;
                               (.look 67) ;;
                               (.ite (.chr 67 (.rg 124 124))
                                 (.adv 1)
                                 (.ite (.chr 67 (.rg 61 61)) (.adv 1) (.val true))))
                              (.ite (.chr 62 (.rg 94 94))
                                ((.adv 1) ;; (.ite ((.look 66) ;; (.chr 66 (.rg 61 61))) (.adv 1) (.val true)))
                                (.ite (.chr 62 (.rg 126 126))
                                  (.adv 1)
                                  (.ite (.chr 62 (.rg 63 63))
                                    ((.adv 1) ;; (.ite ((.look 65) ;; (.chr 65 (.rg 63 63))) (.adv 1) (.val true)))
                                    (.ite (.chr 62 (.rg 46 46))
                                      ((.adv 1) ;;
                                       (.look 63) ;;
                                       (.ite (.chr 63 (.rg 46 46))
                                         ((.adv 1) ;;
                                          (.look 64) ;;
                                          (.ite (.chr 64 (.rg 46 46))
                                            (.adv 1)
                                            (.ite (.chr 64 (.rg 60 60)) (.adv 1) (.val true))))
                                         (.val true)))
                                      (.ret false)))))))))))))))) ;;
        (.tok 61) ;;
        (.val true))
       (.val false)))

/-- `lex_delimiter` (examples/oak-swift/src/lexer/mod.rs:635-664). -/
def lexDelimiter : Code :=
  .scope 80
    ((.mark 80) ;;
     (.ite ((.look 81) ;; (.chr 81 (.rg 0 1114111)))
       ((.ite (.chr 81 (.rg 40 40))
          (.val true)
          (.ite (.chr 81 (.rg 41 41))
            (.val true)
            (.ite (.chr 81 (.rg 91 91))
              (.val true)
              (.ite (.chr 81 (.rg 93 93))
                (.val true)
                (.ite (.chr 81 (.rg 123 123))
                  (.val true)
                  (.ite (.chr 81 (.rg 125 125))
                    (.val true)
                    (.ite (.chr 81 (.rg 44 44))
                      (.val true)
                      (.ite (.chr 81 (.rg 59 59))
                        (.val true)
                        (.ite (.chr 81 (.rg 58 58))
                          (.val true)
                          (.ite (.chr 81 (.rg 64 64))
                            (.val true)
                            (.ite (.chr 81 (.rg 35 35))
                              (.val true)
                              (.ite (.chr 81 (.rg 36 36))
                                (.val true)
                                (.ite (.chr 81 (.rg 95 95))
                                  (.val true)
                                  (.ite (.chr 81 (.rg 92 92)) (.val true) (.ret false))))))))))))))) ;;
        (.advc 81) ;;
        (.tok 80) ;;
        (.val true))
       (.val false)))

/-- `run` (examples/oak-swift/src/lexer/mod.rs:668-716). -/
def run_ : Code :=
  .scope 0
    (.loop 0 false .more
      ((.mark 1) ;;
       (.ite skipWhitespace .cont (.val true)) ;;
       (.ite lexNewline .cont (.val true)) ;;
       (.ite lexComment .cont (.val true)) ;;
       (.ite lexStringLiteral .cont (.val true)) ;;
       (.ite lexNumberLiteral .cont (.val true)) ;;
       (.ite lexIdentifierOrKeyword .cont (.val true)) ;;
       (.ite lexOperator .cont (.val true)) ;;
       (.ite lexDelimiter .cont (.val true)) ;;
       (.mark 82) ;;
       (.ite ((.look 83) ;; (.chr 83 (.rg 0 1114111))) ((.advc 83) ;; (.tok 82)) (.val true)) ;;
       (.guard 1)))

end Oaks.HandLex.Swift
