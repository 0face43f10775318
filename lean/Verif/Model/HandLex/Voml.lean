import Verif.Model.LexCode

/-
The lexer of the example `oak-voml` as a program of Model/LexCode.lean, function by function in the order of
the calls. Kinds of tokens and messages are left out.
-/
namespace Oaks.HandLex.Voml

open Oaks.Lc

/-- `skip_whitespace` (examples/oak-voml/src/lexer/mod.rs:22-41). -/
def skipWhitespace : Code :=
  .scope 2
    ((.mark 2) ;;
     (.loop 3 true ((.look 4) ;; (.chr 4 (.rg 0 1114111)))
       (.ite (.ite (.ite (.ite (.chr 4 (.rg 32 32)) (.val true) (.chr 4 (.rg 9 9))) (.val true) (.chr 4 (.rg 13 13)))
           (.val true)
           (.chr 4 (.rg 10 10)))
         (.advc 4)
         .brk)) ;;
     (.ite (.moved 2) ((.tok 2) ;; (.val true)) (.val false)))

/-- `lex_newline` (examples/oak-voml/src/lexer/mod.rs:44-63). -/
def lexNewline : Code :=
  .scope 5
    ((.mark 5) ;;
     (.ite ((.look 8) ;; (.chr 8 (.rg 10 10)))
       ((.adv 1) ;; (.tok 5) ;; (.val true))
       (.ite ((.look 6) ;; (.chr 6 (.rg 13 13)))
         ((.adv 1) ;; (.ite ((.look 7) ;; (.chr 7 (.rg 10 10))) (.adv 1) (.val true)) ;; (.tok 5) ;; (.val true))
         (.val false))))

/-- `lex_comment` (examples/oak-voml/src/lexer/mod.rs:66-104). -/
def lexComment : Code :=
  .scope 9
    ((.mark 9) ;;
     (.ite ((.look 10) ;; (.chr 10 (.rg 47 47)))
       (.ite ((.lookN 15 1) ;; (.chr 15 (.rg 47 47)))
         ((.adv 2) ;;
          (.loop 16 true ((.look 17) ;; (.chr 17 (.rg 0 1114111)))
            ((.ite (.ite (.chr 17 (.rg 10 10)) (.val true) (.chr 17 (.rg 13 13))) .brk (.val true)) ;; (.advc 17))) ;;
          (.tok 9) ;;
          (.ret true))
         (.ite ((.lookN 11 1) ;; (.chr 11 (.rg 42 42)))
           ((.adv 2) ;;
            (.loop 12 true ((.look 13) ;; (.chr 13 (.rg 0 1114111)))
              ((.ite (.chr 13 (.rg 42 42))
                 (.ite ((.lookN 14 1) ;; (.chr 14 (.rg 47 47))) ((.adv 2) ;; .brk) (.val true))
                 (.val true)) ;;
               (.advc 13))) ;;
            (.tok 9) ;;
            (.ret true))
           (.val true)))
       (.val true)) ;;
     (.val false))

/-- `lex_string` (examples/oak-voml/src/lexer/mod.rs:107-147). -/
def lexString : Code :=
  .scope 18
    ((.mark 18) ;;
     (.ite ((.look 19) ;; (.chr 19 (.rg 0 1114111)))
       (.ite (.ite (.chr 19 (.rg 34 34)) (.val true) (.chr 19 (.rg 39 39)))
         ((.adv 1) ;;
          (.put 20 0) ;;
          (.loop 21 true ((.look 22) ;; (.chr 22 (.rg 0 1114111)))
            (.ite (.flag 20)
              ((.put 20 0) ;; (.advc 22))
              (.ite (.chr 22 (.rg 92 92))
                ((.put 20 1) ;; (.adv 1))
                (.ite (.same 22 19)
                  ((.adv 1) ;; .brk)
                  (.ite (.ite (.chr 22 (.rg 10 10)) (.val true) (.chr 22 (.rg 13 13))) .brk (.advc 22)))))) ;;
          (.val true) ;;
          (.tok 18) ;;
          (.val true))
         (.val false))
       (.val false)))

/-- `lex_number` (examples/oak-voml/src/lexer/mod.rs:150-232). -/
def lexNumber : Code :=
  .scope 23
    ((.mark 23) ;;
     (.ite ((.look 24) ;; (.chr 24 (.rg 0 1114111)))
       (.ite (.chr 24 (.rg 48 57))
         ((.loop 25 true ((.look 26) ;; (.chr 26 (.rg 0 1114111))) (.ite (.chr 26 (.rg 48 57)) (.adv 1) .brk)) ;;
          (.put 27 0) ;;
          (.ite ((.look 28) ;; (.chr 28 (.rg 46 46)))
            (.ite ((.lookN 29 1) ;; (.chr 29 (.rg 0 1114111)))
              (.ite (.chr 29 (.rg 48 57))
                ((.put 27 1) ;;
                 (.adv 1) ;;
                 (.loop 30 true ((.look 31) ;; (.chr 31 (.rg 0 1114111))) (.ite (.chr 31 (.rg 48 57)) (.adv 1) .brk)))
                (.val true))
              (.val true))
            (.val true)) ;;
          (.ite ((.look 32) ;; (.chr 32 (.rg 0 1114111)))
            (.ite (.ite (.chr 32 (.rg 101 101)) (.val true) (.chr 32 (.rg 69 69)))
              ((.mark 33) ;;
               (.adv 1) ;;
               (.ite ((.look 34) ;; (.chr 34 (.rg 0 1114111)))
                 (.ite (.ite (.chr 34 (.rg 43 43)) (.val true) (.chr 34 (.rg 45 45))) (.adv 1) (.val true))
                 (.val true)) ;;
               (.put 35 0) ;;
               (.loop 36 true ((.look 37) ;; (.chr 37 (.rg 0 1114111)))
                 (.ite (.chr 37 (.rg 48 57)) ((.put 35 1) ;; (.adv 1)) .brk)) ;;
               (.ite (.flag 35) (.put 27 1) (.goto 33)))
              (.val true))
            (.val true)) ;;
          (.val true) ;;
          (.tok 23) ;;
          (.val true))
         (.val false))
       (.val false)))

/-- `lex_identifier_or_keyword` (examples/oak-voml/src/lexer/mod.rs:235-322). -/
def lexIdentifierOrKeyword : Code :=
  .scope 38
    ((.mark 38) ;;
     (.ite ((.look 39) ;; (.chr 39 (.rg 0 1114111)))
       (.ite (.ite (.chr 39 (.or (.rg 65 90) (.rg 97 122))) (.val true) (.chr 39 (.rg 95 95)))
         ((.loop 40 true ((.look 41) ;; (.chr 41 (.rg 0 1114111)))
            (.ite (.ite (.chr 41 (.or (.or (.rg 48 57) (.rg 65 90)) (.rg 97 122))) (.val true) (.chr 41 (.rg 95 95)))
              (.advc 41)
              .brk)) ;;
          (.val true) ;;
          (.val true) ;;
          (.tok 38) ;;
          (.val true))
         (.val false))
       (.val false)))

/-- `lex_operator` (examples/oak-voml/src/lexer/mod.rs:325-566). -/
def lexOperator : Code :=
  .scope 42
    ((.mark 42) ;;
     (.ite ((.look 43) ;; (.chr 43 (.rg 0 1114111)))
       ((.ite (.chr 43 (.rg 43 43))
          (.ite ((.lookN 67 1) ;; (.chr 67 (.rg 61 61)))
            (.adv 2)
            (.ite ((.lookN 66 1) ;; (.chr 66 (.rg 43 43))) (.adv 2) (.adv 1)))
          (.ite (.chr 43 (.rg 45 45))
            (.ite ((.lookN 65 1) ;; (.chr 65 (.rg 61 61)))
              (.adv 2)
              (.ite ((.lookN 64 1) ;; (.chr 64 (.rg 45 45)))
                (.adv 2)
                (.ite ((.lookN 63 1) ;; (.chr 63 (.rg 62 62))) (.adv 2) (.adv 1))))
            (.ite (.chr 43 (.rg 42 42))
              (.ite ((.lookN 62 1) ;; (.chr 62 (.rg 61 61))) (.adv 2) (.adv 1))
              (.ite (.chr 43 (.rg 47 47))
                (.ite ((.lookN 61 1) ;; (.chr 61 (.rg 61 61))) (.adv 2) (.adv 1))
                (.ite (.chr 43 (.rg 37 37))
                  (.ite ((.lookN 60 1) ;; (.chr 60 (.rg 61 61))) (.adv 2) (.adv 1))
                  (.ite (.chr 43 (.rg 38 38))
                    (.ite ((.lookN 59 1) ;; (.chr 59 (.rg 61 61)))
                      (.adv 2)
                      (.ite ((.lookN 58 1) ;; (.chr 58 (.rg 38 38))) (.adv 2) (.adv 1)))
                    (.ite (.chr 43 (.rg 124 124))
                      (.ite ((.lookN 57 1) ;; (.chr 57 (.rg 61 61)))
                        (.adv 2)
                        (.ite ((.lookN 56 1) ;; (.chr 56 (.rg 124 124))) (.adv 2) (.adv 1)))
                      (.ite (.chr 43 (.rg 94 94))
                        (.ite ((.lookN 55 1) ;; (.chr 55 (.rg 61 61))) (.adv 2) (.adv 1))
                        (.ite (.chr 43 (.rg 61 61))
                          (.ite ((.lookN 54 1) ;; (.chr 54 (.rg 61 61)))
                            (.adv 2)
                            (.ite ((.lookN 53 1) ;; (.chr 53 (.rg 62 62))) (.adv 2) (.adv 1)))
                          (.ite (.chr 43 (.rg 33 33))
                            (.ite ((.lookN 52 1) ;; (.chr 52 (.rg 61 61))) (.adv 2) (.adv 1))
                            (.ite (.chr 43 (.rg 60 60))
                              (.ite ((.lookN 51 1) ;; (.chr 51 (.rg 61 61)))
                                (.adv 2)
                                (.ite ((.lookN 49 1) ;; (.chr 49 (.rg 60 60)))
                                  (.ite ((.lookN 50 2) ;; (.chr 50 (.rg 61 61))) (.adv 3) (.adv 2))
                                  (.adv 1)))
                              (.ite (.chr 43 (.rg 62 62))
                                (.ite ((.lookN 48 1) ;; (.chr 48 (.rg 61 61)))
                                  (.adv 2)
                                  (.ite ((.lookN 46 1) ;; (.chr 46 (.rg 62 62)))
                                    (.ite ((.lookN 47 2) ;; (.chr 47 (.rg 61 61))) (.adv 3) (.adv 2))
                                    (.adv 1)))
                                (.ite (.chr 43 (.rg 46 46))
                                  (.ite ((.lookN 44 1) ;; (.chr 44 (.rg 46 46)))
                                    (.ite ((.lookN 45 2) ;; (.chr 45 (.rg 46 46))) (.adv 3) (.adv 2))
                                    (.adv 1))
                                  (.ite (.chr 43 (.rg 44 44))
                                    (.adv 1)
                                    (.ite (.chr 43 (.rg 58 58))
                                      (.adv 1)
                                      (.ite (.chr 43 (.rg 59 59))
                                        (.adv 1)
                                        (.ite (.chr 43 (.rg 40 40))
                                          (.adv 1)
                                          (.ite (.chr 43 (.rg 41 41))
                                            (.adv 1)
                                            (.ite (.chr 43 (.rg 91 91))
                                              (.adv 1)
                                              (.ite (.chr 43 (.rg 93 93))
                                                (.adv 1)
                                                (.ite (.chr 43 (.rg 123 123))
                                                  (.adv 1)
                                                  (.ite (.chr 43 (.rg 125 125))
                                                    (.adv 1)
                                                    (.ite (.chr 43 (.rg 63 63))
                                                      (.adv 1)
                                                      (.ite (.chr 43 (.rg 126 126)) (.adv 1) (.advc 43))))))))))))))))))))))))) ;;
        (.tok 42) ;;
        (.val true))
       (.val false)))

/-- `lex` (examples/oak-voml/src/lexer/mod.rs:570-612). -/
def lex : Code :=
  .scope 0
    (.loop 0 false ((.look 1) ;; (.chr 1 (.rg 0 1114111)))
      ((.ite skipWhitespace .cont (.val true)) ;;
       (.ite lexNewline .cont (.val true)) ;;
       (.ite lexComment .cont (.val true)) ;;
       (.ite lexString .cont (.val true)) ;;
       (.ite lexNumber .cont (.val true)) ;;
       (.ite lexIdentifierOrKeyword .cont (.val true)) ;;
       (.ite lexOperator .cont (.val true)) ;;
       (.mark 68) ;;
       (.ite ((.look 69) ;; (.chr 69 (.rg 0 1114111))) ((.advc 69) ;; (.tok 68)) (.val true))))

end Oaks.HandLex.Voml
