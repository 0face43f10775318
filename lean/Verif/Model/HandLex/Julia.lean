import Verif.Model.LexCode

/-
The lexer of the example `oak-julia` as a program of Model/LexCode.lean, function by function in the order of
the calls. Kinds of tokens and messages are left out.
-/
namespace Oaks.HandLex.Julia

open Oaks.Lc

/-- `skip_whitespace` (examples/oak-julia/src/lexer/mod.rs:34-48). -/
def skipWhitespace : Code :=
  .scope 2
    ((.mark 2) ;;
     (.loop 3 true ((.look 4) ;; (.chr 4 (.rg 0 1114111)))
       (.ite (.ite (.chr 4 (.rg 32 32)) (.val true) (.chr 4 (.rg 9 9))) (.advc 4) .brk)) ;;
     (.ite (.moved 2) ((.tok 2) ;; (.val true)) (.val false)))

/-- `lex_newline` (examples/oak-julia/src/lexer/mod.rs:51-70). -/
def lexNewline : Code :=
  .scope 5
    ((.mark 5) ;;
     (.ite ((.look 8) ;; (.chr 8 (.rg 10 10)))
       ((.adv 1) ;; (.tok 5) ;; (.val true))
       (.ite ((.look 6) ;; (.chr 6 (.rg 13 13)))
         ((.adv 1) ;; (.ite ((.look 7) ;; (.chr 7 (.rg 10 10))) (.adv 1) (.val true)) ;; (.tok 5) ;; (.val true))
         (.val false))))

/-- `lex_comment` (examples/oak-julia/src/lexer/mod.rs:278-325). -/
def lexComment : Code :=
  .scope 9
    ((.mark 9) ;;
     (.ite ((.look 10) ;; (.chr 10 (.rg 35 35)))
       (.ite ((.lookN 13 1) ;; (.chr 13 (.rg 61 61)))
         ((.adv 2) ;;
          (.put 14 1) ;;
          (.loop 15 true ((.look 16) ;; (.chr 16 (.rg 0 1114111)))
            ((.ite (.ask 14 (· == 0)) .brk (.val true)) ;;
             (.ite (.ite (.chr 16 (.rg 35 35)) ((.lookN 18 1) ;; (.chr 18 (.rg 61 61))) (.val false))
               ((.comp 14 14 (· + 1)) ;; (.adv 2))
               (.ite (.ite (.chr 16 (.rg 61 61)) ((.lookN 17 1) ;; (.chr 17 (.rg 35 35))) (.val false))
                 ((.comp 14 14 (· - 1)) ;; (.adv 2))
                 (.advc 16))))) ;;
          (.tok 9) ;;
          (.val true))
         ((.adv 1) ;;
          (.loop 11 true ((.look 12) ;; (.chr 12 (.rg 0 1114111)))
            ((.ite (.ite (.chr 12 (.rg 10 10)) (.val true) (.chr 12 (.rg 13 13))) .brk (.val true)) ;; (.advc 12))) ;;
          (.tok 9) ;;
          (.val true)))
       (.val false)))

/-- `lex_triple_string` (examples/oak-julia/src/lexer/mod.rs:246-275). -/
def lexTripleString : Code :=
  .scope 19
    ((.mark 19) ;;
     (.ite ((.look 20) ;; (.chr 20 (.rg 34 34)))
       (.ite ((.lookN 21 1) ;; (.chr 21 (.rg 34 34)))
         (.ite ((.lookN 22 2) ;; (.chr 22 (.rg 34 34)))
           ((.adv 3) ;;
            (.loop 23 true ((.look 24) ;; (.chr 24 (.rg 0 1114111)))
              ((.ite (.chr 24 (.rg 34 34))
                 (.ite ((.lookN 25 1) ;; (.chr 25 (.rg 34 34)))
                   (.ite ((.lookN 26 2) ;; (.chr 26 (.rg 34 34))) ((.adv 3) ;; (.tok 19) ;; (.ret true)) (.val true))
                   (.val true))
                 (.val true)) ;;
               (.advc 24))) ;;
            (.goto 19))
           (.val true))
         (.val true))
       (.val true)) ;;
     (.val false))

/-- `lex_string` (examples/oak-julia/src/lexer/mod.rs:199-243). -/
def lexString : Code :=
  .scope 27
    ((.mark 27) ;;
     (.ite ((.look 28) ;; (.chr 28 (.rg 0 1114111)))
       (.ite (.ite (.chr 28 (.rg 34 34)) (.val true) (.chr 28 (.rg 39 39)))
         ((.adv 1) ;;
          (.put 29 0) ;;
          (.loop 30 true ((.look 31) ;; (.chr 31 (.rg 0 1114111)))
            (.ite (.same 31 28)
              ((.adv 1) ;; (.put 29 1) ;; .brk)
              (.ite (.chr 31 (.rg 92 92))
                ((.adv 1) ;; (.ite ((.look 32) ;; (.chr 32 (.rg 0 1114111))) (.adv 1) (.val true)))
                (.advc 31)))) ;;
          (.ite (.flag 29) ((.val true) ;; (.tok 27) ;; (.val true)) ((.goto 27) ;; (.val false))))
         (.val false))
       (.val false)))

/-- `lex_number` (examples/oak-julia/src/lexer/mod.rs:111-196). -/
def lexNumber : Code :=
  .scope 33
    ((.mark 33) ;;
     (.ite ((.look 34) ;; (.chr 34 (.rg 0 1114111)))
       (.ite (.chr 34 (.rg 48 57))
         ((.adv 1) ;;
          (.loop 35 true ((.look 36) ;; (.chr 36 (.rg 0 1114111)))
            (.ite (.ite (.chr 36 (.rg 48 57)) (.val true) (.chr 36 (.rg 95 95))) (.adv 1) .brk)) ;;
          (.put 37 0) ;;
          (.ite ((.look 38) ;; (.chr 38 (.rg 46 46)))
            (.ite ((.lookN 39 1) ;; (.chr 39 (.rg 0 1114111)))
              (.ite (.chr 39 (.rg 48 57))
                ((.put 37 1) ;;
                 (.adv 1) ;;
                 (.loop 40 true ((.look 41) ;; (.chr 41 (.rg 0 1114111)))
                   (.ite (.ite (.chr 41 (.rg 48 57)) (.val true) (.chr 41 (.rg 95 95))) (.adv 1) .brk)))
                (.val true))
              (.val true))
            (.val true)) ;;
          (.ite ((.look 42) ;; (.chr 42 (.rg 0 1114111)))
            (.ite (.ite (.chr 42 (.rg 101 101)) (.val true) (.chr 42 (.rg 69 69)))
              ((.put 37 1) ;;
               (.adv 1) ;;
               (.ite ((.look 43) ;; (.chr 43 (.rg 0 1114111)))
                 (.ite (.ite (.chr 43 (.rg 43 43)) (.val true) (.chr 43 (.rg 45 45))) (.adv 1) (.val true))
                 (.val true)) ;;
               (.loop 44 true ((.look 45) ;; (.chr 45 (.rg 0 1114111))) (.ite (.chr 45 (.rg 48 57)) (.adv 1) .brk)))
              (.val true))
            (.val true)) ;;
          (.ite ((.look 46) ;; (.chr 46 (.rg 0 1114111)))
            (.ite (.chr 46 (.or (.rg 65 90) (.rg 97 122)))
              (.loop 47 true ((.look 48) ;; (.chr 48 (.rg 0 1114111)))
                (.ite (.chr 48 (.or (.or (.rg 48 57) (.rg 65 90)) (.rg 97 122))) (.adv 1) .brk))
              (.val true))
            (.val true)) ;;
          (.val true) ;;
          (.tok 33) ;;
          (.val true))
         (.val false))
       (.val false)))

/-- `lex_identifier_or_keyword` (examples/oak-julia/src/lexer/mod.rs:73-108). -/
def lexIdentifierOrKeyword : Code :=
  .scope 49
    ((.mark 49) ;;
     (.ite ((.look 50) ;; (.chr 50 (.rg 0 1114111)))
       (.ite (.ite (.chr 50 (.or (.rg 65 90) (.rg 97 122))) (.val true) (.chr 50 (.rg 95 95)))
         ((.advc 50) ;;
          (.loop 51 true ((.look 52) ;; (.chr 52 (.rg 0 1114111)))
            (.ite (.ite (.ite (.ite (.chr 52 (.or (.or (.rg 48 57) (.rg 65 90)) (.rg 97 122))) (.val true) (.chr 52 (.rg 95 95)))
                  (.val true)
                  (.chr 52 (.rg 33 33)))
                (.val true)
                (.chr 52 (.rg 63 63)))
              (.advc 52)
              .brk)) ;;
          (.mark 53) ;;
          (.val true) ;;
          (.tokTo 49 53) ;;
          (.val true))
         (.val false))
       (.val false)))

/-- `lex_operator` (examples/oak-julia/src/lexer/mod.rs:328-496). -/
def lexOperator : Code :=
  .scope 54
    ((.mark 54) ;;
     (.ite ((.look 55) ;; (.chr 55 (.rg 0 1114111)))
       ((.ite (.chr 55 (.rg 43 43))
          ((.adv 1) ;; (.ite ((.look 72) ;; (.chr 72 (.rg 61 61))) (.adv 1) (.val true)))
          (.ite (.chr 55 (.rg 45 45))
            ((.adv 1) ;;
             (.ite ((.look 71) ;; (.chr 71 (.rg 61 61)))
               (.adv 1)
               (.ite ((.look 70) ;; (.chr 70 (.rg 62 62))) (.adv 1) (.val true))))
            (.ite (.chr 55 (.rg 42 42))
              ((.adv 1) ;; (.ite ((.look 69) ;; (.chr 69 (.rg 61 61))) (.adv 1) (.val true)))
              (.ite (.chr 55 (.rg 47 47))
                ((.adv 1) ;; (.ite ((.look 68) ;; (.chr 68 (.rg 61 61))) (.adv 1) (.val true)))
                (.ite (.chr 55 (.rg 37 37))
                  ((.adv 1) ;; (.ite ((.look 67) ;; (.chr 67 (.rg 61 61))) (.adv 1) (.val true)))
                  (.ite (.chr 55 (.rg 94 94))
                    ((.adv 1) ;; (.ite ((.look 66) ;; (.chr 66 (.rg 61 61))) (.adv 1) (.val true)))
                    (.ite (.chr 55 (.rg 61 61))
                      ((.adv 1) ;;
                       (.ite ((.look 65) ;; (.chr 65 (.rg 61 61)))
                         (.adv 1)
                         (.ite ((.look 64) ;; (.chr 64 (.rg 62 62))) (.adv 1) (.val true))))
                      (.ite (.chr 55 (.rg 33 33))
                        ((.adv 1) ;; (.ite ((.look 63) ;; (.chr 63 (.rg 61 61))) (.adv 1) (.val true)))
                        (.ite (.chr 55 (.rg 60 60))
                          ((.adv 1) ;;
                           (.ite ((.look 62) ;; (.chr 62 (.rg 61 61)))
                             (.adv 1)
                             (.ite ((.look 61) ;; (.chr 61 (.rg 60 60))) (.adv 1) (.val true))))
                          (.ite (.chr 55 (.rg 62 62))
                            ((.adv 1) ;;
                             (.ite ((.look 60) ;; (.chr 60 (.rg 61 61)))
                               (.adv 1)
                               (.ite ((.look 59) ;; (.chr 59 (.rg 62 62))) (.adv 1) (.val true))))
                            (.ite (.chr 55 (.rg 38 38))
                              ((.adv 1) ;; (.ite ((.look 58) ;; (.chr 58 (.rg 38 38))) (.adv 1) (.val true)))
                              (.ite (.chr 55 (.rg 124 124))
                                ((.adv 1) ;; (.ite ((.look 57) ;; (.chr 57 (.rg 124 124))) (.adv 1) (.val true)))
                                (.ite (.chr 55 (.rg 126 126))
                                  (.adv 1)
                                  (.ite (.chr 55 (.rg 58 58))
                                    (.adv 1)
                                    (.ite (.chr 55 (.rg 46 46))
                                      ((.adv 1) ;; (.ite ((.look 56) ;; (.chr 56 (.rg 46 46))) (.adv 1) (.val true)))
                                      (.ret false)))))))))))))))) ;;
        (.tok 54) ;;
        (.val true))
       (.val false)))

/-- `lex_delimiter` (examples/oak-julia/src/lexer/mod.rs:499-522). -/
def lexDelimiter : Code :=
  .scope 73
    ((.mark 73) ;;
     (.ite ((.look 74) ;; (.chr 74 (.rg 0 1114111)))
       ((.ite (.chr 74 (.rg 40 40))
          (.val true)
          (.ite (.chr 74 (.rg 41 41))
            (.val true)
            (.ite (.chr 74 (.rg 91 91))
              (.val true)
              (.ite (.chr 74 (.rg 93 93))
                (.val true)
                (.ite (.chr 74 (.rg 123 123))
                  (.val true)
                  (.ite (.chr 74 (.rg 125 125))
                    (.val true)
                    (.ite (.chr 74 (.rg 44 44)) (.val true) (.ite (.chr 74 (.rg 59 59)) (.val true) (.ret false))))))))) ;;
        (.advc 74) ;;
        (.tok 73) ;;
        (.val true))
       (.val false)))

/-- `run` (examples/oak-julia/src/lexer/mod.rs:527-579). -/
def run_ : Code :=
  .scope 0
    (.loop 0 false .more
      ((.mark 1) ;;
       (.ite skipWhitespace .cont (.val true)) ;;
       (.ite lexNewline .cont (.val true)) ;;
       (.ite lexComment .cont (.val true)) ;;
       (.ite lexTripleString .cont (.val true)) ;;
       (.ite lexString .cont (.val true)) ;;
       (.ite lexNumber .cont (.val true)) ;;
       (.ite lexIdentifierOrKeyword .cont (.val true)) ;;
       (.ite lexOperator .cont (.val true)) ;;
       (.ite lexDelimiter .cont (.val true)) ;;
       (.mark 75) ;;
       (.ite ((.look 76) ;; (.chr 76 (.rg 0 1114111))) ((.advc 76) ;; (.tok 75)) (.val true)) ;;
       (.guard 1)))

end Oaks.HandLex.Julia
