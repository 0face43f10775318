import Verif.Model.LexCode

/-
The lexer of the example `oak-apl` as a program of Model/LexCode.lean, function by function in the order of
the calls. Kinds of tokens and messages are left out.
-/
namespace Oaks.HandLex.Apl

open Oaks.Lc

/-- `skip_whitespace` (examples/oak-apl/src/lexer/mod.rs:79-81). -/
def skipWhitespace : Code :=
  .scope 2
    (.space true)

/-- `skip_comment` (examples/oak-apl/src/lexer/mod.rs:83-97). -/
def skipComment : Code :=
  .scope 2
    ((.mark 2) ;;
     (.ite ((.look 3) ;; (.chr 3 (.rg 9053 9053)))
       ((.adv 3) ;;
        (.loop 4 true ((.look 5) ;; (.chr 5 (.rg 0 1114111)))
          ((.ite (.ite (.chr 5 (.rg 10 10)) (.val true) (.chr 5 (.rg 13 13))) .brk (.val true)) ;; (.advc 5))) ;;
        (.tok 2) ;;
        (.ret true))
       (.val true)) ;;
     (.val false))

/-- `lex_string_literal` (examples/oak-apl/src/lexer/mod.rs:99-123). -/
def lexStringLiteral : Code :=
  .scope 6
    ((.mark 6) ;;
     (.ite ((.look 7) ;; (.chr 7 (.rg 0 1114111)))
       (.ite (.ite (.chr 7 (.rg 39 39)) (.val true) (.chr 7 (.rg 34 34)))
         ((.adv 1) ;;
          (.loop 8 true ((.look 9) ;; (.chr 9 (.rg 0 1114111)))
            ((.ite (.same 9 7)
               ((.adv 1) ;; (.ite ((.look 10) ;; (.same 10 7)) ((.adv 1) ;; .cont) (.val true)) ;; .brk)
               (.val true)) ;;
             (.advc 9) ;;
             (.ite (.ite (.chr 9 (.rg 10 10)) (.val true) (.chr 9 (.rg 13 13))) .brk (.val true)))) ;;
          (.tok 6) ;;
          (.ret true))
         (.val true))
       (.val true)) ;;
     (.val false))

/-- `lex_number_literal` (examples/oak-apl/src/lexer/mod.rs:125-185). -/
def lexNumberLiteral : Code :=
  .scope 11
    ((.mark 11) ;;
     (.ite ((.look 12) ;; (.chr 12 (.rg 0 1114111)))
       (.ite (.ite (.ite (.chr 12 (.rg 48 57)) (.val true) (.chr 12 (.rg 175 175)))
           (.val true)
           (.ite (.chr 12 (.rg 46 46)) ((.lookN 13 1) ;; (.chr 13 (.rg 48 57))) (.val false)))
         ((.ite (.chr 12 (.rg 175 175)) (.adv 2) (.val true)) ;;
          (.put 14 0) ;;
          (.loop 15 true ((.look 16) ;; (.chr 16 (.rg 0 1114111)))
            (.ite (.chr 16 (.rg 48 57)) ((.adv 1) ;; (.put 14 1)) .brk)) ;;
          (.ite ((.look 17) ;; (.chr 17 (.rg 46 46)))
            ((.adv 1) ;;
             (.loop 18 true ((.look 19) ;; (.chr 19 (.rg 0 1114111)))
               (.ite (.chr 19 (.rg 48 57)) ((.adv 1) ;; (.put 14 1)) .brk)))
            (.val true)) ;;
          (.ite (.ite (.ite (.flag 14) (.val false) (.val true)) (.ite (.moved 11) (.val false) (.val true)) (.val false))
            (.ret false)
            (.val true)) ;;
          (.ite ((.look 20) ;; (.chr 20 (.rg 0 1114111)))
            (.ite (.ite (.chr 20 (.rg 101 101)) (.val true) (.chr 20 (.rg 69 69)))
              ((.adv 1) ;;
               (.ite ((.look 21) ;; (.chr 21 (.rg 0 1114111)))
                 (.ite (.ite (.ite (.chr 21 (.rg 43 43)) (.val true) (.chr 21 (.rg 45 45)))
                     (.val true)
                     (.chr 21 (.rg 175 175)))
                   (.advc 21)
                   (.val true))
                 (.val true)) ;;
               (.loop 22 true ((.look 23) ;; (.chr 23 (.rg 0 1114111))) (.ite (.chr 23 (.rg 48 57)) (.adv 1) .brk)))
              (.val true))
            (.val true)) ;;
          (.tok 11) ;;
          (.ret true))
         (.val true))
       (.val true)) ;;
     (.val false))

/-- `lex_identifier` (examples/oak-apl/src/lexer/mod.rs:187-205). -/
def lexIdentifier : Code :=
  .scope 24
    ((.mark 24) ;;
     (.ite ((.look 25) ;; (.chr 25 (.rg 0 1114111)))
       (.ite (.ite (.ite (.chr 25 .alpha) (.val true) (.chr 25 (.rg 8710 8710))) (.val true) (.chr 25 (.rg 9049 9049)))
         ((.advc 25) ;;
          (.loop 26 true ((.look 27) ;; (.chr 27 (.rg 0 1114111)))
            (.ite (.ite (.ite (.ite (.chr 27 .alnum) (.val true) (.chr 27 (.rg 8710 8710)))
                  (.val true)
                  (.chr 27 (.rg 9049 9049)))
                (.val true)
                (.chr 27 (.rg 95 95)))
              (.advc 27)
              .brk)) ;;
          (.tok 24) ;;
          (.ret true))
         (.val true))
       (.val true)) ;;
     (.val false))

/-- `lex_symbols` (examples/oak-apl/src/lexer/mod.rs:207-274). -/
def lexSymbols : Code :=
  .scope 28
    ((.mark 28) ;;
     (.ite ((.look 29) ;; (.chr 29 (.rg 0 1114111)))
       ((.ite (.chr 29 (.rg 8592 8592))
          (.val true)
          (.ite (.chr 29 (.rg 8594 8594))
            (.val true)
            (.ite (.chr 29 (.rg 8900 8900))
              (.val true)
              (.ite (.chr 29 (.rg 9109 9109))
                (.val true)
                (.ite (.chr 29 (.rg 9054 9054))
                  (.val true)
                  (.ite (.chr 29 (.rg 9076 9076))
                    (.val true)
                    (.ite (.chr 29 (.rg 9075 9075))
                      (.val true)
                      (.ite (.chr 29 (.rg 8714 8714))
                        (.val true)
                        (.ite (.chr 29 (.rg 8593 8593))
                          (.val true)
                          (.ite (.chr 29 (.rg 8595 8595))
                            (.val true)
                            (.ite (.chr 29 (.rg 8711 8711))
                              (.val true)
                              (.ite (.chr 29 (.rg 8710 8710))
                                (.val true)
                                (.ite (.chr 29 (.rg 9082 9082))
                                  (.val true)
                                  (.ite (.chr 29 (.rg 9077 9077))
                                    (.val true)
                                    (.ite (.chr 29 (.rg 9068 9068))
                                      (.val true)
                                      (.ite (.chr 29 (.rg 43 43))
                                        (.val true)
                                        (.ite (.chr 29 (.rg 45 45))
                                          (.val true)
                                          (.ite (.chr 29 (.rg 215 215))
                                            (.val true)
                                            (.ite (.chr 29 (.rg 247 247))
                                              (.val true)
                                              (.ite (.chr 29 (.rg 42 42))
                                                (.val true)
                                                (.ite (.chr 29 (.rg 9055 9055))
                                                  (.val true)
                                                  (.ite (.chr 29 (.rg 9675 9675))
                                                    (.val true)
                                                    (.ite (.chr 29 (.rg 8744 8744))
                                                      (.val true)
                                                      (.ite (.chr 29 (.rg 8743 8743))
                                                        (.val true)
                                                        (.ite (.chr 29 (.rg 8764 8764))
                                                          (.val true)
                                                          (.ite (.chr 29 (.rg 9073 9073))
                                                            (.val true)
                                                            (.ite (.chr 29 (.rg 9074 9074))
                                                              (.val true)
                                                              (.ite (.chr 29 (.rg 61 61))
                                                                (.val true)
                                                                (.ite (.chr 29 (.rg 8800 8800))
                                                                  (.val true)
                                                                  (.ite (.chr 29 (.rg 60 60))
                                                                    (.val true)
                                                                    (.ite (.chr 29 (.rg 8804 8804))
                                                                      (.val true)
                                                                      (.ite (.chr 29 (.rg 8805 8805))
                                                                        (.val true)
                                                                        (.ite (.chr 29 (.rg 62 62))
                                                                          (.val true)
                                                                          (.ite (.chr 29 (.rg 8968 8968))
                                                                            (.val true)
                                                                            (.ite (.chr 29 (.rg 8970 8970))
                                                                              (.val true)
                                                                              (.ite (.chr 29 (.rg 124 124))
                                                                                (.val true)
                                                                                (.ite (.chr 29 (.rg 126 126))
                                                                                  (.val true)
                                                                                  (.ite (.chr 29 (.rg 63 63))
                                                                                    (.val true)
                                                                                    (.ite (.chr 29 (.rg 33 33))
                                                                                      (.val true)
                                                                                      (.ite (.chr 29 (.rg 47 47))
                                                                                        (.val true)
                                                                                        (.ite (.chr 29 (.rg 92 92))
                                                                                          (.val true)
                                                                                          (.ite (.chr 29 (.rg 9023 9023))
                                                                                            (.val true)
                                                                                            (.ite (.chr 29 (.rg 9024 9024))
                                                                                              (.val true)
                                                                                              (.ite (.chr 29 (.rg 46 46))
                                                                                                (.val true)
                                                                                                (.ite (.chr 29 (.rg 8728 8728))
                                                                                                  (.val true)
                                                                                                  (.ite (.chr 29 (.rg 168 168))
                                                                                                    (.val true)
                                                                                                    (.ite (.chr 29 (.rg 9059 9059))
                                                                                                      (.val true)
                                                                                                      (.ite (.chr 29 (.rg 9060 9060))
                                                                                                        (.val true)
                                                                                                        (.ite (.chr 29 (.rg 8802 8802))
                                                                                                          (.val true)
                                                                                                          (.ite (.chr 29 (.rg 40 40))
                                                                                                            (.val true)
                                                                                                            (.ite (.chr 29 (.rg 41 41))
                                                                                                              (.val true)
                                                                                                              (.ite (.chr 29 (.rg 91 91))
                                                                                                                (.val true)
                                                                                                                (.ite (.chr 29 (.rg 93 93))
                                                                                                                  (.val true)
                                                                                                                  (.ite (.chr 29 (.rg 123 123))
                                                                                                                    (.val true)
                                                                                                                    (.ite (.chr 29 (.rg 125 125))
                                                                                                                      (.val true)
                                                                                                                      (.ite (.chr 29 (.rg 59 59))
                                                                                                                        (.val true)
                                                                                                                        (.ret false))))))))))))))))))))))))))))))))))))))))))))))))))))))))) ;;
        (.advc 29) ;;
        (.tok 28) ;;
        (.ret true))
       (.val true)) ;;
     (.val false))

/-- `run` (examples/oak-apl/src/lexer/mod.rs:40-76). -/
def run_ : Code :=
  .scope 0
    (.loop 0 false .more
      ((.mark 1) ;;
       (.ite skipWhitespace .cont (.val true)) ;;
       (.ite skipComment .cont (.val true)) ;;
       (.ite lexStringLiteral .cont (.val true)) ;;
       (.ite lexNumberLiteral .cont (.val true)) ;;
       (.ite lexIdentifier .cont (.val true)) ;;
       (.ite lexSymbols .cont (.val true)) ;;
       (.ite ((.look 30) ;; (.chr 30 (.rg 0 1114111))) ((.advc 30) ;; (.tok 1)) (.val true))))

end Oaks.HandLex.Apl
