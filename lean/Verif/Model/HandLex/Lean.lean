import Verif.Model.LexCode

/-
The lexer of the example `oak-lean` as a program of Model/LexCode.lean, function by function in the order of
the calls. Kinds of tokens and messages are left out.
-/
namespace Oaks.HandLex.Lean

open Oaks.Lc

/-- `skip_whitespace` (examples/oak-lean/src/lexer/mod.rs:36-50). -/
def skipWhitespace : Code :=
  .scope 1
    ((.mark 1) ;;
     (.loop 2 true ((.look 3) ;; (.chr 3 (.rg 0 1114111)))
       (.ite (.ite (.chr 3 (.rg 32 32)) (.val true) (.chr 3 (.rg 9 9))) (.advc 3) .brk)) ;;
     (.ite (.moved 1) ((.tok 1) ;; (.val true)) (.val false)))

/-- `lex_newline` (examples/oak-lean/src/lexer/mod.rs:53-72). -/
def lexNewline : Code :=
  .scope 4
    ((.mark 4) ;;
     (.ite ((.look 7) ;; (.chr 7 (.rg 10 10)))
       ((.adv 1) ;; (.tok 4) ;; (.val true))
       (.ite ((.look 5) ;; (.chr 5 (.rg 13 13)))
         ((.adv 1) ;; (.ite ((.look 6) ;; (.chr 6 (.rg 10 10))) (.adv 1) (.val true)) ;; (.tok 4) ;; (.val true))
         (.val false))))

/-- `lex_comment` (examples/oak-lean/src/lexer/mod.rs:75-138). -/
def lexComment : Code :=
  .scope 8
    ((.mark 8) ;;
     (.ite ((.look 18) ;; (.chr 18 (.rg 45 45)))
       ((.adv 1) ;;
        (.ite ((.look 19) ;; (.chr 19 (.rg 45 45)))
          ((.adv 1) ;;
           (.loop 20 true ((.look 21) ;; (.chr 21 (.rg 0 1114111)))
             ((.ite (.ite (.chr 21 (.rg 10 10)) (.val true) (.chr 21 (.rg 13 13))) .brk (.val true)) ;; (.advc 21))) ;;
           (.tok 8) ;;
           (.val true))
          ((.goto 8) ;; (.val false))))
       (.ite ((.look 9) ;; (.chr 9 (.rg 47 47)))
         ((.adv 1) ;;
          (.ite ((.look 10) ;; (.chr 10 (.rg 45 45)))
            ((.adv 1) ;;
             (.put 11 1) ;;
             (.loop 12 true (.ite (.ask 11 (· > 0)) .more (.val false))
               (.ite ((.look 16) ;; (.chr 16 (.rg 47 47)))
                 ((.adv 1) ;;
                  (.ite ((.look 17) ;; (.chr 17 (.rg 45 45)))
                    ((.adv 1) ;; (.comp 11 11 (· + 1)))
                    (.val true)))
                 (.ite ((.look 14) ;; (.chr 14 (.rg 45 45)))
                   ((.adv 1) ;;
                    (.ite ((.look 15) ;; (.chr 15 (.rg 47 47)))
                      ((.adv 1) ;; (.comp 11 11 (· - 1)))
                      (.val true)))
                   (.ite ((.look 13) ;; (.chr 13 (.rg 0 1114111))) (.advc 13) .brk)))) ;;
             (.tok 8) ;;
             (.val true))
            ((.goto 8) ;; (.val false))))
         (.val false))))

/-- `lex_string` (examples/oak-lean/src/lexer/mod.rs:141-171). -/
def lexString : Code :=
  .scope 22
    ((.mark 22) ;;
     (.ite ((.look 23) ;; (.chr 23 (.rg 34 34)))
       ((.adv 1) ;;
        (.loop 24 true ((.look 25) ;; (.chr 25 (.rg 0 1114111)))
          (.ite (.chr 25 (.rg 34 34))
            ((.adv 1) ;; .brk)
            (.ite (.chr 25 (.rg 92 92))
              ((.adv 1) ;; (.ite ((.look 26) ;; (.chr 26 (.rg 0 1114111))) (.advc 26) (.val true)))
              (.ite (.ite (.chr 25 (.rg 10 10)) (.val true) (.chr 25 (.rg 13 13))) .brk (.advc 25))))) ;;
        (.tok 22) ;;
        (.val true))
       (.val false)))

/-- `lex_char` (examples/oak-lean/src/lexer/mod.rs:174-204). -/
def lexChar : Code :=
  .scope 27
    ((.mark 27) ;;
     (.ite ((.look 28) ;; (.chr 28 (.rg 39 39)))
       ((.adv 1) ;;
        (.loop 29 true ((.look 30) ;; (.chr 30 (.rg 0 1114111)))
          (.ite (.chr 30 (.rg 39 39))
            ((.adv 1) ;; .brk)
            (.ite (.chr 30 (.rg 92 92))
              ((.adv 1) ;; (.ite ((.look 31) ;; (.chr 31 (.rg 0 1114111))) (.advc 31) (.val true)))
              (.ite (.ite (.chr 30 (.rg 10 10)) (.val true) (.chr 30 (.rg 13 13))) .brk (.advc 30))))) ;;
        (.tok 27) ;;
        (.val true))
       (.val false)))

/-- `lex_number` (examples/oak-lean/src/lexer/mod.rs:207-254). -/
def lexNumber : Code :=
  .scope 32
    ((.mark 32) ;;
     (.ite ((.look 33) ;; (.chr 33 (.rg 0 1114111)))
       (.ite (.chr 33 (.rg 48 57))
         ((.loop 34 true ((.look 35) ;; (.chr 35 (.rg 0 1114111))) (.ite (.chr 35 (.rg 48 57)) (.advc 35) .brk)) ;;
          (.ite ((.look 36) ;; (.chr 36 (.rg 46 46)))
            ((.adv 1) ;;
             (.ite ((.look 37) ;; (.chr 37 (.rg 0 1114111)))
               (.ite (.chr 37 (.rg 48 57))
                 (.loop 38 true ((.look 39) ;; (.chr 39 (.rg 0 1114111)))
                   (.ite (.chr 39 (.rg 48 57)) (.advc 39) .brk))
                 (.val true))
               (.val true)))
            (.val true)) ;;
          (.ite ((.look 40) ;; (.chr 40 (.rg 0 1114111)))
            (.ite (.ite (.chr 40 (.rg 101 101)) (.val true) (.chr 40 (.rg 69 69)))
              ((.adv 1) ;;
               (.ite ((.look 41) ;; (.chr 41 (.rg 0 1114111)))
                 (.ite (.ite (.chr 41 (.rg 43 43)) (.val true) (.chr 41 (.rg 45 45))) (.adv 1) (.val true))
                 (.val true)) ;;
               (.loop 42 true ((.look 43) ;; (.chr 43 (.rg 0 1114111))) (.ite (.chr 43 (.rg 48 57)) (.advc 43) .brk)))
              (.val true))
            (.val true)) ;;
          (.tok 32) ;;
          (.val true))
         (.val false))
       (.val false)))

/-- `lex_identifier_or_keyword` (examples/oak-lean/src/lexer/mod.rs:257-329). -/
def lexIdentifierOrKeyword : Code :=
  .scope 44
    ((.mark 44) ;;
     (.ite ((.look 45) ;; (.chr 45 (.rg 0 1114111)))
       (.ite (.ite (.chr 45 .alpha) (.val true) (.chr 45 (.rg 95 95)))
         ((.advc 45) ;;
          (.loop 46 true ((.look 47) ;; (.chr 47 (.rg 0 1114111)))
            (.ite (.ite (.ite (.chr 47 .alnum) (.val true) (.chr 47 (.rg 95 95))) (.val true) (.chr 47 (.rg 39 39)))
              (.advc 47)
              .brk)) ;;
          (.val true) ;;
          (.val true) ;;
          (.tok 44) ;;
          (.val true))
         (.val false))
       (.val false)))

/-- `lex_operator_or_delimiter` (examples/oak-lean/src/lexer/mod.rs:332-371). -/
def lexOperatorOrDelimiter : Code :=
  .scope 48
    ((.mark 48) ;;
     (.ite ((.look 49) ;; (.chr 49 (.rg 0 1114111)))
       ((.ite (.chr 49 (.rg 40 40))
          (.val true)
          (.ite (.chr 49 (.rg 41 41))
            (.val true)
            (.ite (.chr 49 (.rg 123 123))
              (.val true)
              (.ite (.chr 49 (.rg 125 125))
                (.val true)
                (.ite (.chr 49 (.rg 91 91))
                  (.val true)
                  (.ite (.chr 49 (.rg 93 93))
                    (.val true)
                    (.ite (.chr 49 (.rg 44 44))
                      (.val true)
                      (.ite (.chr 49 (.rg 59 59))
                        (.val true)
                        (.ite (.chr 49 (.rg 43 43))
                          (.val true)
                          (.ite (.chr 49 (.rg 42 42))
                            (.val true)
                            (.ite (.chr 49 (.rg 47 47))
                              (.val true)
                              (.ite (.chr 49 (.rg 37 37))
                                (.val true)
                                (.ite (.chr 49 (.rg 94 94))
                                  (.val true)
                                  (.ite (.chr 49 (.rg 35 35))
                                    (.val true)
                                    (.ite (.chr 49 (.rg 38 38))
                                      (.val true)
                                      (.ite (.chr 49 (.rg 124 124))
                                        (.val true)
                                        (.ite (.chr 49 (.rg 126 126))
                                          (.val true)
                                          (.ite (.chr 49 (.rg 33 33))
                                            (.val true)
                                            (.ite (.chr 49 (.rg 63 63))
                                              (.val true)
                                              (.ite (.chr 49 (.rg 64 64))
                                                (.val true)
                                                (.ite (.chr 49 (.rg 36 36))
                                                  (.val true)
                                                  (.ite (.chr 49 (.rg 60 60))
                                                    (.val true)
                                                    (.ite (.chr 49 (.rg 62 62))
                                                      (.val true)
                                                      (.ite (.chr 49 (.rg 61 61)) (.val true) (.ret false))))))))))))))))))))))))) ;;
        (.advc 49) ;;
        (.tok 48) ;;
        (.val true))
       (.val false)))

/-- `run` (examples/oak-lean/src/lexer/mod.rs:373-388). -/
def run_ : Code :=
  .scope 0
    (.loop 0 false .more
      ((.ite (.ite (.ite (.ite (.ite (.ite (.ite (.ite skipWhitespace (.val true) lexNewline) (.val true) lexComment)
                   (.val true)
                   lexString)
                 (.val true)
                 lexChar)
               (.val true)
               lexNumber)
             (.val true)
             lexIdentifierOrKeyword)
           (.val true)
           lexOperatorOrDelimiter)
         .cont
         (.val true)) ;;
       (.mark 50) ;;
       (.ite ((.look 51) ;; (.chr 51 (.rg 0 1114111))) ((.advc 51) ;; (.tok 50)) (.val true))))

end Oaks.HandLex.Lean
