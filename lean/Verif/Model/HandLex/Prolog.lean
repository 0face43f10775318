import Verif.Model.LexCode

/-
The lexer of the example `oak-prolog` as a program of Model/LexCode.lean, function by function in the order of
the calls. Kinds of tokens and messages are left out.
-/
namespace Oaks.HandLex.Prolog

open Oaks.Lc

/-- `skip_whitespace` (examples/oak-prolog/src/lexer/mod.rs:69-83). -/
def skipWhitespace : Code :=
  .scope 2
    ((.mark 2) ;;
     (.loop 3 true ((.look 4) ;; (.chr 4 (.rg 0 1114111)))
       (.ite (.ite (.chr 4 (.rg 32 32)) (.val true) (.chr 4 (.rg 9 9))) (.advc 4) .brk)) ;;
     (.ite (.moved 2) ((.tok 2) ;; (.val true)) (.val false)))

/-- `lex_newline` (examples/oak-prolog/src/lexer/mod.rs:85-104). -/
def lexNewline : Code :=
  .scope 5
    ((.mark 5) ;;
     (.ite ((.look 8) ;; (.chr 8 (.rg 10 10)))
       ((.adv 1) ;; (.tok 5) ;; (.val true))
       (.ite ((.look 6) ;; (.chr 6 (.rg 13 13)))
         ((.adv 1) ;; (.ite ((.look 7) ;; (.chr 7 (.rg 10 10))) (.adv 1) (.val true)) ;; (.tok 5) ;; (.val true))
         (.val false))))

/-- `lex_comment` (examples/oak-prolog/src/lexer/mod.rs:106-150). -/
def lexComment : Code :=
  .scope 9
    ((.mark 9) ;;
     (.ite ((.look 15) ;; (.chr 15 (.rg 37 37)))
       ((.adv 1) ;;
        (.loop 16 true ((.look 17) ;; (.chr 17 (.rg 0 1114111)))
          ((.ite (.ite (.chr 17 (.rg 10 10)) (.val true) (.chr 17 (.rg 13 13))) .brk (.val true)) ;; (.advc 17))) ;;
        (.tok 9) ;;
        (.val true))
       (.ite ((.look 10) ;; (.chr 10 (.rg 47 47)))
         ((.adv 1) ;;
          (.ite ((.look 11) ;; (.chr 11 (.rg 42 42)))
            ((.adv 1) ;;
             (.loop 12 true ((.look 13) ;; (.chr 13 (.rg 0 1114111)))
               (.ite (.chr 13 (.rg 42 42))
                 ((.adv 1) ;; (.ite ((.look 14) ;; (.chr 14 (.rg 47 47))) ((.adv 1) ;; .brk) (.val true)))
                 (.advc 13))) ;;
             (.tok 9) ;;
             (.val true))
            ((.goto 9) ;; (.val false))))
         (.val false))))

/-- `lex_string` (examples/oak-prolog/src/lexer/mod.rs:152-192). -/
def lexString : Code :=
  .scope 18
    ((.mark 18) ;;
     (.ite ((.look 19) ;; (.chr 19 (.rg 0 1114111)))
       (.ite (.ite (.chr 19 (.rg 34 34)) (.val true) (.chr 19 (.rg 39 39)))
         ((.adv 1) ;;
          (.put 20 0) ;;
          (.loop 21 true ((.look 22) ;; (.chr 22 (.rg 0 1114111)))
            (.ite (.flag 20)
              ((.put 20 0) ;; (.advc 22))
              (.ite (.chr 22 (.rg 92 92))
                ((.put 20 1) ;; (.adv 1))
                (.ite (.same 22 19)
                  ((.adv 1) ;; .brk)
                  (.ite (.ite (.chr 22 (.rg 10 10)) (.val true) (.chr 22 (.rg 13 13))) .brk (.advc 22)))))) ;;
          (.tok 18) ;;
          (.val true))
         (.val false))
       (.val false)))

/-- `lex_number` (examples/oak-prolog/src/lexer/mod.rs:194-238). -/
def lexNumber : Code :=
  .scope 23
    (.ite ((.look 23) ;; (.chr 23 (.rg 0 1114111)))
      (.ite (.chr 23 (.rg 48 57))
        ((.mark 24) ;;
         (.loop 25 true ((.look 26) ;; (.chr 26 (.rg 0 1114111))) (.ite (.chr 26 (.rg 48 57)) (.adv 1) .brk)) ;;
         (.ite ((.look 27) ;; (.chr 27 (.rg 46 46)))
           ((.adv 1) ;;
            (.loop 28 true ((.look 29) ;; (.chr 29 (.rg 0 1114111))) (.ite (.chr 29 (.rg 48 57)) (.adv 1) .brk)))
           (.val true)) ;;
         (.ite ((.look 30) ;; (.chr 30 (.rg 0 1114111)))
           (.ite (.ite (.chr 30 (.rg 101 101)) (.val true) (.chr 30 (.rg 69 69)))
             ((.adv 1) ;;
              (.ite ((.look 31) ;; (.chr 31 (.rg 0 1114111)))
                (.ite (.ite (.chr 31 (.rg 43 43)) (.val true) (.chr 31 (.rg 45 45))) (.adv 1) (.val true))
                (.val true)) ;;
              (.loop 32 true ((.look 33) ;; (.chr 33 (.rg 0 1114111))) (.ite (.chr 33 (.rg 48 57)) (.adv 1) .brk)))
             (.val true))
           (.val true)) ;;
         (.tok 24) ;;
         (.val true))
        (.val false))
      (.val false))

/-- `lex_atom_or_keyword` (examples/oak-prolog/src/lexer/mod.rs:240-274). -/
def lexAtomOrKeyword : Code :=
  .scope 34
    (.ite ((.look 34) ;; (.chr 34 (.rg 0 1114111)))
      (.ite (.ite (.chr 34 (.rg 97 122)) (.val true) (.chr 34 (.rg 95 95)))
        ((.mark 35) ;;
         (.val true) ;;
         (.loop 36 true ((.look 37) ;; (.chr 37 (.rg 0 1114111)))
           (.ite (.ite (.chr 37 .alnum) (.val true) (.chr 37 (.rg 95 95))) (.advc 37) .brk)) ;;
         (.val true) ;;
         (.tok 35) ;;
         (.val true))
        (.val false))
      (.val false))

/-- `lex_variable` (examples/oak-prolog/src/lexer/mod.rs:276-296). -/
def lexVariable : Code :=
  .scope 38
    (.ite ((.look 38) ;; (.chr 38 (.rg 0 1114111)))
      (.ite (.ite (.chr 38 (.rg 65 90)) (.val true) (.chr 38 (.rg 95 95)))
        ((.mark 39) ;;
         (.loop 40 true ((.look 41) ;; (.chr 41 (.rg 0 1114111)))
           (.ite (.ite (.chr 41 .alnum) (.val true) (.chr 41 (.rg 95 95))) (.advc 41) .brk)) ;;
         (.tok 39) ;;
         (.val true))
        (.val false))
      (.val false))

/-- `lex_operators_and_punctuation` (examples/oak-prolog/src/lexer/mod.rs:298-476). -/
def lexOperatorsAndPunctuation : Code :=
  .scope 42
    (.ite ((.look 42) ;; (.chr 42 (.rg 0 1114111)))
      ((.mark 43) ;;
       (.ite (.chr 42 (.rg 43 43))
         (.adv 1)
         (.ite (.chr 42 (.rg 45 45))
           (.adv 1)
           (.ite (.chr 42 (.rg 42 42))
             ((.adv 1) ;; (.ite ((.look 56) ;; (.chr 56 (.rg 42 42))) (.adv 1) (.val true)))
             (.ite (.chr 42 (.rg 47 47))
               ((.adv 1) ;; (.ite ((.look 55) ;; (.chr 55 (.rg 47 47))) (.adv 1) (.val true)))
               (.ite (.chr 42 (.rg 61 61))
                 ((.adv 1) ;;
                  (.ite ((.look 54) ;; (.chr 54 (.rg 61 61)))
                    (.adv 1)
                    (.ite ((.look 52) ;; (.chr 52 (.rg 58 58)))
                      ((.adv 1) ;; (.ite ((.look 53) ;; (.chr 53 (.rg 61 61))) (.adv 1) ((.goto 43) ;; (.adv 1))))
                      (.ite ((.look 50) ;; (.chr 50 (.rg 92 92)))
                        ((.adv 1) ;; (.ite ((.look 51) ;; (.chr 51 (.rg 61 61))) (.adv 1) ((.goto 43) ;; (.adv 1))))
                        (.ite ((.look 49) ;; (.chr 49 (.rg 60 60))) (.adv 1) (.val true))))))
                 (.ite (.chr 42 (.rg 60 60))
                   ((.adv 1) ;; (.ite ((.look 48) ;; (.chr 48 (.rg 61 61))) (.adv 1) (.val true)))
                   (.ite (.chr 42 (.rg 62 62))
                     ((.adv 1) ;; (.ite ((.look 47) ;; (.chr 47 (.rg 61 61))) (.adv 1) (.val true)))
                     (.ite (.chr 42 (.rg 92 92))
                       ((.adv 1) ;;
                        (.ite ((.look 45) ;; (.chr 45 (.rg 61 61)))
                          ((.adv 1) ;; (.ite ((.look 46) ;; (.chr 46 (.rg 61 61))) (.adv 1) (.val true)))
                          (.val true)))
                       (.ite (.chr 42 (.rg 33 33))
                         (.adv 1)
                         (.ite (.chr 42 (.rg 63 63))
                           (.adv 1)
                           (.ite (.chr 42 (.rg 58 58))
                             ((.adv 1) ;; (.ite ((.look 44) ;; (.chr 44 (.rg 45 45))) (.adv 1) (.val true)))
                             (.ite (.chr 42 (.rg 59 59))
                               (.adv 1)
                               (.ite (.chr 42 (.rg 44 44))
                                 (.adv 1)
                                 (.ite (.chr 42 (.rg 46 46))
                                   (.adv 1)
                                   (.ite (.chr 42 (.rg 40 40))
                                     (.adv 1)
                                     (.ite (.chr 42 (.rg 41 41))
                                       (.adv 1)
                                       (.ite (.chr 42 (.rg 91 91))
                                         (.adv 1)
                                         (.ite (.chr 42 (.rg 93 93))
                                           (.adv 1)
                                           (.ite (.chr 42 (.rg 123 123))
                                             (.adv 1)
                                             (.ite (.chr 42 (.rg 125 125))
                                               (.adv 1)
                                               (.ite (.chr 42 (.rg 124 124))
                                                 (.adv 1)
                                                 (.ite (.chr 42 (.rg 94 94)) (.adv 1) (.ret false))))))))))))))))))))))) ;;
       (.tok 43) ;;
       (.val true))
      (.val false))

/-- `run` (examples/oak-prolog/src/lexer/mod.rs:20-67). -/
def run_ : Code :=
  .scope 0
    (.loop 0 false .more
      ((.mark 1) ;;
       (.ite skipWhitespace .cont (.val true)) ;;
       (.ite lexNewline .cont (.val true)) ;;
       (.ite lexComment .cont (.val true)) ;;
       (.ite lexString .cont (.val true)) ;;
       (.ite lexNumber .cont (.val true)) ;;
       (.ite lexAtomOrKeyword .cont (.val true)) ;;
       (.ite lexVariable .cont (.val true)) ;;
       (.ite lexOperatorsAndPunctuation .cont (.val true)) ;;
       (.ite ((.look 57) ;; (.chr 57 (.rg 0 1114111))) ((.mark 58) ;; (.advc 57) ;; (.tok 58)) (.val true)) ;;
       (.guard 1)))

end Oaks.HandLex.Prolog
