import Verif.Model.LexCode

/-
The lexer of the example `oak-powershell` as a program of Model/LexCode.lean, function by function in the order of
the calls. Kinds of tokens and messages are left out.
-/
namespace Oaks.HandLex.Powershell

open Oaks.Lc

/-- `skip_whitespace` (examples/oak-powershell/src/lexer/mod.rs:76-95). -/
def skipWhitespace : Code :=
  .scope 1
    ((.mark 1) ;;
     (.loop 2 true ((.look 3) ;; (.chr 3 (.rg 0 1114111)))
       (.ite (.ite (.chr 3 (.rg 32 32)) (.val true) (.chr 3 (.rg 9 9))) (.advc 3) .brk)) ;;
     (.ite (.moved 1) ((.tok 1) ;; (.val true)) (.val false)))

/-- `lex_newline` (examples/oak-powershell/src/lexer/mod.rs:97-116). -/
def lexNewline : Code :=
  .scope 4
    ((.mark 4) ;;
     (.ite ((.look 7) ;; (.chr 7 (.rg 10 10)))
       ((.adv 1) ;; (.tok 4) ;; (.val true))
       (.ite ((.look 5) ;; (.chr 5 (.rg 13 13)))
         ((.adv 1) ;; (.ite ((.look 6) ;; (.chr 6 (.rg 10 10))) (.adv 1) (.val true)) ;; (.tok 4) ;; (.val true))
         (.val false))))

/-- `lex_comment` (examples/oak-powershell/src/lexer/mod.rs:118-173). -/
def lexComment : Code :=
  .scope 8
    ((.mark 8) ;;
     (.ite ((.look 16) ;; (.chr 16 (.rg 35 35)))
       ((.adv 1) ;;
        (.loop 17 true ((.look 18) ;; (.chr 18 (.rg 0 1114111)))
          ((.ite (.ite (.chr 18 (.rg 10 10)) (.val true) (.chr 18 (.rg 13 13))) .brk (.val true)) ;; (.advc 18))) ;;
        (.tok 8) ;;
        (.val true))
       (.ite ((.look 9) ;; (.chr 9 (.rg 60 60)))
         ((.adv 1) ;;
          (.ite ((.look 10) ;; (.chr 10 (.rg 35 35)))
            ((.adv 1) ;;
             (.put 11 1) ;;
             (.loop 12 true ((.look 13) ;; (.chr 13 (.rg 0 1114111)))
               ((.ite (.ask 11 (· == 0)) .brk (.val true)) ;;
                (.ite (.chr 13 (.rg 60 60))
                  ((.adv 1) ;;
                   (.ite ((.look 15) ;; (.chr 15 (.rg 35 35)))
                     ((.adv 1) ;; (.comp 11 11 (· + 1)))
                     (.val true)))
                  (.ite (.chr 13 (.rg 35 35))
                    ((.adv 1) ;;
                     (.ite ((.look 14) ;; (.chr 14 (.rg 62 62)))
                       ((.adv 1) ;; (.comp 11 11 (· - 1)))
                       (.val true)))
                    (.advc 13))))) ;;
             (.tok 8) ;;
             (.val true))
            ((.goto 8) ;; (.val false))))
         (.val false))))

/-- `lex_string` (examples/oak-powershell/src/lexer/mod.rs:175-216). -/
def lexString : Code :=
  .scope 19
    ((.mark 19) ;;
     (.ite ((.look 20) ;; (.chr 20 (.rg 0 1114111)))
       (.ite (.ite (.chr 20 (.rg 34 34)) (.val true) (.chr 20 (.rg 39 39)))
         ((.adv 1) ;;
          (.put 21 0) ;;
          (.loop 22 true ((.look 23) ;; (.chr 23 (.rg 0 1114111)))
            (.ite (.flag 21)
              ((.put 21 0) ;; (.advc 23))
              (.ite (.chr 23 (.rg 96 96))
                ((.put 21 1) ;; (.adv 1))
                (.ite (.same 23 20)
                  ((.adv 1) ;; .brk)
                  (.ite (.ite (.chr 23 (.rg 10 10)) (.val true) (.chr 23 (.rg 13 13))) (.advc 23) (.advc 23)))))) ;;
          (.tok 19) ;;
          (.val true))
         (.val false))
       (.val false)))

/-- `lex_number` (examples/oak-powershell/src/lexer/mod.rs:218-277). -/
def lexNumber : Code :=
  .scope 24
    (.ite ((.look 24) ;; (.chr 24 (.rg 0 1114111)))
      (.ite (.chr 24 (.rg 48 57))
        ((.mark 25) ;;
         (.loop 26 true ((.look 27) ;; (.chr 27 (.rg 0 1114111))) (.ite (.chr 27 (.rg 48 57)) (.adv 1) .brk)) ;;
         (.ite ((.look 28) ;; (.chr 28 (.rg 46 46)))
           ((.adv 1) ;;
            (.loop 29 true ((.look 30) ;; (.chr 30 (.rg 0 1114111))) (.ite (.chr 30 (.rg 48 57)) (.adv 1) .brk)))
           (.val true)) ;;
         (.ite ((.look 31) ;; (.chr 31 (.rg 0 1114111)))
           (.ite (.ite (.chr 31 (.rg 101 101)) (.val true) (.chr 31 (.rg 69 69)))
             ((.adv 1) ;;
              (.ite ((.look 32) ;; (.chr 32 (.rg 0 1114111)))
                (.ite (.ite (.chr 32 (.rg 43 43)) (.val true) (.chr 32 (.rg 45 45))) (.adv 1) (.val true))
                (.val true)) ;;
              (.loop 33 true ((.look 34) ;; (.chr 34 (.rg 0 1114111))) (.ite (.chr 34 (.rg 48 57)) (.adv 1) .brk)))
             (.val true))
           (.val true)) ;;
         (.tok 25) ;;
         (.val true))
        (.val false))
      (.val false))

/-- `lex_variable` (examples/oak-powershell/src/lexer/mod.rs:279-317). -/
def lexVariable : Code :=
  .scope 35
    ((.mark 35) ;;
     (.ite ((.look 36) ;; (.chr 36 (.rg 36 36)))
       ((.adv 1) ;;
        (.ite ((.look 37) ;; (.chr 37 (.rg 0 1114111)))
          (.ite (.ite (.chr 37 .alpha) (.val true) (.chr 37 (.rg 95 95)))
            ((.advc 37) ;;
             (.loop 38 true ((.look 39) ;; (.chr 39 (.rg 0 1114111)))
               (.ite (.ite (.chr 39 .alnum) (.val true) (.chr 39 (.rg 95 95))) (.advc 39) .brk)) ;;
             (.tok 35) ;;
             (.val true))
            ((.tok 35) ;; (.val true)))
          ((.tok 35) ;; (.val true))))
       (.val false)))

/-- `lex_identifier_or_keyword` (examples/oak-powershell/src/lexer/mod.rs:319-387). -/
def lexIdentifierOrKeyword : Code :=
  .scope 40
    (.ite ((.look 40) ;; (.chr 40 (.rg 0 1114111)))
      (.ite (.ite (.chr 40 .alpha) (.val true) (.chr 40 (.rg 95 95)))
        ((.mark 41) ;;
         (.val true) ;;
         (.loop 42 true ((.look 43) ;; (.chr 43 (.rg 0 1114111)))
           (.ite (.ite (.ite (.chr 43 .alnum) (.val true) (.chr 43 (.rg 95 95))) (.val true) (.chr 43 (.rg 45 45)))
             (.advc 43)
             .brk)) ;;
         (.val true) ;;
         (.tok 41) ;;
         (.val true))
        (.val false))
      (.val false))

/-- `lex_operators_and_punctuation` (examples/oak-powershell/src/lexer/mod.rs:389-593). -/
def lexOperatorsAndPunctuation : Code :=
  .scope 44
    (.ite ((.look 44) ;; (.chr 44 (.rg 0 1114111)))
      ((.mark 45) ;;
       (.ite (.chr 44 (.rg 43 43))
         ((.adv 1) ;;
          (.ite ((.look 60) ;; (.chr 60 (.rg 43 43)))
            (.adv 1)
            (.ite ((.look 59) ;; (.chr 59 (.rg 61 61))) (.adv 1) (.val true))))
         (.ite (.chr 44 (.rg 45 45))
           ((.adv 1) ;;
            (.ite ((.look 58) ;; (.chr 58 (.rg 45 45)))
              (.adv 1)
              (.ite ((.look 57) ;; (.chr 57 (.rg 61 61))) (.adv 1) (.val true))))
           (.ite (.chr 44 (.rg 42 42))
             ((.adv 1) ;; (.ite ((.look 56) ;; (.chr 56 (.rg 61 61))) (.adv 1) (.val true)))
             (.ite (.chr 44 (.rg 47 47))
               ((.adv 1) ;; (.ite ((.look 55) ;; (.chr 55 (.rg 61 61))) (.adv 1) (.val true)))
               (.ite (.chr 44 (.rg 37 37))
                 ((.adv 1) ;; (.ite ((.look 54) ;; (.chr 54 (.rg 61 61))) (.adv 1) (.val true)))
                 (.ite (.chr 44 (.rg 61 61))
                   ((.adv 1) ;; (.ite ((.look 53) ;; (.chr 53 (.rg 61 61))) (.adv 1) (.val true)))
                   (.ite (.chr 44 (.rg 33 33))
                     ((.adv 1) ;; (.ite ((.look 52) ;; (.chr 52 (.rg 61 61))) (.adv 1) (.val true)))
                     (.ite (.chr 44 (.rg 60 60))
                       ((.adv 1) ;; (.ite ((.look 51) ;; (.chr 51 (.rg 61 61))) (.adv 1) (.val true)))
                       (.ite (.chr 44 (.rg 62 62))
                         ((.adv 1) ;; (.ite ((.look 50) ;; (.chr 50 (.rg 61 61))) (.adv 1) (.val true)))
                         (.ite (.chr 44 (.rg 38 38))
                           ((.adv 1) ;; (.ite ((.look 49) ;; (.chr 49 (.rg 38 38))) (.adv 1) (.val true)))
                           (.ite (.chr 44 (.rg 124 124))
                             ((.adv 1) ;; (.ite ((.look 48) ;; (.chr 48 (.rg 124 124))) (.adv 1) (.val true)))
                             (.ite (.chr 44 (.rg 94 94))
                               (.adv 1)
                               (.ite (.chr 44 (.rg 126 126))
                                 (.adv 1)
                                 (.ite (.chr 44 (.rg 63 63))
                                   (.adv 1)
                                   (.ite (.chr 44 (.rg 58 58))
                                     ((.adv 1) ;; (.ite ((.look 47) ;; (.chr 47 (.rg 58 58))) (.adv 1) (.val true)))
                                     (.ite (.chr 44 (.rg 59 59))
                                       (.adv 1)
                                       (.ite (.chr 44 (.rg 44 44))
                                         (.adv 1)
                                         (.ite (.chr 44 (.rg 46 46))
                                           ((.adv 1) ;;
                                            (.ite ((.look 46) ;; (.chr 46 (.rg 46 46))) (.adv 1) (.val true)))
                                           (.ite (.chr 44 (.rg 40 40))
                                             (.adv 1)
                                             (.ite (.chr 44 (.rg 41 41))
                                               (.adv 1)
                                               (.ite (.chr 44 (.rg 91 91))
                                                 (.adv 1)
                                                 (.ite (.chr 44 (.rg 93 93))
                                                   (.adv 1)
                                                   (.ite (.chr 44 (.rg 123 123))
                                                     (.adv 1)
                                                     (.ite (.chr 44 (.rg 125 125))
                                                       (.adv 1)
                                                       (.ite (.chr 44 (.rg 64 64))
                                                         (.adv 1)
                                                         (.ite (.chr 44 (.rg 96 96)) (.adv 1) (.ret false))))))))))))))))))))))))))) ;;
       (.tok 45) ;;
       (.val true))
      (.val false))

/-- `run` (examples/oak-powershell/src/lexer/mod.rs:23-74). -/
def run_ : Code :=
  .scope 0
    ((.loop 0 false .more
       ((.ite skipWhitespace .cont (.val true)) ;;
        (.ite lexNewline .cont (.val true)) ;;
        (.ite lexComment .cont (.val true)) ;;
        (.ite lexString .cont (.val true)) ;;
        (.ite lexNumber .cont (.val true)) ;;
        (.ite lexVariable .cont (.val true)) ;;
        (.ite lexIdentifierOrKeyword .cont (.val true)) ;;
        (.ite lexOperatorsAndPunctuation .cont (.val true)) ;;
        (.ite ((.look 61) ;; (.chr 61 (.rg 0 1114111))) ((.mark 62) ;; (.advc 61) ;; (.tok 62)) .brk))) ;;
     (.mark 63) ;;
     (.tokTo 63 63))

end Oaks.HandLex.Powershell
