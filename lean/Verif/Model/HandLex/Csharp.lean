import Verif.Model.LexCode

/-
The lexer of the example `oak-csharp` as a program of Model/LexCode.lean, function by function in the order of
the calls. Kinds of tokens and messages are left out.
-/
namespace Oaks.HandLex.Csharp

open Oaks.Lc

/-- `skip_whitespace` (examples/oak-csharp/src/lexer/mod.rs:23-42). -/
def skipWhitespace : Code :=
  .scope 2
    ((.mark 2) ;;
     (.loop 3 true ((.look 4) ;; (.chr 4 (.rg 0 1114111)))
       (.ite (.ite (.chr 4 (.rg 32 32)) (.val true) (.chr 4 (.rg 9 9))) (.advc 4) .brk)) ;;
     (.ite (.moved 2) ((.tok 2) ;; (.val true)) (.val false)))

/-- `lex_newline` (examples/oak-csharp/src/lexer/mod.rs:45-64). -/
def lexNewline : Code :=
  .scope 5
    ((.mark 5) ;;
     (.ite ((.look 8) ;; (.chr 8 (.rg 10 10)))
       ((.adv 1) ;; (.tok 5) ;; (.val true))
       (.ite ((.look 6) ;; (.chr 6 (.rg 13 13)))
         ((.adv 1) ;; (.ite ((.look 7) ;; (.chr 7 (.rg 10 10))) (.adv 1) (.val true)) ;; (.tok 5) ;; (.val true))
         (.val false))))

/-- `lex_comment` (examples/oak-csharp/src/lexer/mod.rs:67-109). -/
def lexComment : Code :=
  .scope 9
    ((.mark 9) ;;
     (.ite ((.look 10) ;; (.chr 10 (.rg 47 47)))
       ((.adv 1) ;;
        (.ite ((.look 15) ;; (.chr 15 (.rg 47 47)))
          ((.adv 1) ;;
           (.loop 16 true ((.look 17) ;; (.chr 17 (.rg 0 1114111)))
             ((.ite (.ite (.chr 17 (.rg 10 10)) (.val true) (.chr 17 (.rg 13 13))) .brk (.val true)) ;; (.advc 17))) ;;
           (.tok 9) ;;
           (.ret true))
          (.ite ((.look 11) ;; (.chr 11 (.rg 42 42)))
            ((.adv 1) ;;
             (.loop 12 true ((.look 13) ;; (.chr 13 (.rg 0 1114111)))
               (.ite (.chr 13 (.rg 42 42))
                 ((.adv 1) ;; (.ite ((.look 14) ;; (.chr 14 (.rg 47 47))) ((.adv 1) ;; .brk) (.val true)))
                 (.advc 13))) ;;
             (.tok 9) ;;
             (.ret true))
            ((.goto 9) ;; (.ret false)))))
       (.val true)) ;;
     (.val false))

/-- `lex_string` (examples/oak-csharp/src/lexer/mod.rs:112-159). -/
def lexString : Code :=
  .scope 18
    ((.mark 18) ;;
     (.ite ((.look 23) ;; (.chr 23 (.rg 34 34)))
       ((.adv 1) ;;
        (.loop 24 true ((.look 25) ;; (.chr 25 (.rg 0 1114111)))
          (.ite (.chr 25 (.rg 34 34))
            ((.adv 1) ;; .brk)
            (.ite (.chr 25 (.rg 92 92))
              ((.adv 1) ;; (.ite ((.look 26) ;; (.chr 26 (.rg 0 1114111))) (.adv 1) (.val true)))
              (.advc 25)))) ;;
        (.tok 18) ;;
        (.val true))
       (.ite ((.look 19) ;; (.chr 19 (.rg 39 39)))
         ((.adv 1) ;;
          (.loop 20 true ((.look 21) ;; (.chr 21 (.rg 0 1114111)))
            (.ite (.chr 21 (.rg 39 39))
              ((.adv 1) ;; .brk)
              (.ite (.chr 21 (.rg 92 92))
                ((.adv 1) ;; (.ite ((.look 22) ;; (.chr 22 (.rg 0 1114111))) (.adv 1) (.val true)))
                (.advc 21)))) ;;
          (.tok 18) ;;
          (.val true))
         (.val false))))

/-- `lex_number` (examples/oak-csharp/src/lexer/mod.rs:162-195). -/
def lexNumber : Code :=
  .scope 27
    ((.mark 27) ;;
     (.ite ((.look 28) ;; (.chr 28 (.rg 0 1114111)))
       (.ite (.chr 28 (.rg 48 57))
         ((.advc 28) ;;
          (.loop 29 true ((.look 30) ;; (.chr 30 (.rg 0 1114111)))
            (.ite (.ite (.ite (.chr 30 (.rg 48 57)) (.val true) (.chr 30 (.rg 46 46))) (.val true) (.chr 30 (.rg 95 95)))
              (.advc 30)
              .brk)) ;;
          (.ite ((.look 31) ;; (.chr 31 (.rg 0 1114111)))
            (.ite (.chr 31 (.or (.rg 65 90) (.rg 97 122)))
              ((.advc 31) ;;
               (.ite ((.look 32) ;; (.chr 32 (.rg 0 1114111)))
                 (.ite (.chr 32 (.or (.rg 65 90) (.rg 97 122))) (.advc 32) (.val true))
                 (.val true)))
              (.val true))
            (.val true)) ;;
          (.tok 27) ;;
          (.val true))
         (.val false))
       (.val false)))

/-- `lex_keyword_or_identifier` (examples/oak-csharp/src/lexer/mod.rs:198-305). -/
def lexKeywordOrIdentifier : Code :=
  .scope 33
    ((.mark 33) ;;
     (.ite ((.look 34) ;; (.chr 34 (.rg 0 1114111)))
       (.ite (.ite (.ite (.chr 34 (.or (.rg 65 90) (.rg 97 122))) (.val true) (.chr 34 (.rg 95 95)))
           (.val true)
           (.chr 34 (.rg 64 64)))
         ((.advc 34) ;;
          (.loop 35 true ((.look 36) ;; (.chr 36 (.rg 0 1114111)))
            (.ite (.ite (.chr 36 (.or (.or (.rg 48 57) (.rg 65 90)) (.rg 97 122))) (.val true) (.chr 36 (.rg 95 95)))
              (.advc 36)
              .brk)) ;;
          (.val true) ;;
          (.val true) ;;
          (.tok 33) ;;
          (.val true))
         (.val false))
       (.val false)))

/-- `lex_operator` (examples/oak-csharp/src/lexer/mod.rs:308-457). -/
def lexOperator : Code :=
  .scope 37
    ((.mark 37) ;;
     (.ite ((.look 38) ;; (.chr 38 (.rg 0 1114111)))
       ((.ite (.chr 38 (.rg 43 43))
          ((.adv 1) ;;
           (.ite ((.look 53) ;; (.chr 53 (.rg 61 61)))
             (.adv 1)
             (.ite ((.look 52) ;; (.chr 52 (.rg 43 43))) (.adv 1) (.val true))))
          (.ite (.chr 38 (.rg 45 45))
            ((.adv 1) ;;
             (.ite ((.look 51) ;; (.chr 51 (.rg 61 61)))
               (.adv 1)
               (.ite ((.look 50) ;; (.chr 50 (.rg 45 45))) (.adv 1) (.val true))))
            (.ite (.chr 38 (.rg 42 42))
              ((.adv 1) ;; (.ite ((.look 49) ;; (.chr 49 (.rg 61 61))) (.adv 1) (.val true)))
              (.ite (.chr 38 (.rg 47 47))
                ((.adv 1) ;; (.ite ((.look 48) ;; (.chr 48 (.rg 61 61))) (.adv 1) (.val true)))
                (.ite (.chr 38 (.rg 37 37))
                  ((.adv 1) ;; (.ite ((.look 47) ;; (.chr 47 (.rg 61 61))) (.adv 1) (.val true)))
                  (.ite (.chr 38 (.rg 61 61))
                    ((.adv 1) ;; (.ite ((.look 46) ;; (.chr 46 (.rg 61 61))) (.adv 1) (.val true)))
                    (.ite (.chr 38 (.rg 33 33))
                      ((.adv 1) ;; (.ite ((.look 45) ;; (.chr 45 (.rg 61 61))) (.adv 1) (.val true)))
                      (.ite (.chr 38 (.rg 60 60))
                        ((.adv 1) ;;
                         (.ite ((.look 44) ;; (.chr 44 (.rg 61 61)))
                           (.adv 1)
                           (.ite ((.look 43) ;; (.chr 43 (.rg 60 60))) (.adv 1) (.val true))))
                        (.ite (.chr 38 (.rg 62 62))
                          ((.adv 1) ;;
                           (.ite ((.look 42) ;; (.chr 42 (.rg 61 61)))
                             (.adv 1)
                             (.ite ((.look 41) ;; (.chr 41 (.rg 62 62))) (.adv 1) (.val true))))
                          (.ite (.chr 38 (.rg 38 38))
                            ((.adv 1) ;; (.ite ((.look 40) ;; (.chr 40 (.rg 38 38))) (.adv 1) (.val true)))
                            (.ite (.chr 38 (.rg 124 124))
                              ((.adv 1) ;; (.ite ((.look 39) ;; (.chr 39 (.rg 124 124))) (.adv 1) (.val true)))
                              (.ite (.chr 38 (.rg 94 94))
                                (.adv 1)
                                (.ite (.chr 38 (.rg 126 126)) (.adv 1) (.ret false)))))))))))))) ;;
        (.tok 37) ;;
        (.val true))
       (.val false)))

/-- `lex_delimiter` (examples/oak-csharp/src/lexer/mod.rs:460-486). -/
def lexDelimiter : Code :=
  .scope 54
    ((.mark 54) ;;
     (.ite ((.look 55) ;; (.chr 55 (.rg 0 1114111)))
       ((.ite (.chr 55 (.rg 40 40))
          (.val true)
          (.ite (.chr 55 (.rg 41 41))
            (.val true)
            (.ite (.chr 55 (.rg 91 91))
              (.val true)
              (.ite (.chr 55 (.rg 93 93))
                (.val true)
                (.ite (.chr 55 (.rg 123 123))
                  (.val true)
                  (.ite (.chr 55 (.rg 125 125))
                    (.val true)
                    (.ite (.chr 55 (.rg 59 59))
                      (.val true)
                      (.ite (.chr 55 (.rg 44 44))
                        (.val true)
                        (.ite (.chr 55 (.rg 46 46))
                          (.val true)
                          (.ite (.chr 55 (.rg 58 58))
                            (.val true)
                            (.ite (.chr 55 (.rg 63 63)) (.val true) (.ret false)))))))))))) ;;
        (.advc 55) ;;
        (.tok 54) ;;
        (.val true))
       (.val false)))

/-- `run` (examples/oak-csharp/src/lexer/mod.rs:488-534). -/
def run_ : Code :=
  .scope 0
    (.loop 0 false .more
      ((.mark 1) ;;
       (.ite skipWhitespace .cont (.val true)) ;;
       (.ite lexNewline .cont (.val true)) ;;
       (.ite lexComment .cont (.val true)) ;;
       (.ite lexString .cont (.val true)) ;;
       (.ite lexNumber .cont (.val true)) ;;
       (.ite lexKeywordOrIdentifier .cont (.val true)) ;;
       (.ite lexOperator .cont (.val true)) ;;
       (.ite lexDelimiter .cont (.val true)) ;;
       (.mark 56) ;;
       (.ite ((.look 57) ;; (.chr 57 (.rg 0 1114111))) ((.advc 57) ;; (.tok 56)) (.val true)) ;;
       (.guard 1)))

end Oaks.HandLex.Csharp
