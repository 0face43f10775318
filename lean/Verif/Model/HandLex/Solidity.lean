import Verif.Model.LexCode

/-
The lexer of the example `oak-solidity` as a program of Model/LexCode.lean, function by function in the order of
the calls. Kinds of tokens and messages are left out.
-/
namespace Oaks.HandLex.Solidity

open Oaks.Lc

/-- `skip_whitespace` (examples/oak-solidity/src/lexer/mod.rs:84-103). -/
def skipWhitespace : Code :=
  .scope 2
    ((.mark 2) ;;
     (.loop 3 true ((.look 4) ;; (.chr 4 (.rg 0 1114111)))
       (.ite (.ite (.chr 4 (.rg 32 32)) (.val true) (.chr 4 (.rg 9 9))) (.advc 4) .brk)) ;;
     (.ite (.moved 2) ((.tok 2) ;; (.val true)) (.val false)))

/-- `lex_newline` (examples/oak-solidity/src/lexer/mod.rs:106-125). -/
def lexNewline : Code :=
  .scope 5
    ((.mark 5) ;;
     (.ite ((.look 8) ;; (.chr 8 (.rg 10 10)))
       ((.adv 1) ;; (.tok 5) ;; (.val true))
       (.ite ((.look 6) ;; (.chr 6 (.rg 13 13)))
         ((.adv 1) ;; (.ite ((.look 7) ;; (.chr 7 (.rg 10 10))) (.adv 1) (.val true)) ;; (.tok 5) ;; (.val true))
         (.val false))))

/-- `lex_line_comment` (examples/oak-solidity/src/lexer/mod.rs:128-156). -/
def lexLineComment : Code :=
  .scope 9
    ((.mark 9) ;;
     (.ite ((.look 10) ;; (.chr 10 (.rg 47 47)))
       ((.adv 1) ;;
        (.ite ((.look 11) ;; (.chr 11 (.rg 47 47)))
          ((.adv 1) ;;
           (.loop 12 true ((.look 13) ;; (.chr 13 (.rg 0 1114111)))
             (.ite (.ite (.chr 13 (.rg 10 10)) (.val true) (.chr 13 (.rg 13 13))) .brk (.advc 13))) ;;
           (.tok 9) ;;
           (.val true))
          ((.goto 9) ;; (.val false))))
       (.val false)))

/-- `lex_block_comment` (examples/oak-solidity/src/lexer/mod.rs:159-191). -/
def lexBlockComment : Code :=
  .scope 14
    ((.mark 14) ;;
     (.ite ((.look 15) ;; (.chr 15 (.rg 47 47)))
       ((.adv 1) ;;
        (.ite ((.look 16) ;; (.chr 16 (.rg 42 42)))
          ((.adv 1) ;;
           (.loop 17 true ((.look 18) ;; (.chr 18 (.rg 0 1114111)))
             (.ite (.chr 18 (.rg 42 42))
               ((.adv 1) ;; (.ite ((.look 19) ;; (.chr 19 (.rg 47 47))) ((.adv 1) ;; .brk) (.val true)))
               (.advc 18))) ;;
           (.tok 14) ;;
           (.val true))
          ((.goto 14) ;; (.val false))))
       (.val false)))

/-- `lex_identifier_or_keyword` (examples/oak-solidity/src/lexer/mod.rs:194-222). -/
def lexIdentifierOrKeyword : Code :=
  .scope 20
    ((.mark 20) ;;
     (.ite ((.look 21) ;; (.chr 21 (.rg 0 1114111)))
       (.ite (.ite (.chr 21 (.or (.rg 65 90) (.rg 97 122))) (.val true) (.chr 21 (.rg 95 95)))
         ((.advc 21) ;;
          (.loop 22 true ((.look 23) ;; (.chr 23 (.rg 0 1114111)))
            (.ite (.ite (.chr 23 (.or (.or (.rg 48 57) (.rg 65 90)) (.rg 97 122))) (.val true) (.chr 23 (.rg 95 95)))
              (.advc 23)
              .brk)) ;;
          (.val true) ;;
          (.val true) ;;
          (.tok 20) ;;
          (.val true))
         (.val false))
       (.val false)))

/-- `lex_number` (examples/oak-solidity/src/lexer/mod.rs:275-348). -/
def lexNumber : Code :=
  .scope 24
    ((.mark 24) ;;
     (.ite ((.look 25) ;; (.chr 25 (.rg 0 1114111)))
       (.ite (.chr 25 (.rg 48 57))
         ((.advc 25) ;;
          (.ite (.chr 25 (.rg 48 48))
            (.ite ((.look 26) ;; (.chr 26 (.or (.rg 120 120) (.rg 88 88))))
              ((.adv 1) ;;
               (.loop 27 true ((.look 28) ;; (.chr 28 (.rg 0 1114111)))
                 (.ite (.chr 28 (.or (.or (.rg 48 57) (.rg 65 70)) (.rg 97 102))) (.adv 1) .brk)) ;;
               (.tok 24) ;;
               (.ret true))
              (.val true))
            (.val true)) ;;
          (.loop 29 true ((.look 30) ;; (.chr 30 (.rg 0 1114111))) (.ite (.chr 30 (.rg 48 57)) (.adv 1) .brk)) ;;
          (.ite ((.look 31) ;; (.chr 31 (.rg 46 46)))
            ((.adv 1) ;;
             (.loop 32 true ((.look 33) ;; (.chr 33 (.rg 0 1114111))) (.ite (.chr 33 (.rg 48 57)) (.adv 1) .brk)))
            (.val true)) ;;
          (.ite ((.look 34) ;; (.chr 34 (.or (.rg 101 101) (.rg 69 69))))
            ((.adv 1) ;;
             (.ite ((.look 35) ;; (.chr 35 (.or (.rg 43 43) (.rg 45 45)))) (.adv 1) (.val true)) ;;
             (.loop 36 true ((.look 37) ;; (.chr 37 (.rg 0 1114111))) (.ite (.chr 37 (.rg 48 57)) (.adv 1) .brk)))
            (.val true)) ;;
          (.tok 24) ;;
          (.val true))
         (.val false))
       (.val false)))

/-- `lex_string` (examples/oak-solidity/src/lexer/mod.rs:351-394). -/
def lexString : Code :=
  .scope 38
    ((.mark 38) ;;
     (.ite ((.look 39) ;; (.chr 39 (.rg 0 1114111)))
       (.ite (.ite (.chr 39 (.rg 34 34)) (.val true) (.chr 39 (.rg 39 39)))
         ((.adv 1) ;;
          (.put 40 0) ;;
          (.loop 41 true ((.look 42) ;; (.chr 42 (.rg 0 1114111)))
            (.ite (.same 42 39)
              ((.adv 1) ;; (.put 40 1) ;; .brk)
              (.ite (.chr 42 (.rg 92 92))
                ((.adv 1) ;; (.ite ((.look 43) ;; (.chr 43 (.rg 0 1114111))) (.adv 1) (.val true)))
                (.ite (.ite (.chr 42 (.rg 10 10)) (.val true) (.chr 42 (.rg 13 13))) .brk (.advc 42))))) ;;
          (.ite (.flag 40) (.tok 38) (.tok 38)) ;;
          (.val true))
         (.val false))
       (.val false)))

/-- `lex_operator` (examples/oak-solidity/src/lexer/mod.rs:397-546). -/
def lexOperator : Code :=
  .scope 44
    ((.mark 44) ;;
     (.ite ((.look 45) ;; (.chr 45 (.rg 0 1114111)))
       ((.ite (.chr 45 (.rg 43 43))
          ((.adv 1) ;; (.ite ((.look 60) ;; (.chr 60 (.rg 61 61))) (.adv 1) (.val true)))
          (.ite (.chr 45 (.rg 45 45))
            ((.adv 1) ;;
             (.ite ((.look 59) ;; (.chr 59 (.rg 61 61)))
               (.adv 1)
               (.ite ((.look 58) ;; (.chr 58 (.rg 62 62))) (.adv 1) (.val true))))
            (.ite (.chr 45 (.rg 42 42))
              ((.adv 1) ;;
               (.ite ((.look 57) ;; (.chr 57 (.rg 61 61)))
                 (.adv 1)
                 (.ite ((.look 56) ;; (.chr 56 (.rg 42 42))) (.adv 1) (.val true))))
              (.ite (.chr 45 (.rg 47 47))
                ((.adv 1) ;; (.ite ((.look 55) ;; (.chr 55 (.rg 61 61))) (.adv 1) (.val true)))
                (.ite (.chr 45 (.rg 37 37))
                  ((.adv 1) ;; (.ite ((.look 54) ;; (.chr 54 (.rg 61 61))) (.adv 1) (.val true)))
                  (.ite (.chr 45 (.rg 61 61))
                    ((.adv 1) ;; (.ite ((.look 53) ;; (.chr 53 (.rg 61 61))) (.adv 1) (.val true)))
                    (.ite (.chr 45 (.rg 33 33))
                      ((.adv 1) ;; (.ite ((.look 52) ;; (.chr 52 (.rg 61 61))) (.adv 1) (.val true)))
                      (.ite (.chr 45 (.rg 60 60))
                        ((.adv 1) ;;
                         (.ite ((.look 51) ;; (.chr 51 (.rg 61 61)))
                           (.adv 1)
                           (.ite ((.look 50) ;; (.chr 50 (.rg 60 60))) (.adv 1) (.val true))))
                        (.ite (.chr 45 (.rg 62 62))
                          ((.adv 1) ;;
                           (.ite ((.look 49) ;; (.chr 49 (.rg 61 61)))
                             (.adv 1)
                             (.ite ((.look 48) ;; (.chr 48 (.rg 62 62))) (.adv 1) (.val true))))
                          (.ite (.chr 45 (.rg 38 38))
                            ((.adv 1) ;; (.ite ((.look 47) ;; (.chr 47 (.rg 38 38))) (.adv 1) (.val true)))
                            (.ite (.chr 45 (.rg 124 124))
                              ((.adv 1) ;; (.ite ((.look 46) ;; (.chr 46 (.rg 124 124))) (.adv 1) (.val true)))
                              (.ite (.chr 45 (.rg 94 94))
                                (.adv 1)
                                (.ite (.chr 45 (.rg 126 126)) (.adv 1) (.ret false)))))))))))))) ;;
        (.tok 44) ;;
        (.val true))
       (.val false)))

/-- `lex_delimiter` (examples/oak-solidity/src/lexer/mod.rs:549-573). -/
def lexDelimiter : Code :=
  .scope 61
    ((.mark 61) ;;
     (.ite ((.look 62) ;; (.chr 62 (.rg 0 1114111)))
       ((.ite (.chr 62 (.rg 40 40))
          (.val true)
          (.ite (.chr 62 (.rg 41 41))
            (.val true)
            (.ite (.chr 62 (.rg 123 123))
              (.val true)
              (.ite (.chr 62 (.rg 125 125))
                (.val true)
                (.ite (.chr 62 (.rg 91 91))
                  (.val true)
                  (.ite (.chr 62 (.rg 93 93))
                    (.val true)
                    (.ite (.chr 62 (.rg 59 59))
                      (.val true)
                      (.ite (.chr 62 (.rg 44 44)) (.val true) (.ite (.chr 62 (.rg 46 46)) (.val true) (.ret false)))))))))) ;;
        (.advc 62) ;;
        (.tok 61) ;;
        (.val true))
       (.val false)))

/-- `run` (examples/oak-solidity/src/lexer/mod.rs:30-81). -/
def run_ : Code :=
  .scope 0
    (.loop 0 false .more
      ((.mark 1) ;;
       (.ite skipWhitespace .cont (.val true)) ;;
       (.ite lexNewline .cont (.val true)) ;;
       (.ite lexLineComment .cont (.val true)) ;;
       (.ite lexBlockComment .cont (.val true)) ;;
       (.ite lexIdentifierOrKeyword .cont (.val true)) ;;
       (.ite lexNumber .cont (.val true)) ;;
       (.ite lexString .cont (.val true)) ;;
       (.ite lexOperator .cont (.val true)) ;;
       (.ite lexDelimiter .cont (.val true)) ;;
       (.mark 63) ;;
       (.ite ((.look 64) ;; (.chr 64 (.rg 0 1114111))) ((.advc 64) ;; (.tok 63)) (.val true)) ;;
       (.guard 1)))

end Oaks.HandLex.Solidity
