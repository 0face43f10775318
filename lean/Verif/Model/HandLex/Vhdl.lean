import Verif.Model.LexCode

/-
The lexer of the example `oak-vhdl` as a program of Model/LexCode.lean, function by function in the order of
the calls. Kinds of tokens and messages are left out.
-/
namespace Oaks.HandLex.Vhdl

open Oaks.Lc

/-- `skip_whitespace` (examples/oak-vhdl/src/lexer/mod.rs:80-97). -/
def skipWhitespace : Code :=
  .scope 2
    ((.mark 2) ;;
     (.loop 3 true ((.look 4) ;; (.chr 4 (.rg 0 1114111)))
       (.ite (.chr 4 (.or (.or (.or (.rg 32 32) (.rg 9 9)) (.rg 10 10)) (.rg 13 13))) (.advc 4) .brk)) ;;
     (.ite (.moved 2) ((.tok 2) ;; (.val true)) (.val false)))

/-- `skip_comment` (examples/oak-vhdl/src/lexer/mod.rs:100-116). -/
def skipComment : Code :=
  .scope 5
    ((.mark 5) ;;
     (.ite (.ite (.starts ['-', '-']) ((.adv 2) ;; (.val true)) (.val false))
       ((.loop 6 true ((.look 7) ;; (.chr 7 (.rg 0 1114111)))
          ((.ite (.ite (.chr 7 (.rg 10 10)) (.val true) (.chr 7 (.rg 13 13))) .brk (.val true)) ;; (.advc 7))) ;;
        (.tok 5) ;;
        (.ret true))
       (.val true)) ;;
     (.val false))

/-- `lex_string_literal` (examples/oak-vhdl/src/lexer/mod.rs:119-199). -/
def lexStringLiteral : Code :=
  .scope 8
    ((.mark 8) ;;
     (.ite ((.look 9) ;; (.chr 9 (.rg 34 34)))
       ((.adv 1) ;;
        (.loop 10 true ((.look 11) ;; (.chr 11 (.rg 0 1114111)))
          (.ite (.chr 11 (.rg 34 34))
            ((.adv 1) ;;
             (.ite ((.look 12) ;; (.chr 12 (.rg 34 34))) ((.adv 1) ;; .cont) (.val true)) ;;
             (.tok 8) ;;
             (.ret true))
            (.ite (.ite (.chr 11 (.rg 10 10)) (.val true) (.chr 11 (.rg 13 13))) .brk (.advc 11)))) ;;
        (.tok 8) ;;
        (.ret true))
       (.val true)) ;;
     (.ite ((.look 13) ;; (.chr 13 (.rg 39 39)))
       ((.adv 1) ;;
        (.ite ((.look 14) ;; (.chr 14 (.rg 0 1114111)))
          ((.advc 14) ;;
           (.ite ((.look 15) ;; (.chr 15 (.rg 39 39))) ((.adv 1) ;; (.tok 8) ;; (.ret true)) (.val true)))
          (.val true)) ;;
        (.tok 8) ;;
        (.ret true))
       (.val true)) ;;
     (.ite ((.look 16) ;; (.chr 16 (.rg 0 1114111)))
       (.ite (.ite (.chr 16 (.or (.or (.or (.or (.or (.rg 66 66) (.rg 79 79)) (.rg 88 88)) (.rg 98 98)) (.rg 111 111)) (.rg 120 120)))
           (.val true)
           (.val false))
         (.ite ((.lookN 17 1) ;; (.chr 17 (.rg 34 34)))
           ((.adv 2) ;;
            (.loop 18 true ((.look 19) ;; (.chr 19 (.rg 0 1114111)))
              (.ite (.chr 19 (.rg 34 34))
                ((.adv 1) ;; (.tok 8) ;; (.ret true))
                (.ite (.ite (.chr 19 (.or (.or (.rg 48 57) (.rg 65 90)) (.rg 97 122))) (.val true) (.chr 19 (.rg 95 95)))
                  (.adv 1)
                  (.ite (.ite (.chr 19 (.rg 10 10)) (.val true) (.chr 19 (.rg 13 13))) .brk (.advc 19))))) ;;
            (.tok 8) ;;
            (.ret true))
           (.val true))
         (.val true))
       (.val true)) ;;
     (.val false))

/-- `lex_number_literal` (examples/oak-vhdl/src/lexer/mod.rs:202-284). -/
def lexNumberLiteral : Code :=
  .scope 20
    ((.mark 20) ;;
     (.ite ((.look 21) ;; (.chr 21 (.rg 0 1114111)))
       (.ite (.chr 21 (.rg 48 57))
         ((.loop 22 true ((.look 23) ;; (.chr 23 (.rg 0 1114111)))
            (.ite (.ite (.chr 23 (.rg 48 57)) (.val true) (.chr 23 (.rg 95 95))) (.adv 1) .brk)) ;;
          (.ite ((.look 24) ;; (.chr 24 (.rg 35 35)))
            ((.adv 1) ;;
             (.loop 25 true ((.look 26) ;; (.chr 26 (.rg 0 1114111)))
               (.ite (.ite (.chr 26 (.or (.or (.rg 48 57) (.rg 65 90)) (.rg 97 122))) (.val true) (.chr 26 (.rg 95 95)))
                 (.adv 1)
                 (.ite (.chr 26 (.rg 35 35)) ((.adv 1) ;; (.tok 20) ;; (.ret true)) .brk))) ;;
             (.tok 20) ;;
             (.ret true))
            (.val true)) ;;
          (.ite ((.look 27) ;; (.chr 27 (.rg 46 46)))
            (.ite ((.lookN 28 1) ;; (.chr 28 (.rg 0 1114111)))
              (.ite (.chr 28 (.rg 48 57))
                ((.adv 1) ;;
                 (.loop 29 true ((.look 30) ;; (.chr 30 (.rg 0 1114111)))
                   (.ite (.ite (.chr 30 (.rg 48 57)) (.val true) (.chr 30 (.rg 95 95))) (.adv 1) .brk)) ;;
                 (.ite ((.look 31) ;; (.chr 31 (.rg 0 1114111)))
                   (.ite (.ite (.chr 31 (.rg 101 101)) (.val true) (.chr 31 (.rg 69 69)))
                     ((.adv 1) ;;
                      (.ite ((.look 32) ;; (.chr 32 (.rg 0 1114111)))
                        (.ite (.ite (.chr 32 (.rg 43 43)) (.val true) (.chr 32 (.rg 45 45))) (.adv 1) (.val true))
                        (.val true)) ;;
                      (.loop 33 true ((.look 34) ;; (.chr 34 (.rg 0 1114111)))
                        (.ite (.ite (.chr 34 (.rg 48 57)) (.val true) (.chr 34 (.rg 95 95))) (.adv 1) .brk)))
                     (.val true))
                   (.val true)) ;;
                 (.tok 20) ;;
                 (.ret true))
                (.val true))
              (.val true))
            (.val true)) ;;
          (.tok 20) ;;
          (.ret true))
         (.val true))
       (.val true)) ;;
     (.val false))

/-- `lex_identifier_or_keyword` (examples/oak-vhdl/src/lexer/mod.rs:287-409). -/
def lexIdentifierOrKeyword : Code :=
  .scope 35
    ((.mark 35) ;;
     (.ite ((.look 36) ;; (.chr 36 (.rg 0 1114111)))
       (.ite (.ite (.chr 36 (.or (.rg 65 90) (.rg 97 122))) (.val true) (.chr 36 (.rg 95 95)))
         ((.advc 36) ;;
          (.loop 37 true ((.look 38) ;; (.chr 38 (.rg 0 1114111)))
            (.ite (.ite (.chr 38 (.or (.or (.rg 48 57) (.rg 65 90)) (.rg 97 122))) (.val true) (.chr 38 (.rg 95 95)))
              (.advc 38)
              .brk)) ;;
          (.tok 35) ;;
          (.ret true))
         (.val true))
       (.val true)) ;;
     (.val false))

/-- `lex_operators` (examples/oak-vhdl/src/lexer/mod.rs:412-516). -/
def lexOperators : Code :=
  .scope 39
    ((.mark 39) ;;
     (.ite ((.look 40) ;; (.chr 40 (.rg 0 1114111)))
       ((.ite (.chr 40 (.rg 61 61))
          (.ite ((.lookN 50 1) ;; (.chr 50 (.rg 62 62))) (.adv 2) (.adv 1))
          (.ite (.chr 40 (.rg 47 47))
            (.ite ((.lookN 49 1) ;; (.chr 49 (.rg 61 61))) (.adv 2) (.adv 1))
            (.ite (.chr 40 (.rg 60 60))
              (.ite ((.lookN 48 1) ;; (.chr 48 (.rg 61 61)))
                (.adv 2)
                (.ite ((.lookN 47 1) ;; (.chr 47 (.rg 62 62)))
                  (.adv 2)
                  (.ite ((.lookN 46 1) ;; (.chr 46 (.rg 60 60))) (.adv 2) (.adv 1))))
              (.ite (.chr 40 (.rg 62 62))
                (.ite ((.lookN 45 1) ;; (.chr 45 (.rg 61 61)))
                  (.adv 2)
                  (.ite ((.lookN 44 1) ;; (.chr 44 (.rg 62 62))) (.adv 2) (.adv 1)))
                (.ite (.chr 40 (.rg 43 43))
                  (.adv 1)
                  (.ite (.chr 40 (.rg 45 45))
                    (.ite ((.lookN 43 1) ;; (.chr 43 (.rg 62 62))) (.adv 2) (.adv 1))
                    (.ite (.chr 40 (.rg 42 42))
                      (.ite ((.lookN 42 1) ;; (.chr 42 (.rg 42 42))) (.adv 2) (.adv 1))
                      (.ite (.chr 40 (.rg 58 58))
                        (.ite ((.lookN 41 1) ;; (.chr 41 (.rg 61 61))) (.adv 2) (.adv 1))
                        (.ite (.chr 40 (.rg 38 38)) (.adv 1) (.ret false)))))))))) ;;
        (.tok 39) ;;
        (.val true))
       (.val false)))

/-- `lex_single_char_tokens` (examples/oak-vhdl/src/lexer/mod.rs:519-551). -/
def lexSingleCharTokens : Code :=
  .scope 51
    ((.mark 51) ;;
     (.ite ((.look 52) ;; (.chr 52 (.rg 0 1114111)))
       ((.ite (.chr 52 (.rg 40 40))
          (.val true)
          (.ite (.chr 52 (.rg 41 41))
            (.val true)
            (.ite (.chr 52 (.rg 91 91))
              (.val true)
              (.ite (.chr 52 (.rg 93 93))
                (.val true)
                (.ite (.chr 52 (.rg 59 59))
                  (.val true)
                  (.ite (.chr 52 (.rg 44 44))
                    (.val true)
                    (.ite (.chr 52 (.rg 46 46))
                      (.val true)
                      (.ite (.chr 52 (.rg 124 124))
                        (.val true)
                        (.ite (.chr 52 (.rg 35 35))
                          (.val true)
                          (.ite (.chr 52 (.rg 64 64))
                            (.val true)
                            (.ite (.chr 52 (.rg 63 63))
                              (.val true)
                              (.ite (.chr 52 (.rg 36 36))
                                (.val true)
                                (.ite (.chr 52 (.rg 37 37))
                                  (.val true)
                                  (.ite (.chr 52 (.rg 94 94))
                                    (.val true)
                                    (.ite (.chr 52 (.rg 126 126))
                                      (.val true)
                                      (.ite (.chr 52 (.rg 92 92))
                                        (.val true)
                                        (.ite (.chr 52 (.rg 33 33)) (.val true) (.ret false)))))))))))))))))) ;;
        (.adv 1) ;;
        (.tok 51) ;;
        (.val true))
       (.val false)))

/-- `run` (examples/oak-vhdl/src/lexer/mod.rs:33-77). -/
def run_ : Code :=
  .scope 0
    (.loop 0 false .more
      ((.mark 1) ;;
       (.ite skipWhitespace .cont (.val true)) ;;
       (.ite skipComment .cont (.val true)) ;;
       (.ite lexStringLiteral .cont (.val true)) ;;
       (.ite lexNumberLiteral .cont (.val true)) ;;
       (.ite lexIdentifierOrKeyword .cont (.val true)) ;;
       (.ite lexOperators .cont (.val true)) ;;
       (.ite lexSingleCharTokens .cont (.val true)) ;;
       (.mark 53) ;;
       (.ite ((.look 54) ;; (.chr 54 (.rg 0 1114111))) ((.advc 54) ;; (.tok 53)) (.val true)) ;;
       (.guard 1)))

end Oaks.HandLex.Vhdl
