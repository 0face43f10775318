import Verif.Model.LexCode

/-
The lexer of the example `oak-ada` as a program of Model/LexCode.lean, function by function in the order of
the calls. Kinds of tokens and messages are left out.
-/
namespace Oaks.HandLex.Ada

open Oaks.Lc

/-- `skip_whitespace` (examples/oak-ada/src/lexer/mod.rs:87-89). -/
def skipWhitespace : Code :=
  .scope 2
    (.space true)

/-- `skip_comment` (examples/oak-ada/src/lexer/mod.rs:91-106). -/
def skipComment : Code :=
  .scope 2
    ((.mark 2) ;;
     (.ite (.ite (.starts ['-', '-']) ((.adv 2) ;; (.val true)) (.val false))
       ((.loop 3 true ((.look 4) ;; (.chr 4 (.rg 0 1114111)))
          ((.ite (.ite (.chr 4 (.rg 10 10)) (.val true) (.chr 4 (.rg 13 13))) .brk (.val true)) ;; (.advc 4))) ;;
        (.tok 2) ;;
        (.ret true))
       (.val true)) ;;
     (.val false))

/-- `lex_string_literal` (examples/oak-ada/src/lexer/mod.rs:108-133). -/
def lexStringLiteral : Code :=
  .scope 5
    ((.mark 5) ;;
     (.ite ((.look 6) ;; (.chr 6 (.rg 34 34)))
       ((.adv 1) ;;
        (.loop 7 true ((.look 8) ;; (.chr 8 (.rg 0 1114111)))
          ((.ite (.chr 8 (.rg 34 34))
             ((.adv 1) ;; (.ite ((.look 9) ;; (.chr 9 (.rg 34 34))) ((.adv 1) ;; .cont) (.val true)) ;; .brk)
             (.val true)) ;;
           (.advc 8) ;;
           (.ite (.ite (.chr 8 (.rg 10 10)) (.val true) (.chr 8 (.rg 13 13))) .brk (.val true)))) ;;
        (.tok 5) ;;
        (.ret true))
       (.val true)) ;;
     (.val false))

/-- `lex_char_literal` (examples/oak-ada/src/lexer/mod.rs:135-158). -/
def lexCharLiteral : Code :=
  .scope 10
    ((.mark 10) ;;
     (.ite (.ite ((.look 11) ;; (.chr 11 (.rg 39 39))) (.val false) (.val true)) (.ret false) (.val true)) ;;
     (.adv 1) ;;
     (.ite ((.look 12) ;; (.chr 12 (.rg 0 1114111))) (.advc 12) ((.goto 10) ;; (.ret false))) ;;
     (.ite ((.look 13) ;; (.chr 13 (.rg 39 39))) ((.adv 1) ;; (.tok 10) ;; (.ret true)) (.val true)) ;;
     (.goto 10) ;;
     (.val false))

/-- `lex_number_literal` (examples/oak-ada/src/lexer/mod.rs:160-199). -/
def lexNumberLiteral : Code :=
  .scope 14
    ((.mark 14) ;;
     (.ite ((.look 15) ;; (.chr 15 (.rg 0 1114111)))
       (.ite (.chr 15 (.rg 48 57))
         ((.advc 15) ;;
          (.loop 16 true ((.look 17) ;; (.chr 17 (.rg 0 1114111)))
            (.ite (.ite (.chr 17 (.rg 48 57)) (.val true) (.chr 17 (.rg 95 95))) (.advc 17) .brk)) ;;
          (.ite ((.look 18) ;; (.chr 18 (.rg 46 46)))
            ((.adv 1) ;;
             (.loop 19 true ((.look 20) ;; (.chr 20 (.rg 0 1114111)))
               (.ite (.ite (.chr 20 (.rg 48 57)) (.val true) (.chr 20 (.rg 95 95))) (.advc 20) .brk)))
            (.val true)) ;;
          (.ite ((.look 21) ;; (.chr 21 (.rg 0 1114111)))
            (.ite (.ite (.chr 21 (.rg 101 101)) (.val true) (.chr 21 (.rg 69 69)))
              ((.adv 1) ;;
               (.ite ((.look 22) ;; (.chr 22 (.rg 0 1114111)))
                 (.ite (.ite (.chr 22 (.rg 43 43)) (.val true) (.chr 22 (.rg 45 45))) (.adv 1) (.val true))
                 (.val true)) ;;
               (.loop 23 true ((.look 24) ;; (.chr 24 (.rg 0 1114111))) (.ite (.chr 24 (.rg 48 57)) (.advc 24) .brk)))
              (.val true))
            (.val true)) ;;
          (.tok 14) ;;
          (.ret true))
         (.val true))
       (.val true)) ;;
     (.val false))

/-- `lex_identifier_or_keyword` (examples/oak-ada/src/lexer/mod.rs:201-296). -/
def lexIdentifierOrKeyword : Code :=
  .scope 25
    ((.mark 25) ;;
     (.ite ((.look 26) ;; (.chr 26 (.rg 0 1114111)))
       (.ite (.ite (.chr 26 (.or (.rg 65 90) (.rg 97 122))) (.val true) (.chr 26 (.rg 95 95)))
         ((.advc 26) ;;
          (.loop 27 true ((.look 28) ;; (.chr 28 (.rg 0 1114111)))
            (.ite (.ite (.chr 28 (.or (.or (.rg 48 57) (.rg 65 90)) (.rg 97 122))) (.val true) (.chr 28 (.rg 95 95)))
              (.advc 28)
              .brk)) ;;
          (.mark 29) ;;
          (.tokTo 25 29) ;;
          (.ret true))
         (.val true))
       (.val true)) ;;
     (.val false))

/-- `lex_operators` (examples/oak-ada/src/lexer/mod.rs:298-362). -/
def lexOperators : Code :=
  .scope 30
    ((.mark 30) ;;
     (.ite (.ite (.starts ['*', '*']) ((.adv 2) ;; (.val true)) (.val false)) ((.tok 30) ;; (.ret true)) (.val true)) ;;
     (.ite (.ite (.starts ['=', '>']) ((.adv 2) ;; (.val true)) (.val false)) ((.tok 30) ;; (.ret true)) (.val true)) ;;
     (.ite (.ite (.starts ['<', '=']) ((.adv 2) ;; (.val true)) (.val false)) ((.tok 30) ;; (.ret true)) (.val true)) ;;
     (.ite (.ite (.starts ['>', '=']) ((.adv 2) ;; (.val true)) (.val false)) ((.tok 30) ;; (.ret true)) (.val true)) ;;
     (.ite (.ite (.starts [':', '=']) ((.adv 2) ;; (.val true)) (.val false)) ((.tok 30) ;; (.ret true)) (.val true)) ;;
     (.ite (.ite (.starts ['.', '.']) ((.adv 2) ;; (.val true)) (.val false)) ((.tok 30) ;; (.ret true)) (.val true)) ;;
     (.ite (.ite (.starts ['/', '=']) ((.adv 2) ;; (.val true)) (.val false)) ((.tok 30) ;; (.ret true)) (.val true)) ;;
     (.ite (.ite (.starts ['<', '<']) ((.adv 2) ;; (.val true)) (.val false)) ((.tok 30) ;; (.ret true)) (.val true)) ;;
     (.ite (.ite (.starts ['>', '>']) ((.adv 2) ;; (.val true)) (.val false)) ((.tok 30) ;; (.ret true)) (.val true)) ;;
     (.ite (.ite (.starts ['<', '>']) ((.adv 2) ;; (.val true)) (.val false)) ((.tok 30) ;; (.ret true)) (.val true)) ;;
     (.ite ((.look 31) ;; (.chr 31 (.rg 0 1114111)))
       ((.ite (.chr 31 (.rg 43 43))
          (.val true)
          (.ite (.chr 31 (.rg 45 45))
            (.val true)
            (.ite (.chr 31 (.rg 42 42))
              (.val true)
              (.ite (.chr 31 (.rg 47 47))
                (.val true)
                (.ite (.chr 31 (.rg 61 61))
                  (.val true)
                  (.ite (.chr 31 (.rg 60 60))
                    (.val true)
                    (.ite (.chr 31 (.rg 62 62))
                      (.val true)
                      (.ite (.chr 31 (.rg 38 38)) (.val true) (.ite (.chr 31 (.rg 124 124)) (.val true) (.ret false)))))))))) ;;
        (.adv 1) ;;
        (.tok 30) ;;
        (.ret true))
       (.val true)) ;;
     (.val false))

/-- `lex_single_char_tokens` (examples/oak-ada/src/lexer/mod.rs:364-387). -/
def lexSingleCharTokens : Code :=
  .scope 32
    ((.mark 32) ;;
     (.ite ((.look 33) ;; (.chr 33 (.rg 0 1114111)))
       ((.ite (.chr 33 (.rg 40 40))
          (.val true)
          (.ite (.chr 33 (.rg 41 41))
            (.val true)
            (.ite (.chr 33 (.rg 91 91))
              (.val true)
              (.ite (.chr 33 (.rg 93 93))
                (.val true)
                (.ite (.chr 33 (.rg 123 123))
                  (.val true)
                  (.ite (.chr 33 (.rg 125 125))
                    (.val true)
                    (.ite (.chr 33 (.rg 44 44))
                      (.val true)
                      (.ite (.chr 33 (.rg 59 59))
                        (.val true)
                        (.ite (.chr 33 (.rg 58 58))
                          (.val true)
                          (.ite (.chr 33 (.rg 46 46))
                            (.val true)
                            (.ite (.chr 33 (.rg 39 39)) (.val true) (.ret false)))))))))))) ;;
        (.adv 1) ;;
        (.tok 32) ;;
        (.ret true))
       (.val true)) ;;
     (.val false))

/-- `run` (examples/oak-ada/src/lexer/mod.rs:40-84). -/
def run_ : Code :=
  .scope 0
    (.loop 0 false .more
      ((.mark 1) ;;
       (.ite skipWhitespace .cont (.val true)) ;;
       (.ite skipComment .cont (.val true)) ;;
       (.ite lexStringLiteral .cont (.val true)) ;;
       (.ite lexCharLiteral .cont (.val true)) ;;
       (.ite lexNumberLiteral .cont (.val true)) ;;
       (.ite lexIdentifierOrKeyword .cont (.val true)) ;;
       (.ite lexOperators .cont (.val true)) ;;
       (.ite lexSingleCharTokens .cont (.val true)) ;;
       (.ite ((.look 34) ;; (.chr 34 (.rg 0 1114111))) ((.advc 34) ;; (.tok 1)) (.val true))))

end Oaks.HandLex.Ada
