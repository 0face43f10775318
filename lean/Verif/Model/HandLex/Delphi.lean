import Verif.Model.LexCode

/-
The lexer of the example `oak-delphi` as a program of Model/LexCode.lean, function by function in the order of
the calls. Kinds of tokens and messages are left out.
-/
namespace Oaks.HandLex.Delphi

open Oaks.Lc

/-- `skip_whitespace` (examples/oak-delphi/src/lexer/mod.rs:65-84). -/
def skipWhitespace : Code :=
  .scope 2
    ((.mark 2) ;;
     (.put 3 0) ;;
     (.loop 4 true ((.look 5) ;; (.chr 5 (.rg 0 1114111))) (.ite (.chr 5 .white) ((.put 3 1) ;; (.advc 5)) .brk)) ;;
     (.ite (.flag 3) ((.tok 2) ;; (.val true)) (.val false)))

/-- `skip_comment` (examples/oak-delphi/src/lexer/mod.rs:86-134). -/
def skipComment : Code :=
  .scope 6
    ((.mark 6) ;;
     (.ite (.ite (.starts ['/', '/']) ((.adv 2) ;; (.val true)) (.val false))
       ((.loop 7 true ((.look 8) ;; (.chr 8 (.rg 0 1114111)))
          ((.ite (.ite (.chr 8 (.rg 10 10)) (.val true) (.chr 8 (.rg 13 13))) .brk (.val true)) ;; (.advc 8))) ;;
        (.tok 6) ;;
        (.ret true))
       (.val true)) ;;
     (.ite (.ite (.starts ['{']) ((.adv 1) ;; (.val true)) (.val false))
       ((.put 9 1) ;;
        (.loop 10 true ((.look 11) ;; (.chr 11 (.rg 0 1114111)))
          ((.ite (.chr 11 (.rg 123 123))
             (.comp 9 9 (· + 1))
             (.ite (.chr 11 (.rg 125 125))
               ((.comp 9 9 (· - 1)) ;; (.ite (.ask 9 (· == 0)) ((.adv 1) ;; .brk) (.val true)))
               (.val true))) ;;
           (.advc 11))) ;;
        (.tok 6) ;;
        (.ret true))
       (.val true)) ;;
     (.ite (.ite (.starts ['(', '*']) ((.adv 2) ;; (.val true)) (.val false))
       ((.loop 12 true ((.look 13) ;; (.chr 13 (.rg 0 1114111)))
          ((.ite (.ite (.starts ['*', ')']) ((.adv 2) ;; (.val true)) (.val false)) .brk (.val true)) ;; (.advc 13))) ;;
        (.tok 6) ;;
        (.ret true))
       (.val true)) ;;
     (.val false))

/-- `lex_string_literal` (examples/oak-delphi/src/lexer/mod.rs:136-156). -/
def lexStringLiteral : Code :=
  .scope 14
    ((.mark 14) ;;
     (.ite ((.look 15) ;; (.chr 15 (.rg 39 39)))
       ((.adv 1) ;;
        (.loop 16 true ((.look 17) ;; (.chr 17 (.rg 0 1114111)))
          ((.ite (.chr 17 (.rg 39 39))
             ((.adv 1) ;; (.ite ((.look 18) ;; (.chr 18 (.rg 39 39))) ((.adv 1) ;; .cont) (.val true)) ;; .brk)
             (.val true)) ;;
           (.advc 17))) ;;
        (.tok 14) ;;
        (.ret true))
       (.val true)) ;;
     (.val false))

/-- `lex_number_literal` (examples/oak-delphi/src/lexer/mod.rs:158-219). -/
def lexNumberLiteral : Code :=
  .scope 19
    ((.mark 19) ;;
     (.ite ((.look 20) ;; (.chr 20 (.rg 0 1114111))) (.val true) (.ret false)) ;;
     (.ite (.ite (.ite (.chr 20 (.rg 48 57)) (.val false) (.val true))
         (.ite (.chr 20 (.rg 36 36)) (.val false) (.val true))
         (.val false))
       (.ret false)
       (.val true)) ;;
     (.put 21 0) ;;
     (.ite (.chr 20 (.rg 36 36))
       ((.adv 1) ;;
        (.loop 33 true ((.look 34) ;; (.chr 34 (.rg 0 1114111)))
          (.ite (.chr 34 (.or (.or (.rg 48 57) (.rg 65 70)) (.rg 97 102))) (.adv 1) .brk)))
       ((.adv 1) ;;
        (.loop 22 true ((.look 23) ;; (.chr 23 (.rg 0 1114111))) (.ite (.chr 23 (.rg 48 57)) (.adv 1) .brk)) ;;
        (.ite ((.look 24) ;; (.chr 24 (.rg 46 46)))
          ((.lookN 25 1) ;;
           (.ite (.chr 25 (.rg 48 57))
             ((.put 21 1) ;;
              (.adv 1) ;;
              (.loop 26 true ((.look 27) ;; (.chr 27 (.rg 0 1114111))) (.ite (.chr 27 (.rg 48 57)) (.adv 1) .brk)))
             (.val true)))
          (.val true)) ;;
        (.ite ((.look 28) ;; (.chr 28 (.rg 0 1114111)))
          (.ite (.ite (.chr 28 (.rg 101 101)) (.val true) (.chr 28 (.rg 69 69)))
            ((.lookN 29 1) ;;
             (.ite (.ite (.ite (.chr 29 (.rg 43 43)) (.val true) (.chr 29 (.rg 45 45))) (.val true) (.chr 29 (.rg 48 57)))
               ((.put 21 1) ;;
                (.adv 1) ;;
                (.ite ((.look 30) ;; (.chr 30 (.rg 0 1114111)))
                  (.ite (.ite (.chr 30 (.rg 43 43)) (.val true) (.chr 30 (.rg 45 45))) (.adv 1) (.val true))
                  (.val true)) ;;
                (.loop 31 true ((.look 32) ;; (.chr 32 (.rg 0 1114111))) (.ite (.chr 32 (.rg 48 57)) (.adv 1) .brk)))
               (.val true)))
            (.val true))
          (.val true)))) ;;
     (.tok 19) ;;
     (.val true))

/-- `lex_identifier_or_keyword` (examples/oak-delphi/src/lexer/mod.rs:221-289). -/
def lexIdentifierOrKeyword : Code :=
  .scope 35
    ((.mark 35) ;;
     (.ite ((.look 36) ;; (.chr 36 (.rg 0 1114111))) (.val true) (.ret false)) ;;
     (.ite (.ite (.ite (.chr 36 (.or (.rg 65 90) (.rg 97 122))) (.val true) (.chr 36 (.rg 95 95)))
         (.val false)
         (.val true))
       (.ret false)
       (.val true)) ;;
     (.advc 36) ;;
     (.loop 37 true ((.look 38) ;; (.chr 38 (.rg 0 1114111)))
       (.ite (.ite (.chr 38 (.or (.or (.rg 48 57) (.rg 65 90)) (.rg 97 122))) (.val true) (.chr 38 (.rg 95 95)))
         (.advc 38)
         .brk)) ;;
     (.mark 39) ;;
     (.val true) ;;
     (.val true) ;;
     (.tok 35) ;;
     (.val true))

/-- `lex_operators` (examples/oak-delphi/src/lexer/mod.rs:291-329). -/
def lexOperators : Code :=
  .scope 40
    ((.mark 40) ;;
     (.val true) ;;
     ((.ite (.ite (.starts [':', '=']) ((.adv 2) ;; (.val true)) (.val false)) ((.tok 40) ;; (.ret true)) (.val true)) ;;
      (.ite (.ite (.starts ['<', '=']) ((.adv 2) ;; (.val true)) (.val false)) ((.tok 40) ;; (.ret true)) (.val true)) ;;
      (.ite (.ite (.starts ['>', '=']) ((.adv 2) ;; (.val true)) (.val false)) ((.tok 40) ;; (.ret true)) (.val true)) ;;
      (.ite (.ite (.starts ['<', '>']) ((.adv 2) ;; (.val true)) (.val false)) ((.tok 40) ;; (.ret true)) (.val true)) ;;
      (.ite (.ite (.starts ['.', '.']) ((.adv 2) ;; (.val true)) (.val false)) ((.tok 40) ;; (.ret true)) (.val true))) ;;
     (.ite ((.look 42) ;; (.chr 42 (.rg 0 1114111)))
       ((.ite (.chr 42 (.rg 43 43))
          (.put 43 1)
          (.ite (.chr 42 (.rg 45 45))
            (.put 43 1)
            (.ite (.chr 42 (.rg 42 42))
              (.put 43 1)
              (.ite (.chr 42 (.rg 47 47))
                (.put 43 1)
                (.ite (.chr 42 (.rg 61 61))
                  (.put 43 1)
                  (.ite (.chr 42 (.rg 60 60))
                    (.put 43 1)
                    (.ite (.chr 42 (.rg 62 62))
                      (.put 43 1)
                      (.ite (.chr 42 (.rg 46 46))
                        (.put 43 1)
                        (.ite (.chr 42 (.rg 58 58))
                          (.put 43 1)
                          (.ite (.chr 42 (.rg 94 94))
                            (.put 43 1)
                            (.ite (.chr 42 (.rg 64 64)) (.put 43 1) (.put 43 0)))))))))))) ;;
        (.ite (.flag 43) ((.advc 42) ;; (.tok 40) ;; (.ret true)) (.val true)))
       (.val true)) ;;
     (.val false))

/-- `lex_single_char_tokens` (examples/oak-delphi/src/lexer/mod.rs:331-352). -/
def lexSingleCharTokens : Code :=
  .scope 44
    ((.mark 44) ;;
     (.ite ((.look 45) ;; (.chr 45 (.rg 0 1114111)))
       ((.ite (.chr 45 (.rg 40 40))
          (.val true)
          (.ite (.chr 45 (.rg 41 41))
            (.val true)
            (.ite (.chr 45 (.rg 91 91))
              (.val true)
              (.ite (.chr 45 (.rg 93 93))
                (.val true)
                (.ite (.chr 45 (.rg 44 44)) (.val true) (.ite (.chr 45 (.rg 59 59)) (.val true) (.ret false))))))) ;;
        (.advc 45) ;;
        (.tok 44) ;;
        (.val true))
       (.val false)))

/-- `run` (examples/oak-delphi/src/lexer/mod.rs:20-63). -/
def run_ : Code :=
  .scope 0
    (.loop 0 false .more
      ((.mark 1) ;;
       (.ite skipWhitespace .cont (.val true)) ;;
       (.ite skipComment .cont (.val true)) ;;
       (.ite lexStringLiteral .cont (.val true)) ;;
       (.ite lexNumberLiteral .cont (.val true)) ;;
       (.ite lexIdentifierOrKeyword .cont (.val true)) ;;
       (.ite lexOperators .cont (.val true)) ;;
       (.ite lexSingleCharTokens .cont (.val true)) ;;
       (.mark 46) ;;
       (.ite ((.look 47) ;; (.chr 47 (.rg 0 1114111))) ((.advc 47) ;; (.tok 46)) (.val true)) ;;
       (.guard 1)))

end Oaks.HandLex.Delphi
