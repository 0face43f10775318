import Verif.Model.LexCode

/-
The lexer of the example `oak-wolfram` as a program of Model/LexCode.lean, function by function in the order of
the calls. Kinds of tokens and messages are left out.
-/
namespace Oaks.HandLex.Wolfram

open Oaks.Lc

/-- `skip_whitespace` (examples/oak-wolfram/src/lexer/mod.rs:77-96). -/
def skipWhitespace : Code :=
  .scope 2
    ((.ite ((.look 2) ;; (.chr 2 (.rg 0 1114111)))
       (.ite (.ite (.chr 2 (.rg 10 10)) (.val true) (.chr 2 (.rg 13 13)))
         ((.mark 3) ;;
          (.advc 2) ;;
          (.ite (.ite (.chr 2 (.rg 13 13)) ((.look 4) ;; (.chr 4 (.rg 10 10))) (.val false)) (.adv 1) (.val true)) ;;
          (.tok 3) ;;
          (.ret true))
         (.val true))
       (.val true)) ;;
     (.ite (.space true) (.ret true) (.val true)) ;;
     (.val false))

/-- `skip_comment` (examples/oak-wolfram/src/lexer/mod.rs:98-100). -/
def skipComment : Code :=
  .scope 5
    (.comment ⟨[], ['(', '*'], ['*', ')'], true⟩)

/-- `lex_string_literal` (examples/oak-wolfram/src/lexer/mod.rs:102-104). -/
def lexStringLiteral : Code :=
  .scope 5
    (.quoted ⟨['"'], some '\\'⟩)

/-- `lex_number_literal` (examples/oak-wolfram/src/lexer/mod.rs:106-174). -/
def lexNumberLiteral : Code :=
  .scope 5
    ((.mark 5) ;;
     (.ite ((.look 6) ;; (.chr 6 (.rg 0 1114111))) (.val true) (.ret false)) ;;
     (.ite (.ite (.chr 6 (.rg 48 57)) (.val false) (.val true)) (.ret false) (.val true)) ;;
     (.put 7 0) ;;
     (.advc 6) ;;
     (.loop 8 true ((.look 9) ;; (.chr 9 (.rg 0 1114111))) (.ite (.chr 9 (.rg 48 57)) (.adv 1) .brk)) ;;
     (.ite ((.look 10) ;; (.chr 10 (.rg 46 46)))
       ((.lookN 11 1) ;;
        (.ite (.chr 11 (.rg 48 57))
          ((.put 7 1) ;;
           (.adv 1) ;;
           (.loop 12 true ((.look 13) ;; (.chr 13 (.rg 0 1114111))) (.ite (.chr 13 (.rg 48 57)) (.adv 1) .brk)))
          (.val true)))
       (.val true)) ;;
     (.ite ((.look 14) ;; (.chr 14 (.rg 0 1114111)))
       (.ite (.ite (.chr 14 (.rg 101 101)) (.val true) (.chr 14 (.rg 69 69)))
         ((.lookN 15 1) ;;
          (.ite (.ite (.ite (.chr 15 (.rg 43 43)) (.val true) (.chr 15 (.rg 45 45))) (.val true) (.chr 15 (.rg 48 57)))
            ((.put 7 1) ;;
             (.adv 1) ;;
             (.ite ((.look 16) ;; (.chr 16 (.rg 0 1114111)))
               (.ite (.ite (.chr 16 (.rg 43 43)) (.val true) (.chr 16 (.rg 45 45))) (.adv 1) (.val true))
               (.val true)) ;;
             (.loop 17 true ((.look 18) ;; (.chr 18 (.rg 0 1114111))) (.ite (.chr 18 (.rg 48 57)) (.adv 1) .brk)))
            (.val true)))
         (.val true))
       (.val true)) ;;
     (.mark 19) ;;
     (.tokTo 5 19) ;;
     (.val true))

/-- `lex_identifier_or_keyword` (examples/oak-wolfram/src/lexer/mod.rs:176-234). -/
def lexIdentifierOrKeyword : Code :=
  .scope 20
    ((.mark 20) ;;
     (.ite ((.look 21) ;; (.chr 21 (.rg 0 1114111))) (.val true) (.ret false)) ;;
     (.ite (.ite (.ite (.chr 21 (.or (.rg 65 90) (.rg 97 122))) (.val true) (.chr 21 (.rg 36 36)))
         (.val false)
         (.val true))
       (.ret false)
       (.val true)) ;;
     (.advc 21) ;;
     (.loop 22 true ((.look 23) ;; (.chr 23 (.rg 0 1114111)))
       (.ite (.ite (.chr 23 (.or (.or (.rg 48 57) (.rg 65 90)) (.rg 97 122))) (.val true) (.chr 23 (.rg 36 36)))
         (.advc 23)
         .brk)) ;;
     (.mark 24) ;;
     (.val true) ;;
     (.val true) ;;
     (.tokTo 20 24) ;;
     (.val true))

/-- `lex_operators` (examples/oak-wolfram/src/lexer/mod.rs:236-307). -/
def lexOperators : Code :=
  .scope 25
    ((.mark 25) ;;
     (.val true) ;;
     ((.ite (.starts ['=', '=', '=']) ((.adv 3) ;; (.tok 25) ;; (.ret true)) (.val true)) ;;
      (.ite (.starts ['=', '!', '=']) ((.adv 3) ;; (.tok 25) ;; (.ret true)) (.val true)) ;;
      (.ite (.starts ['@', '@', '@']) ((.adv 3) ;; (.tok 25) ;; (.ret true)) (.val true)) ;;
      (.ite (.starts ['/', '/', '@']) ((.adv 3) ;; (.tok 25) ;; (.ret true)) (.val true)) ;;
      (.ite (.starts [':', '=']) ((.adv 2) ;; (.tok 25) ;; (.ret true)) (.val true)) ;;
      (.ite (.starts [':', '>']) ((.adv 2) ;; (.tok 25) ;; (.ret true)) (.val true)) ;;
      (.ite (.starts ['-', '>']) ((.adv 2) ;; (.tok 25) ;; (.ret true)) (.val true)) ;;
      (.ite (.starts ['=', '>']) ((.adv 2) ;; (.tok 25) ;; (.ret true)) (.val true)) ;;
      (.ite (.starts ['/', '@']) ((.adv 2) ;; (.tok 25) ;; (.ret true)) (.val true)) ;;
      (.ite (.starts ['@', '@']) ((.adv 2) ;; (.tok 25) ;; (.ret true)) (.val true)) ;;
      (.ite (.starts ['/', '/']) ((.adv 2) ;; (.tok 25) ;; (.ret true)) (.val true)) ;;
      (.ite (.starts ['@', '*']) ((.adv 2) ;; (.tok 25) ;; (.ret true)) (.val true)) ;;
      (.ite (.starts ['/', '*']) ((.adv 2) ;; (.tok 25) ;; (.ret true)) (.val true)) ;;
      (.ite (.starts ['<', '>']) ((.adv 2) ;; (.tok 25) ;; (.ret true)) (.val true)) ;;
      (.ite (.starts ['=', '=']) ((.adv 2) ;; (.tok 25) ;; (.ret true)) (.val true)) ;;
      (.ite (.starts ['!', '=']) ((.adv 2) ;; (.tok 25) ;; (.ret true)) (.val true)) ;;
      (.ite (.starts ['<', '=']) ((.adv 2) ;; (.tok 25) ;; (.ret true)) (.val true)) ;;
      (.ite (.starts ['>', '=']) ((.adv 2) ;; (.tok 25) ;; (.ret true)) (.val true)) ;;
      (.ite (.starts ['&', '&']) ((.adv 2) ;; (.tok 25) ;; (.ret true)) (.val true)) ;;
      (.ite (.starts ['|', '|']) ((.adv 2) ;; (.tok 25) ;; (.ret true)) (.val true)) ;;
      (.ite (.starts ['+', '=']) ((.adv 2) ;; (.tok 25) ;; (.ret true)) (.val true)) ;;
      (.ite (.starts ['-', '=']) ((.adv 2) ;; (.tok 25) ;; (.ret true)) (.val true)) ;;
      (.ite (.starts ['*', '=']) ((.adv 2) ;; (.tok 25) ;; (.ret true)) (.val true)) ;;
      (.ite (.starts ['/', '=']) ((.adv 2) ;; (.tok 25) ;; (.ret true)) (.val true)) ;;
      (.ite (.starts ['!', '!']) ((.adv 2) ;; (.tok 25) ;; (.ret true)) (.val true)) ;;
      (.ite (.starts ['_', '_', '_']) ((.adv 3) ;; (.tok 25) ;; (.ret true)) (.val true)) ;;
      (.ite (.starts ['_', '_']) ((.adv 2) ;; (.tok 25) ;; (.ret true)) (.val true)) ;;
      (.ite (.starts ['#', '#']) ((.adv 2) ;; (.tok 25) ;; (.ret true)) (.val true))) ;;
     (.ite ((.look 27) ;; (.chr 27 (.rg 0 1114111)))
       ((.ite (.chr 27 (.rg 43 43))
          (.put 28 1)
          (.ite (.chr 27 (.rg 45 45))
            (.put 28 1)
            (.ite (.chr 27 (.rg 42 42))
              (.put 28 1)
              (.ite (.chr 27 (.rg 47 47))
                (.put 28 1)
                (.ite (.chr 27 (.rg 94 94))
                  (.put 28 1)
                  (.ite (.chr 27 (.rg 61 61))
                    (.put 28 1)
                    (.ite (.chr 27 (.rg 60 60))
                      (.put 28 1)
                      (.ite (.chr 27 (.rg 62 62))
                        (.put 28 1)
                        (.ite (.chr 27 (.rg 63 63))
                          (.put 28 1)
                          (.ite (.chr 27 (.rg 95 95))
                            (.put 28 1)
                            (.ite (.chr 27 (.rg 35 35))
                              (.put 28 1)
                              (.ite (.chr 27 (.rg 46 46))
                                (.put 28 1)
                                (.ite (.chr 27 (.rg 58 58))
                                  (.put 28 1)
                                  (.ite (.chr 27 (.rg 64 64))
                                    (.put 28 1)
                                    (.ite (.chr 27 (.rg 38 38))
                                      (.put 28 1)
                                      (.ite (.chr 27 (.rg 33 33)) (.put 28 1) (.put 28 0))))))))))))))))) ;;
        (.ite (.flag 28) ((.advc 27) ;; (.tok 25) ;; (.ret true)) (.val true)))
       (.val true)) ;;
     (.val false))

/-- `lex_single_char_tokens` (examples/oak-wolfram/src/lexer/mod.rs:309-335). -/
def lexSingleCharTokens : Code :=
  .scope 29
    ((.mark 29) ;;
     (.ite ((.look 30) ;; (.chr 30 (.rg 0 1114111)))
       ((.ite (.chr 30 (.rg 40 40))
          (.val true)
          (.ite (.chr 30 (.rg 41 41))
            (.val true)
            (.ite (.chr 30 (.rg 91 91))
              (.val true)
              (.ite (.chr 30 (.rg 93 93))
                (.val true)
                (.ite (.chr 30 (.rg 123 123))
                  (.val true)
                  (.ite (.chr 30 (.rg 125 125))
                    (.val true)
                    (.ite (.chr 30 (.rg 44 44))
                      (.val true)
                      (.ite (.chr 30 (.rg 59 59)) (.val true) ((.advc 30) ;; (.tok 29) ;; (.ret true)))))))))) ;;
        (.advc 30) ;;
        (.tok 29) ;;
        (.val true))
       (.val false)))

/-- `run` (examples/oak-wolfram/src/lexer/mod.rs:39-75). -/
def run_ : Code :=
  .scope 0
    (.loop 0 false .more
      ((.mark 1) ;;
       (.ite skipWhitespace .cont (.val true)) ;;
       (.ite skipComment .cont (.val true)) ;;
       (.ite lexStringLiteral .cont (.val true)) ;;
       (.ite lexNumberLiteral .cont (.val true)) ;;
       (.ite lexIdentifierOrKeyword .cont (.val true)) ;;
       (.ite lexOperators .cont (.val true)) ;;
       (.ite lexSingleCharTokens .cont (.val true)) ;;
       (.guard 1)))

end Oaks.HandLex.Wolfram
