import Verif.Model.LexCode

/-
The lexer of the example `oak-objective-c` as a program of Model/LexCode.lean, function by function in the order of
the calls. Kinds of tokens and messages are left out.
-/
namespace Oaks.HandLex.ObjectiveC

open Oaks.Lc

/-- `skip_whitespace` (examples/oak-objective-c/src/lexer/mod.rs:82-99). -/
def skipWhitespace : Code :=
  .scope 2
    ((.mark 2) ;;
     (.loop 3 true ((.look 4) ;; (.chr 4 (.rg 0 1114111))) (.ite (.chr 4 .white) (.advc 4) .brk)) ;;
     (.ite (.moved 2) ((.tok 2) ;; (.val true)) (.val false)))

/-- `skip_comment` (examples/oak-objective-c/src/lexer/mod.rs:101-140). -/
def skipComment : Code :=
  .scope 5
    ((.mark 5) ;;
     (.val true) ;;
     (.ite (.restStarts ['/', '/'])
       ((.adv 2) ;;
        (.loop 6 true ((.look 7) ;; (.chr 7 (.rg 0 1114111)))
          ((.ite (.ite (.chr 7 (.rg 10 10)) (.val true) (.chr 7 (.rg 13 13))) .brk (.val true)) ;; (.advc 7))) ;;
        (.tok 5) ;;
        (.ret true))
       (.val true)) ;;
     (.ite (.restStarts ['/', '*'])
       ((.adv 2) ;;
        (.put 8 1) ;;
        (.loop 9 true ((.look 10) ;; (.chr 10 (.rg 0 1114111)))
          ((.ite (.ite (.chr 10 (.rg 47 47)) ((.lookN 11 1) ;; (.chr 11 (.rg 42 42))) (.val false))
             ((.adv 2) ;; (.comp 8 8 (· + 1)) ;; .cont)
             (.val true)) ;;
           (.ite (.ite (.chr 10 (.rg 42 42)) ((.lookN 12 1) ;; (.chr 12 (.rg 47 47))) (.val false))
             ((.adv 2) ;; (.comp 8 8 (· - 1)) ;; (.ite (.ask 8 (· == 0)) .brk (.val true)) ;; .cont)
             (.val true)) ;;
           (.advc 10))) ;;
        (.tok 5) ;;
        (.ret true))
       (.val true)) ;;
     (.val false))

/-- `lex_string_literal` (examples/oak-objective-c/src/lexer/mod.rs:142-198). -/
def lexStringLiteral : Code :=
  .scope 13
    ((.mark 13) ;;
     (.ite (.ite ((.look 14) ;; (.chr 14 (.rg 64 64))) ((.lookN 15 1) ;; (.chr 15 (.rg 34 34))) (.val false))
       ((.adv 2) ;;
        (.put 16 0) ;;
        (.loop 17 true ((.look 18) ;; (.chr 18 (.rg 0 1114111)))
          ((.ite (.ite (.chr 18 (.rg 34 34)) (.ite (.flag 16) (.val false) (.val true)) (.val false))
             ((.adv 1) ;; .brk)
             (.val true)) ;;
           (.advc 18) ;;
           (.ite (.flag 16) ((.put 16 0) ;; .cont) (.val true)) ;;
           (.ite (.chr 18 (.rg 92 92)) ((.put 16 1) ;; .cont) (.val true)) ;;
           (.ite (.ite (.chr 18 (.rg 10 10)) (.val true) (.chr 18 (.rg 13 13))) .brk (.val true)))) ;;
        (.tok 13) ;;
        (.ret true))
       (.val true)) ;;
     (.ite ((.look 19) ;; (.chr 19 (.rg 34 34)))
       ((.adv 1) ;;
        (.put 20 0) ;;
        (.loop 21 true ((.look 22) ;; (.chr 22 (.rg 0 1114111)))
          ((.ite (.ite (.chr 22 (.rg 34 34)) (.ite (.flag 20) (.val false) (.val true)) (.val false))
             ((.adv 1) ;; .brk)
             (.val true)) ;;
           (.advc 22) ;;
           (.ite (.flag 20) ((.put 20 0) ;; .cont) (.val true)) ;;
           (.ite (.chr 22 (.rg 92 92)) ((.put 20 1) ;; .cont) (.val true)) ;;
           (.ite (.ite (.chr 22 (.rg 10 10)) (.val true) (.chr 22 (.rg 13 13))) .brk (.val true)))) ;;
        (.tok 13) ;;
        (.ret true))
       (.val true)) ;;
     (.val false))

/-- `lex_char_literal` (examples/oak-objective-c/src/lexer/mod.rs:200-229). -/
def lexCharLiteral : Code :=
  .scope 23
    ((.mark 23) ;;
     (.ite (.ite ((.look 24) ;; (.chr 24 (.rg 39 39))) (.val false) (.val true)) (.ret false) (.val true)) ;;
     (.adv 1) ;;
     (.ite ((.look 26) ;; (.chr 26 (.rg 92 92)))
       ((.adv 1) ;; (.ite ((.look 27) ;; (.chr 27 (.rg 0 1114111))) (.advc 27) (.val true)))
       (.ite ((.look 25) ;; (.chr 25 (.rg 0 1114111))) (.advc 25) ((.goto 23) ;; (.ret false)))) ;;
     (.ite ((.look 28) ;; (.chr 28 (.rg 39 39))) ((.adv 1) ;; (.tok 23) ;; (.ret true)) (.val true)) ;;
     (.goto 23) ;;
     (.val false))

/-- `lex_number_literal` (examples/oak-objective-c/src/lexer/mod.rs:231-309). -/
def lexNumberLiteral : Code :=
  .scope 29
    ((.mark 29) ;;
     (.ite ((.look 30) ;; (.chr 30 (.rg 0 1114111))) (.val true) (.ret false)) ;;
     (.ite (.ite (.chr 30 (.rg 48 57)) (.val false) (.val true)) (.ret false) (.val true)) ;;
     (.put 31 0) ;;
     (.adv 1) ;;
     (.loop 32 true ((.look 33) ;; (.chr 33 (.rg 0 1114111))) (.ite (.chr 33 (.rg 48 57)) (.adv 1) .brk)) ;;
     (.ite ((.look 34) ;; (.chr 34 (.rg 46 46)))
       ((.lookN 35 1) ;;
        (.ite (.chr 35 (.rg 48 57))
          ((.put 31 1) ;;
           (.adv 1) ;;
           (.loop 36 true ((.look 37) ;; (.chr 37 (.rg 0 1114111))) (.ite (.chr 37 (.rg 48 57)) (.adv 1) .brk)))
          (.val true)))
       (.val true)) ;;
     (.ite ((.look 38) ;; (.chr 38 (.rg 0 1114111)))
       (.ite (.ite (.chr 38 (.rg 101 101)) (.val true) (.chr 38 (.rg 69 69)))
         ((.lookN 39 1) ;;
          (.ite (.ite (.ite (.chr 39 (.rg 43 43)) (.val true) (.chr 39 (.rg 45 45))) (.val true) (.chr 39 (.rg 48 57)))
            ((.put 31 1) ;;
             (.adv 1) ;;
             (.ite ((.look 40) ;; (.chr 40 (.rg 0 1114111)))
               (.ite (.ite (.chr 40 (.rg 43 43)) (.val true) (.chr 40 (.rg 45 45))) (.adv 1) (.val true))
               (.val true)) ;;
             (.loop 41 true ((.look 42) ;; (.chr 42 (.rg 0 1114111))) (.ite (.chr 42 (.rg 48 57)) (.adv 1) .brk)))
            (.val true)))
         (.val true))
       (.val true)) ;;
     (.loop 43 true ((.look 44) ;; (.chr 44 (.rg 0 1114111)))
       (.ite (.chr 44 (.or (.rg 65 90) (.rg 97 122))) (.adv 1) .brk)) ;;
     (.mark 45) ;;
     (.tokTo 29 45) ;;
     (.val true))

/-- `lex_identifier_or_keyword` (examples/oak-objective-c/src/lexer/mod.rs:311-377). -/
def lexIdentifierOrKeyword : Code :=
  .scope 46
    ((.mark 46) ;;
     (.ite ((.look 47) ;; (.chr 47 (.rg 0 1114111))) (.val true) (.ret false)) ;;
     (.ite (.ite (.ite (.ite (.ite (.chr 47 (.or (.rg 65 90) (.rg 97 122))) (.val true) (.chr 47 (.rg 95 95)))
             (.val true)
             (.chr 47 (.rg 64 64)))
           (.val true)
           (.chr 47 (.rg 35 35)))
         (.val false)
         (.val true))
       (.ret false)
       (.val true)) ;;
     (.adv 1) ;;
     (.loop 48 true ((.look 49) ;; (.chr 49 (.rg 0 1114111)))
       (.ite (.ite (.chr 49 (.or (.or (.rg 48 57) (.rg 65 90)) (.rg 97 122))) (.val true) (.chr 49 (.rg 95 95)))
         (.adv 1)
         .brk)) ;;
     (.mark 50) ;;
     (.val true) ;;
     (.val true) ;;
     (.tok 46) ;;
     (.val true))

/-- `lex_operators` (examples/oak-objective-c/src/lexer/mod.rs:379-420). -/
def lexOperators : Code :=
  .scope 51
    ((.mark 51) ;;
     (.val true) ;;
     (.val true) ;;
     ((.ite (.restStarts ['=', '=']) ((.adv 2) ;; (.tok 51) ;; (.ret true)) (.val true)) ;;
      (.ite (.restStarts ['!', '=']) ((.adv 2) ;; (.tok 51) ;; (.ret true)) (.val true)) ;;
      (.ite (.restStarts ['>', '=']) ((.adv 2) ;; (.tok 51) ;; (.ret true)) (.val true)) ;;
      (.ite (.restStarts ['<', '=']) ((.adv 2) ;; (.tok 51) ;; (.ret true)) (.val true)) ;;
      (.ite (.restStarts ['&', '&']) ((.adv 2) ;; (.tok 51) ;; (.ret true)) (.val true)) ;;
      (.ite (.restStarts ['|', '|']) ((.adv 2) ;; (.tok 51) ;; (.ret true)) (.val true))) ;;
     (.ite ((.look 53) ;; (.chr 53 (.rg 0 1114111)))
       ((.ite (.chr 53 (.rg 43 43))
          (.put 54 1)
          (.ite (.chr 53 (.rg 45 45))
            (.put 54 1)
            (.ite (.chr 53 (.rg 42 42))
              (.put 54 1)
              (.ite (.chr 53 (.rg 47 47))
                (.put 54 1)
                (.ite (.chr 53 (.rg 37 37))
                  (.put 54 1)
                  (.ite (.chr 53 (.rg 61 61))
                    (.put 54 1)
                    (.ite (.chr 53 (.rg 62 62))
                      (.put 54 1)
                      (.ite (.chr 53 (.rg 60 60))
                        (.put 54 1)
                        (.ite (.chr 53 (.rg 33 33))
                          (.put 54 1)
                          (.ite (.chr 53 (.rg 63 63))
                            (.put 54 1)
                            (.ite (.chr 53 (.rg 58 58))
                              (.put 54 1)
                              (.ite (.chr 53 (.rg 46 46)) (.put 54 1) (.put 54 0))))))))))))) ;;
        (.ite (.flag 54) ((.advc 53) ;; (.tok 51) ;; (.ret true)) (.val true)))
       (.val true)) ;;
     (.val false))

/-- `lex_single_char_tokens` (examples/oak-objective-c/src/lexer/mod.rs:422-445). -/
def lexSingleCharTokens : Code :=
  .scope 55
    ((.mark 55) ;;
     (.ite ((.look 56) ;; (.chr 56 (.rg 0 1114111)))
       ((.ite (.chr 56 (.rg 40 40))
          (.val true)
          (.ite (.chr 56 (.rg 41 41))
            (.val true)
            (.ite (.chr 56 (.rg 91 91))
              (.val true)
              (.ite (.chr 56 (.rg 93 93))
                (.val true)
                (.ite (.chr 56 (.rg 123 123))
                  (.val true)
                  (.ite (.chr 56 (.rg 125 125))
                    (.val true)
                    (.ite (.chr 56 (.rg 44 44))
                      (.val true)
                      (.ite (.chr 56 (.rg 59 59)) (.val true) (.ite (.chr 56 (.rg 64 64)) (.val true) (.ret false)))))))))) ;;
        (.advc 56) ;;
        (.tok 55) ;;
        (.val true))
       (.val false)))

/-- `run` (examples/oak-objective-c/src/lexer/mod.rs:32-79). -/
def run_ : Code :=
  .scope 0
    (.loop 0 false .more
      ((.mark 1) ;;
       (.ite skipWhitespace .cont (.val true)) ;;
       (.ite skipComment .cont (.val true)) ;;
       (.ite lexStringLiteral .cont (.val true)) ;;
       (.ite lexCharLiteral .cont (.val true)) ;;
       (.ite lexNumberLiteral .cont (.val true)) ;;
       (.ite lexIdentifierOrKeyword .cont (.val true)) ;;
       (.ite lexOperators .cont (.val true)) ;;
       (.ite lexSingleCharTokens .cont (.val true)) ;;
       (.mark 57) ;;
       (.ite ((.look 58) ;; (.chr 58 (.rg 0 1114111))) ((.advc 58) ;; (.tok 57)) (.val true)) ;;
       (.guard 1)))

end Oaks.HandLex.ObjectiveC
