import Verif.Model.LexCode

/-
The lexer of the example `oak-verilog` as a program of Model/LexCode.lean, function by function in the order of
the calls. Kinds of tokens and messages are left out.
-/
namespace Oaks.HandLex.Verilog

open Oaks.Lc

/-- `skip_whitespace` (examples/oak-verilog/src/lexer/mod.rs:79-81). -/
def skipWhitespace : Code :=
  .scope 2
    (.space true)

/-- `skip_comment` (examples/oak-verilog/src/lexer/mod.rs:84-116). -/
def skipComment : Code :=
  .scope 2
    ((.mark 2) ;;
     (.val true) ;;
     (.ite (.restStarts ['/', '/'])
       ((.adv 2) ;;
        (.loop 3 true ((.look 4) ;; (.chr 4 (.rg 0 1114111)))
          ((.ite (.ite (.chr 4 (.rg 10 10)) (.val true) (.chr 4 (.rg 13 13))) .brk (.val true)) ;; (.advc 4))) ;;
        (.tok 2) ;;
        (.ret true))
       (.val true)) ;;
     (.ite (.restStarts ['/', '*'])
       ((.adv 2) ;;
        (.loop 5 true ((.look 6) ;; (.chr 6 (.rg 0 1114111)))
          ((.ite (.ite (.chr 6 (.rg 42 42)) ((.lookN 7 1) ;; (.chr 7 (.rg 47 47))) (.val false))
             ((.adv 2) ;; .brk)
             (.val true)) ;;
           (.advc 6))) ;;
        (.tok 2) ;;
        (.ret true))
       (.val true)) ;;
     (.val false))

/-- `lex_string_literal` (examples/oak-verilog/src/lexer/mod.rs:119-147). -/
def lexStringLiteral : Code :=
  .scope 8
    ((.mark 8) ;;
     (.ite ((.look 9) ;; (.chr 9 (.rg 34 34)))
       ((.adv 1) ;;
        (.put 10 0) ;;
        (.loop 11 true ((.look 12) ;; (.chr 12 (.rg 0 1114111)))
          ((.ite (.ite (.chr 12 (.rg 34 34)) (.ite (.flag 10) (.val false) (.val true)) (.val false))
             ((.adv 1) ;; .brk)
             (.val true)) ;;
           (.advc 12) ;;
           (.ite (.flag 10) ((.put 10 0) ;; .cont) (.val true)) ;;
           (.ite (.chr 12 (.rg 92 92)) ((.put 10 1) ;; .cont) (.val true)) ;;
           (.ite (.ite (.chr 12 (.rg 10 10)) (.val true) (.chr 12 (.rg 13 13))) .brk (.val true)))) ;;
        (.tok 8) ;;
        (.ret true))
       (.val true)) ;;
     (.val false))

/-- `lex_number_literal` (examples/oak-verilog/src/lexer/mod.rs:150-192). -/
def lexNumberLiteral : Code :=
  .scope 13
    ((.mark 13) ;;
     (.ite ((.look 14) ;; (.chr 14 (.rg 0 1114111))) (.val true) (.ret false)) ;;
     (.ite (.ite (.chr 14 (.rg 48 57)) (.val false) (.val true)) (.ret false) (.val true)) ;;
     (.adv 1) ;;
     (.loop 15 true ((.look 16) ;; (.chr 16 (.rg 0 1114111)))
       (.ite (.ite (.chr 16 (.rg 48 57)) (.val true) (.chr 16 (.rg 95 95))) (.adv 1) .brk)) ;;
     (.ite ((.look 17) ;; (.chr 17 (.rg 39 39)))
       ((.adv 1) ;;
        (.ite ((.look 18) ;; (.chr 18 (.rg 0 1114111)))
          (.ite (.ite (.chr 18 (.or (.or (.or (.or (.or (.or (.or (.rg 98 98) (.rg 66 66)) (.rg 104 104)) (.rg 72 72)) (.rg 111 111)) (.rg 79 79)) (.rg 100 100)) (.rg 68 68)))
              (.val true)
              (.val false))
            ((.adv 1) ;;
             (.loop 19 true ((.look 20) ;; (.chr 20 (.rg 0 1114111)))
               (.ite (.ite (.chr 20 (.or (.or (.rg 48 57) (.rg 65 90)) (.rg 97 122))) (.val true) (.chr 20 (.rg 95 95)))
                 (.adv 1)
                 .brk)))
            (.val true))
          (.val true)))
       (.val true)) ;;
     (.tok 13) ;;
     (.val true))

/-- `lex_identifier_or_keyword` (examples/oak-verilog/src/lexer/mod.rs:195-244). -/
def lexIdentifierOrKeyword : Code :=
  .scope 21
    ((.mark 21) ;;
     (.ite ((.look 22) ;; (.chr 22 (.rg 0 1114111))) (.val true) (.ret false)) ;;
     (.ite (.ite (.ite (.chr 22 (.or (.rg 65 90) (.rg 97 122))) (.val true) (.chr 22 (.rg 95 95)))
         (.val false)
         (.val true))
       (.ret false)
       (.val true)) ;;
     (.adv 1) ;;
     (.loop 23 true ((.look 24) ;; (.chr 24 (.rg 0 1114111)))
       (.ite (.ite (.chr 24 (.or (.or (.rg 48 57) (.rg 65 90)) (.rg 97 122))) (.val true) (.chr 24 (.rg 95 95)))
         (.adv 1)
         .brk)) ;;
     (.mark 25) ;;
     (.val true) ;;
     (.val true) ;;
     (.tok 21) ;;
     (.val true))

/-- `lex_operators` (examples/oak-verilog/src/lexer/mod.rs:247-296). -/
def lexOperators : Code :=
  .scope 26
    ((.mark 26) ;;
     (.val true) ;;
     (.val true) ;;
     ((.ite (.restStarts ['=', '=']) ((.adv 2) ;; (.tok 26) ;; (.ret true)) (.val true)) ;;
      (.ite (.restStarts ['!', '=']) ((.adv 2) ;; (.tok 26) ;; (.ret true)) (.val true)) ;;
      (.ite (.restStarts ['<', '=']) ((.adv 2) ;; (.tok 26) ;; (.ret true)) (.val true)) ;;
      (.ite (.restStarts ['>', '=']) ((.adv 2) ;; (.tok 26) ;; (.ret true)) (.val true)) ;;
      (.ite (.restStarts ['<', '<']) ((.adv 2) ;; (.tok 26) ;; (.ret true)) (.val true)) ;;
      (.ite (.restStarts ['>', '>']) ((.adv 2) ;; (.tok 26) ;; (.ret true)) (.val true)) ;;
      (.ite (.restStarts ['&', '&']) ((.adv 2) ;; (.tok 26) ;; (.ret true)) (.val true)) ;;
      (.ite (.restStarts ['|', '|']) ((.adv 2) ;; (.tok 26) ;; (.ret true)) (.val true))) ;;
     (.ite ((.look 28) ;; (.chr 28 (.rg 0 1114111)))
       ((.ite (.chr 28 (.rg 43 43))
          (.put 29 1)
          (.ite (.chr 28 (.rg 45 45))
            (.put 29 1)
            (.ite (.chr 28 (.rg 42 42))
              (.put 29 1)
              (.ite (.chr 28 (.rg 47 47))
                (.put 29 1)
                (.ite (.chr 28 (.rg 37 37))
                  (.put 29 1)
                  (.ite (.chr 28 (.rg 61 61))
                    (.put 29 1)
                    (.ite (.chr 28 (.rg 33 33))
                      (.put 29 1)
                      (.ite (.chr 28 (.rg 60 60))
                        (.put 29 1)
                        (.ite (.chr 28 (.rg 62 62))
                          (.put 29 1)
                          (.ite (.chr 28 (.rg 38 38))
                            (.put 29 1)
                            (.ite (.chr 28 (.rg 124 124))
                              (.put 29 1)
                              (.ite (.chr 28 (.rg 94 94))
                                (.put 29 1)
                                (.ite (.chr 28 (.rg 126 126)) (.put 29 1) (.put 29 0)))))))))))))) ;;
        (.ite (.flag 29) ((.advc 28) ;; (.tok 26) ;; (.ret true)) (.val true)))
       (.val true)) ;;
     (.val false))

/-- `lex_single_char_tokens` (examples/oak-verilog/src/lexer/mod.rs:299-337). -/
def lexSingleCharTokens : Code :=
  .scope 30
    ((.mark 30) ;;
     (.ite ((.look 31) ;; (.chr 31 (.rg 0 1114111)))
       ((.ite (.chr 31 (.rg 40 40))
          (.val true)
          (.ite (.chr 31 (.rg 41 41))
            (.val true)
            (.ite (.chr 31 (.rg 123 123))
              (.val true)
              (.ite (.chr 31 (.rg 125 125))
                (.val true)
                (.ite (.chr 31 (.rg 91 91))
                  (.val true)
                  (.ite (.chr 31 (.rg 93 93))
                    (.val true)
                    (.ite (.chr 31 (.rg 44 44))
                      (.val true)
                      (.ite (.chr 31 (.rg 59 59))
                        (.val true)
                        (.ite (.chr 31 (.rg 46 46))
                          (.val true)
                          (.ite (.chr 31 (.rg 58 58))
                            (.val true)
                            (.ite (.chr 31 (.rg 35 35))
                              (.val true)
                              (.ite (.chr 31 (.rg 64 64))
                                (.val true)
                                (.ite (.chr 31 (.rg 61 61))
                                  (.val true)
                                  (.ite (.chr 31 (.rg 43 43))
                                    (.val true)
                                    (.ite (.chr 31 (.rg 45 45))
                                      (.val true)
                                      (.ite (.chr 31 (.rg 42 42))
                                        (.val true)
                                        (.ite (.chr 31 (.rg 47 47))
                                          (.val true)
                                          (.ite (.chr 31 (.rg 37 37))
                                            (.val true)
                                            (.ite (.chr 31 (.rg 60 60))
                                              (.val true)
                                              (.ite (.chr 31 (.rg 62 62))
                                                (.val true)
                                                (.ite (.chr 31 (.rg 33 33))
                                                  (.val true)
                                                  (.ite (.chr 31 (.rg 38 38))
                                                    (.val true)
                                                    (.ite (.chr 31 (.rg 124 124))
                                                      (.val true)
                                                      (.ite (.chr 31 (.rg 94 94))
                                                        (.val true)
                                                        (.ite (.chr 31 (.rg 126 126))
                                                          (.val true)
                                                          (.ite (.chr 31 (.rg 63 63)) (.val true) (.ret false))))))))))))))))))))))))))) ;;
        (.advc 31) ;;
        (.tok 30) ;;
        (.ret true))
       (.val true)) ;;
     (.val false))

/-- `run` (examples/oak-verilog/src/lexer/mod.rs:37-76). -/
def run_ : Code :=
  .scope 0
    ((.loop 0 false .more
       ((.mark 1) ;;
        (.ite skipWhitespace .cont (.val true)) ;;
        (.ite skipComment .cont (.val true)) ;;
        (.ite lexStringLiteral .cont (.val true)) ;;
        (.ite lexNumberLiteral .cont (.val true)) ;;
        (.ite lexIdentifierOrKeyword .cont (.val true)) ;;
        (.ite lexOperators .cont (.val true)) ;;
        (.ite lexSingleCharTokens .cont (.val true)) ;;
        (.guard 1))) ;;
     (.mark 32) ;;
     (.tokTo 32 32))

end Oaks.HandLex.Verilog
