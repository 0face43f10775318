import Verif.Model.LexCode

/-
The lexer of the example `oak-ocaml` as a program of Model/LexCode.lean, function by function in the order of
the calls. Kinds of tokens and messages are left out.
-/
namespace Oaks.HandLex.Ocaml

open Oaks.Lc

/-- `skip_whitespace` (examples/oak-ocaml/src/lexer/mod.rs:82-84). -/
def skipWhitespace : Code :=
  .scope 2
    (.space true)

/-- `skip_comment` (examples/oak-ocaml/src/lexer/mod.rs:86-88). -/
def skipComment : Code :=
  .scope 2
    (.comment ⟨['/', '/'], ['(', '*'], ['*', ')'], true⟩)

/-- `lex_string_literal` (examples/oak-ocaml/src/lexer/mod.rs:90-118). -/
def lexStringLiteral : Code :=
  .scope 2
    ((.mark 2) ;;
     (.ite (.ite ((.look 3) ;; (.chr 3 (.rg 34 34))) (.val false) (.val true)) (.ret false) (.val true)) ;;
     (.adv 1) ;;
     (.put 4 0) ;;
     (.loop 5 true ((.look 6) ;; (.chr 6 (.rg 0 1114111)))
       ((.ite (.ite (.chr 6 (.rg 34 34)) (.ite (.flag 4) (.val false) (.val true)) (.val false))
          ((.adv 1) ;; .brk)
          (.val true)) ;;
        (.advc 6) ;;
        (.ite (.flag 4) ((.put 4 0) ;; .cont) (.val true)) ;;
        (.ite (.chr 6 (.rg 92 92)) ((.put 4 1) ;; .cont) (.val true)) ;;
        (.ite (.ite (.chr 6 (.rg 10 10)) (.val true) (.chr 6 (.rg 13 13))) .brk (.val true)))) ;;
     (.tok 2) ;;
     (.val true))

/-- `lex_char_literal` (examples/oak-ocaml/src/lexer/mod.rs:120-149). -/
def lexCharLiteral : Code :=
  .scope 7
    ((.mark 7) ;;
     (.ite (.ite ((.look 8) ;; (.chr 8 (.rg 39 39))) (.val false) (.val true)) (.ret false) (.val true)) ;;
     (.adv 1) ;;
     (.ite ((.look 10) ;; (.chr 10 (.rg 92 92)))
       ((.adv 1) ;; (.ite ((.look 11) ;; (.chr 11 (.rg 0 1114111))) (.advc 11) (.val true)))
       (.ite ((.look 9) ;; (.chr 9 (.rg 0 1114111))) (.advc 9) ((.goto 7) ;; (.ret false)))) ;;
     (.ite ((.look 12) ;; (.chr 12 (.rg 39 39))) ((.adv 1) ;; (.tok 7) ;; (.ret true)) (.val true)) ;;
     (.goto 7) ;;
     (.val false))

/-- `lex_number_literal` (examples/oak-ocaml/src/lexer/mod.rs:151-219). -/
def lexNumberLiteral : Code :=
  .scope 13
    ((.mark 13) ;;
     (.ite ((.look 14) ;; (.chr 14 (.rg 0 1114111))) (.val true) (.ret false)) ;;
     (.ite (.ite (.chr 14 (.rg 48 57)) (.val false) (.val true)) (.ret false) (.val true)) ;;
     (.put 15 0) ;;
     (.adv 1) ;;
     (.loop 16 true ((.look 17) ;; (.chr 17 (.rg 0 1114111))) (.ite (.chr 17 (.rg 48 57)) (.adv 1) .brk)) ;;
     (.ite ((.look 18) ;; (.chr 18 (.rg 46 46)))
       ((.lookN 19 1) ;;
        (.ite (.chr 19 (.rg 48 57))
          ((.put 15 1) ;;
           (.adv 1) ;;
           (.loop 20 true ((.look 21) ;; (.chr 21 (.rg 0 1114111))) (.ite (.chr 21 (.rg 48 57)) (.adv 1) .brk)))
          (.val true)))
       (.val true)) ;;
     (.ite ((.look 22) ;; (.chr 22 (.rg 0 1114111)))
       (.ite (.ite (.chr 22 (.rg 101 101)) (.val true) (.chr 22 (.rg 69 69)))
         ((.lookN 23 1) ;;
          (.ite (.ite (.ite (.chr 23 (.rg 43 43)) (.val true) (.chr 23 (.rg 45 45))) (.val true) (.chr 23 (.rg 48 57)))
            ((.put 15 1) ;;
             (.adv 1) ;;
             (.ite ((.look 24) ;; (.chr 24 (.rg 0 1114111)))
               (.ite (.ite (.chr 24 (.rg 43 43)) (.val true) (.chr 24 (.rg 45 45))) (.adv 1) (.val true))
               (.val true)) ;;
             (.loop 25 true ((.look 26) ;; (.chr 26 (.rg 0 1114111))) (.ite (.chr 26 (.rg 48 57)) (.adv 1) .brk)))
            (.val true)))
         (.val true))
       (.val true)) ;;
     (.mark 27) ;;
     (.tokTo 13 27) ;;
     (.val true))

/-- `lex_identifier_or_keyword` (examples/oak-ocaml/src/lexer/mod.rs:221-295). -/
def lexIdentifierOrKeyword : Code :=
  .scope 28
    ((.mark 28) ;;
     (.ite ((.look 29) ;; (.chr 29 (.rg 0 1114111))) (.val true) (.ret false)) ;;
     (.ite (.ite (.ite (.chr 29 (.or (.rg 65 90) (.rg 97 122))) (.val true) (.chr 29 (.rg 95 95)))
         (.val false)
         (.val true))
       (.ret false)
       (.val true)) ;;
     (.adv 1) ;;
     (.loop 30 true ((.look 31) ;; (.chr 31 (.rg 0 1114111)))
       (.ite (.ite (.ite (.chr 31 (.or (.or (.rg 48 57) (.rg 65 90)) (.rg 97 122))) (.val true) (.chr 31 (.rg 95 95)))
           (.val true)
           (.chr 31 (.rg 39 39)))
         (.adv 1)
         .brk)) ;;
     (.mark 32) ;;
     (.val true) ;;
     (.val true) ;;
     (.tok 28) ;;
     (.val true))

/-- `lex_operators` (examples/oak-ocaml/src/lexer/mod.rs:297-357). -/
def lexOperators : Code :=
  .scope 33
    ((.mark 33) ;;
     (.val true) ;;
     (.val true) ;;
     ((.ite (.restStarts ['=', '=']) ((.adv 2) ;; (.tok 33) ;; (.ret true)) (.val true)) ;;
      (.ite (.restStarts ['!', '=']) ((.adv 2) ;; (.tok 33) ;; (.ret true)) (.val true)) ;;
      (.ite (.restStarts ['>', '=']) ((.adv 2) ;; (.tok 33) ;; (.ret true)) (.val true)) ;;
      (.ite (.restStarts ['<', '=']) ((.adv 2) ;; (.tok 33) ;; (.ret true)) (.val true)) ;;
      (.ite (.restStarts ['&', '&']) ((.adv 2) ;; (.tok 33) ;; (.ret true)) (.val true)) ;;
      (.ite (.restStarts ['|', '|']) ((.adv 2) ;; (.tok 33) ;; (.ret true)) (.val true)) ;;
      (.ite (.restStarts [':', ':']) ((.adv 2) ;; (.tok 33) ;; (.ret true)) (.val true)) ;;
      (.ite (.restStarts ['-', '>']) ((.adv 2) ;; (.tok 33) ;; (.ret true)) (.val true)) ;;
      (.ite (.restStarts ['<', '-']) ((.adv 2) ;; (.tok 33) ;; (.ret true)) (.val true))) ;;
     (.ite ((.look 35) ;; (.chr 35 (.rg 0 1114111)))
       ((.ite (.chr 35 (.rg 43 43))
          (.put 36 1)
          (.ite (.chr 35 (.rg 45 45))
            (.put 36 1)
            (.ite (.chr 35 (.rg 42 42))
              (.put 36 1)
              (.ite (.chr 35 (.rg 47 47))
                (.put 36 1)
                (.ite (.chr 35 (.rg 37 37))
                  (.put 36 1)
                  (.ite (.chr 35 (.rg 61 61))
                    (.put 36 1)
                    (.ite (.chr 35 (.rg 62 62))
                      (.put 36 1)
                      (.ite (.chr 35 (.rg 60 60))
                        (.put 36 1)
                        (.ite (.chr 35 (.rg 33 33))
                          (.put 36 1)
                          (.ite (.chr 35 (.rg 63 63))
                            (.put 36 1)
                            (.ite (.chr 35 (.rg 58 58))
                              (.put 36 1)
                              (.ite (.chr 35 (.rg 59 59))
                                (.put 36 1)
                                (.ite (.chr 35 (.rg 44 44))
                                  (.put 36 1)
                                  (.ite (.chr 35 (.rg 46 46))
                                    (.put 36 1)
                                    (.ite (.chr 35 (.rg 124 124))
                                      (.put 36 1)
                                      (.ite (.chr 35 (.rg 38 38))
                                        (.put 36 1)
                                        (.ite (.chr 35 (.rg 94 94))
                                          (.put 36 1)
                                          (.ite (.chr 35 (.rg 126 126))
                                            (.put 36 1)
                                            (.ite (.chr 35 (.rg 64 64))
                                              (.put 36 1)
                                              (.ite (.chr 35 (.rg 35 35))
                                                (.put 36 1)
                                                (.ite (.chr 35 (.rg 36 36))
                                                  (.put 36 1)
                                                  (.ite (.chr 35 (.rg 96 96)) (.put 36 1) (.put 36 0))))))))))))))))))))))) ;;
        (.ite (.flag 36) ((.advc 35) ;; (.tok 33) ;; (.ret true)) (.val true)))
       (.val true)) ;;
     (.val false))

/-- `lex_single_char_tokens` (examples/oak-ocaml/src/lexer/mod.rs:359-379). -/
def lexSingleCharTokens : Code :=
  .scope 37
    ((.mark 37) ;;
     (.ite ((.look 38) ;; (.chr 38 (.rg 0 1114111)))
       ((.ite (.chr 38 (.rg 40 40))
          (.val true)
          (.ite (.chr 38 (.rg 41 41))
            (.val true)
            (.ite (.chr 38 (.rg 91 91))
              (.val true)
              (.ite (.chr 38 (.rg 93 93))
                (.val true)
                (.ite (.chr 38 (.rg 123 123)) (.val true) (.ite (.chr 38 (.rg 125 125)) (.val true) (.ret false))))))) ;;
        (.advc 38) ;;
        (.tok 37) ;;
        (.val true))
       (.val false)))

/-- `run` (examples/oak-ocaml/src/lexer/mod.rs:39-79). -/
def run_ : Code :=
  .scope 0
    (.loop 0 false .more
      ((.mark 1) ;;
       (.ite skipWhitespace .cont (.val true)) ;;
       (.ite skipComment .cont (.val true)) ;;
       (.ite lexStringLiteral .cont (.val true)) ;;
       (.ite lexCharLiteral .cont (.val true)) ;;
       (.ite lexNumberLiteral .cont (.val true)) ;;
       (.ite lexIdentifierOrKeyword .cont (.val true)) ;;
       (.ite lexOperators .cont (.val true)) ;;
       (.ite lexSingleCharTokens .cont (.val true)) ;;
       (.guard 1)))

end Oaks.HandLex.Ocaml
