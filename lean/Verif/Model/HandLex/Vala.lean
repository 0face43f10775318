import Verif.Model.LexCode

/-
The lexer of the example `oak-vala` as a program of Model/LexCode.lean, function by function in the order of
the calls. Kinds of tokens and messages are left out.
-/
namespace Oaks.HandLex.Vala

open Oaks.Lc

/-- `skip_whitespace` (examples/oak-vala/src/lexer/mod.rs:81-83). -/
def skipWhitespace : Code :=
  .scope 2
    (.space true)

/-- `skip_comment` (examples/oak-vala/src/lexer/mod.rs:85-87). -/
def skipComment : Code :=
  .scope 2
    (.comment ⟨['/', '/'], ['/', '*'], ['*', '/'], true⟩)

/-- `lex_string_literal` (examples/oak-vala/src/lexer/mod.rs:89-91). -/
def lexStringLiteral : Code :=
  .scope 2
    (.quoted ⟨['"'], some '\\'⟩)

/-- `lex_char_literal` (examples/oak-vala/src/lexer/mod.rs:93-95). -/
def lexCharLiteral : Code :=
  .scope 2
    (.quoted ⟨['\''], some '\\'⟩)

/-- `lex_number_literal` (examples/oak-vala/src/lexer/mod.rs:97-225). -/
def lexNumberLiteral : Code :=
  .scope 2
    ((.mark 2) ;;
     (.ite ((.look 3) ;; (.chr 3 (.rg 0 1114111))) (.val true) (.ret false)) ;;
     (.ite (.ite (.chr 3 (.rg 48 57)) (.val false) (.val true)) (.ret false) (.val true)) ;;
     (.put 4 0) ;;
     (.ite (.chr 3 (.rg 48 48))
       ((.lookN 7 1) ;;
        (.ite (.chr 7 (.or (.rg 120 120) (.rg 88 88)))
          ((.adv 2) ;;
           (.loop 14 true ((.look 15) ;; (.chr 15 (.rg 0 1114111)))
             (.ite (.ite (.chr 15 (.or (.or (.rg 48 57) (.rg 65 70)) (.rg 97 102))) (.val true) (.chr 15 (.rg 95 95)))
               (.adv 1)
               .brk)))
          (.ite (.chr 7 (.or (.rg 98 98) (.rg 66 66)))
            ((.adv 2) ;;
             (.loop 12 true ((.look 13) ;; (.chr 13 (.rg 0 1114111)))
               (.ite (.ite (.ite (.chr 13 (.rg 48 48)) (.val true) (.chr 13 (.rg 49 49)))
                   (.val true)
                   (.chr 13 (.rg 95 95)))
                 (.adv 1)
                 .brk)))
            (.ite (.chr 7 (.or (.rg 111 111) (.rg 79 79)))
              ((.adv 2) ;;
               (.loop 10 true ((.look 11) ;; (.chr 11 (.rg 0 1114111)))
                 (.ite (.ite (.chr 11 (.rg 48 55)) (.val true) (.chr 11 (.rg 95 95))) (.adv 1) .brk)))
              ((.adv 1) ;;
               (.loop 8 true ((.look 9) ;; (.chr 9 (.rg 0 1114111)))
                 (.ite (.ite (.chr 9 (.rg 48 57)) (.val true) (.chr 9 (.rg 95 95))) (.adv 1) .brk)))))))
       ((.adv 1) ;;
        (.loop 5 true ((.look 6) ;; (.chr 6 (.rg 0 1114111)))
          (.ite (.ite (.chr 6 (.rg 48 57)) (.val true) (.chr 6 (.rg 95 95))) (.adv 1) .brk)))) ;;
     (.ite ((.look 16) ;; (.chr 16 (.rg 46 46)))
       ((.lookN 17 1) ;;
        (.ite (.chr 17 (.rg 48 57))
          ((.put 4 1) ;;
           (.adv 1) ;;
           (.loop 18 true ((.look 19) ;; (.chr 19 (.rg 0 1114111)))
             (.ite (.ite (.chr 19 (.rg 48 57)) (.val true) (.chr 19 (.rg 95 95))) (.adv 1) .brk)))
          (.val true)))
       (.val true)) ;;
     (.ite ((.look 20) ;; (.chr 20 (.rg 0 1114111)))
       (.ite (.ite (.chr 20 (.rg 101 101)) (.val true) (.chr 20 (.rg 69 69)))
         ((.lookN 21 1) ;;
          (.ite (.ite (.ite (.chr 21 (.rg 43 43)) (.val true) (.chr 21 (.rg 45 45))) (.val true) (.chr 21 (.rg 48 57)))
            ((.put 4 1) ;;
             (.adv 1) ;;
             (.ite ((.look 22) ;; (.chr 22 (.rg 0 1114111)))
               (.ite (.ite (.chr 22 (.rg 43 43)) (.val true) (.chr 22 (.rg 45 45))) (.adv 1) (.val true))
               (.val true)) ;;
             (.loop 23 true ((.look 24) ;; (.chr 24 (.rg 0 1114111)))
               (.ite (.ite (.chr 24 (.rg 48 57)) (.val true) (.chr 24 (.rg 95 95))) (.adv 1) .brk)))
            (.val true)))
         (.val true))
       (.val true)) ;;
     (.loop 25 true ((.look 26) ;; (.chr 26 (.rg 0 1114111)))
       (.ite (.chr 26 (.or (.rg 65 90) (.rg 97 122))) (.adv 1) .brk)) ;;
     (.mark 27) ;;
     (.tokTo 2 27) ;;
     (.val true))

/-- `lex_identifier_or_keyword` (examples/oak-vala/src/lexer/mod.rs:227-340). -/
def lexIdentifierOrKeyword : Code :=
  .scope 28
    ((.mark 28) ;;
     (.ite ((.look 29) ;; (.chr 29 (.rg 0 1114111))) (.val true) (.ret false)) ;;
     (.ite (.ite (.ite (.chr 29 (.or (.rg 65 90) (.rg 97 122))) (.val true) (.chr 29 (.rg 95 95)))
         (.val false)
         (.val true))
       (.ret false)
       (.val true)) ;;
     (.advc 29) ;;
     (.loop 30 true ((.look 31) ;; (.chr 31 (.rg 0 1114111)))
       (.ite (.ite (.chr 31 (.or (.or (.rg 48 57) (.rg 65 90)) (.rg 97 122))) (.val true) (.chr 31 (.rg 95 95)))
         (.advc 31)
         .brk)) ;;
     (.mark 32) ;;
     (.val true) ;;
     (.val true) ;;
     (.tok 28) ;;
     (.val true))

/-- `lex_operators` (examples/oak-vala/src/lexer/mod.rs:342-406). -/
def lexOperators : Code :=
  .scope 33
    ((.mark 33) ;;
     (.val true) ;;
     ((.ite (.starts ['<', '<']) ((.adv 2) ;; (.tok 33) ;; (.ret true)) (.val true)) ;;
      (.ite (.starts ['>', '>']) ((.adv 2) ;; (.tok 33) ;; (.ret true)) (.val true)) ;;
      (.ite (.starts ['=', '=']) ((.adv 2) ;; (.tok 33) ;; (.ret true)) (.val true)) ;;
      (.ite (.starts ['!', '=']) ((.adv 2) ;; (.tok 33) ;; (.ret true)) (.val true)) ;;
      (.ite (.starts ['<', '=']) ((.adv 2) ;; (.tok 33) ;; (.ret true)) (.val true)) ;;
      (.ite (.starts ['>', '=']) ((.adv 2) ;; (.tok 33) ;; (.ret true)) (.val true)) ;;
      (.ite (.starts ['&', '&']) ((.adv 2) ;; (.tok 33) ;; (.ret true)) (.val true)) ;;
      (.ite (.starts ['|', '|']) ((.adv 2) ;; (.tok 33) ;; (.ret true)) (.val true)) ;;
      (.ite (.starts ['+', '+']) ((.adv 2) ;; (.tok 33) ;; (.ret true)) (.val true)) ;;
      (.ite (.starts ['-', '-']) ((.adv 2) ;; (.tok 33) ;; (.ret true)) (.val true)) ;;
      (.ite (.starts ['+', '=']) ((.adv 2) ;; (.tok 33) ;; (.ret true)) (.val true)) ;;
      (.ite (.starts ['-', '=']) ((.adv 2) ;; (.tok 33) ;; (.ret true)) (.val true)) ;;
      (.ite (.starts ['*', '=']) ((.adv 2) ;; (.tok 33) ;; (.ret true)) (.val true)) ;;
      (.ite (.starts ['/', '=']) ((.adv 2) ;; (.tok 33) ;; (.ret true)) (.val true)) ;;
      (.ite (.starts ['%', '=']) ((.adv 2) ;; (.tok 33) ;; (.ret true)) (.val true)) ;;
      (.ite (.starts ['-', '>']) ((.adv 2) ;; (.tok 33) ;; (.ret true)) (.val true))) ;;
     (.ite ((.look 35) ;; (.chr 35 (.rg 0 1114111)))
       ((.ite (.chr 35 (.rg 43 43))
          (.put 36 1)
          (.ite (.chr 35 (.rg 45 45))
            (.put 36 1)
            (.ite (.chr 35 (.rg 42 42))
              (.put 36 1)
              (.ite (.chr 35 (.rg 47 47))
                (.put 36 1)
                (.ite (.chr 35 (.rg 37 37))
                  (.put 36 1)
                  (.ite (.chr 35 (.rg 94 94))
                    (.put 36 1)
                    (.ite (.chr 35 (.rg 33 33))
                      (.put 36 1)
                      (.ite (.chr 35 (.rg 38 38))
                        (.put 36 1)
                        (.ite (.chr 35 (.rg 124 124))
                          (.put 36 1)
                          (.ite (.chr 35 (.rg 61 61))
                            (.put 36 1)
                            (.ite (.chr 35 (.rg 62 62))
                              (.put 36 1)
                              (.ite (.chr 35 (.rg 60 60))
                                (.put 36 1)
                                (.ite (.chr 35 (.rg 46 46))
                                  (.put 36 1)
                                  (.ite (.chr 35 (.rg 58 58))
                                    (.put 36 1)
                                    (.ite (.chr 35 (.rg 63 63))
                                      (.put 36 1)
                                      (.ite (.chr 35 (.rg 126 126))
                                        (.put 36 1)
                                        (.ite (.chr 35 (.rg 92 92))
                                          (.put 36 1)
                                          (.ite (.chr 35 (.rg 64 64))
                                            (.put 36 1)
                                            (.ite (.chr 35 (.rg 35 35))
                                              (.put 36 1)
                                              (.ite (.chr 35 (.rg 36 36)) (.put 36 1) (.put 36 0))))))))))))))))))))) ;;
        (.ite (.flag 36) ((.advc 35) ;; (.tok 33) ;; (.ret true)) (.val true)))
       (.val true)) ;;
     (.val false))

/-- `lex_single_char_tokens` (examples/oak-vala/src/lexer/mod.rs:408-430). -/
def lexSingleCharTokens : Code :=
  .scope 37
    ((.mark 37) ;;
     (.ite ((.look 38) ;; (.chr 38 (.rg 0 1114111)))
       ((.ite (.chr 38 (.rg 40 40))
          (.put 39 1)
          (.ite (.chr 38 (.rg 41 41))
            (.put 39 1)
            (.ite (.chr 38 (.rg 123 123))
              (.put 39 1)
              (.ite (.chr 38 (.rg 125 125))
                (.put 39 1)
                (.ite (.chr 38 (.rg 91 91))
                  (.put 39 1)
                  (.ite (.chr 38 (.rg 93 93))
                    (.put 39 1)
                    (.ite (.chr 38 (.rg 44 44)) (.put 39 1) (.ite (.chr 38 (.rg 59 59)) (.put 39 1) (.put 39 0))))))))) ;;
        (.ite (.flag 39) ((.advc 38) ;; (.tok 37) ;; (.ret true)) (.val true)))
       (.val true)) ;;
     (.val false))

/-- `run` (examples/oak-vala/src/lexer/mod.rs:37-79). -/
def run_ : Code :=
  .scope 0
    (.loop 0 false .more
      ((.mark 1) ;;
       (.ite skipWhitespace .cont (.val true)) ;;
       (.ite skipComment .cont (.val true)) ;;
       (.ite lexStringLiteral .cont (.val true)) ;;
       (.ite lexCharLiteral .cont (.val true)) ;;
       (.ite lexNumberLiteral .cont (.val true)) ;;
       (.ite lexIdentifierOrKeyword .cont (.val true)) ;;
       (.ite lexOperators .cont (.val true)) ;;
       (.ite lexSingleCharTokens .cont (.val true)) ;;
       (.guard 1)))

end Oaks.HandLex.Vala
