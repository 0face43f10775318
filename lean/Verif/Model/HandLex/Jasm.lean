import Verif.Model.LexCode

/-
The lexer of the example `oak-jasm` as a program of Model/LexCode.lean, function by function in the order of
the calls. Kinds of tokens and messages are left out.
-/
namespace Oaks.HandLex.Jasm

open Oaks.Lc

/-- `skip_whitespace` (examples/oak-jasm/src/lexer/mod.rs:76-94). -/
def skipWhitespace : Code :=
  .scope 2
    ((.mark 2) ;;
     (.loop 3 true ((.look 4) ;; (.chr 4 (.rg 0 1114111)))
       (.ite (.ite (.ite (.chr 4 (.rg 32 32)) (.val true) (.chr 4 (.rg 9 9))) (.val true) (.chr 4 (.rg 13 13)))
         (.advc 4)
         .brk)) ;;
     (.ite (.moved 2) ((.tok 2) ;; (.ret true)) (.val true)) ;;
     (.val false))

/-- `lex_newline` (examples/oak-jasm/src/lexer/mod.rs:97-106). -/
def lexNewline : Code :=
  .scope 5
    ((.mark 5) ;;
     (.ite ((.look 6) ;; (.chr 6 (.rg 10 10))) ((.adv 1) ;; (.tok 5) ;; (.ret true)) (.val true)) ;;
     (.val false))

/-- `skip_comment` (examples/oak-jasm/src/lexer/mod.rs:109-111). -/
def skipComment : Code :=
  .scope 7
    (.comment ⟨['/', '/'], [], [], false⟩)

/-- `lex_string_literal` (examples/oak-jasm/src/lexer/mod.rs:114-116). -/
def lexStringLiteral : Code :=
  .scope 7
    (.quoted ⟨['"'], some '\\'⟩)

/-- `lex_number_literal` (examples/oak-jasm/src/lexer/mod.rs:119-172). -/
def lexNumberLiteral : Code :=
  .scope 7
    ((.mark 7) ;;
     (.ite ((.look 8) ;; (.chr 8 (.rg 0 1114111))) (.val true) (.ret false)) ;;
     (.ite (.ite (.ite (.ite (.chr 8 (.rg 48 57)) (.val false) (.val true))
           (.ite (.chr 8 (.rg 45 45)) (.val false) (.val true))
           (.val false))
         (.ite (.chr 8 (.rg 43 43)) (.val false) (.val true))
         (.val false))
       (.ret false)
       (.val true)) ;;
     (.ite (.ite (.chr 8 (.rg 45 45)) (.val true) (.chr 8 (.rg 43 43)))
       (.ite ((.lookN 9 1) ;; (.chr 9 (.rg 0 1114111)))
         (.ite (.ite (.chr 9 (.rg 48 57)) (.val false) (.val true)) (.ret false) (.val true))
         (.ret false))
       (.val true)) ;;
     (.advc 8) ;;
     (.put 10 0) ;;
     (.put 11 0) ;;
     (.loop 12 true ((.look 13) ;; (.chr 13 (.rg 0 1114111)))
       (.ite (.chr 13 (.rg 48 57))
         (.advc 13)
         (.ite (.ite (.ite (.chr 13 (.rg 46 46)) (.ite (.flag 10) (.val false) (.val true)) (.val false))
             (.ite (.flag 11) (.val false) (.val true))
             (.val false))
           ((.put 10 1) ;; (.adv 1))
           (.ite (.ite (.ite (.chr 13 (.rg 101 101)) (.val true) (.chr 13 (.rg 69 69)))
               (.ite (.flag 11) (.val false) (.val true))
               (.val false))
             ((.put 11 1) ;;
              (.adv 1) ;;
              (.ite ((.look 14) ;; (.chr 14 (.rg 0 1114111)))
                (.ite (.ite (.chr 14 (.rg 43 43)) (.val true) (.chr 14 (.rg 45 45))) (.adv 1) (.val true))
                (.val true)))
             .brk)))) ;;
     (.tok 7) ;;
     (.val true))

/-- `lex_identifier_or_keyword` (examples/oak-jasm/src/lexer/mod.rs:175-204). -/
def lexIdentifierOrKeyword : Code :=
  .scope 15
    ((.mark 15) ;;
     (.ite ((.look 16) ;; (.chr 16 (.rg 0 1114111))) (.val true) (.ret false)) ;;
     (.ite (.ite (.ite (.chr 16 (.or (.rg 65 90) (.rg 97 122))) (.val true) (.chr 16 (.rg 95 95)))
         (.val false)
         (.val true))
       (.ret false)
       (.val true)) ;;
     (.advc 16) ;;
     (.loop 17 true ((.look 18) ;; (.chr 18 (.rg 0 1114111)))
       (.ite (.ite (.chr 18 (.or (.or (.rg 48 57) (.rg 65 90)) (.rg 97 122))) (.val true) (.chr 18 (.rg 95 95)))
         (.advc 18)
         .brk)) ;;
     (.mark 19) ;;
     (.val true) ;;
     (.val true) ;;
     (.tok 15) ;;
     (.val true))

/-- `lex_punctuation` (examples/oak-jasm/src/lexer/mod.rs:277-302). -/
def lexPunctuation : Code :=
  .scope 20
    ((.mark 20) ;;
     (.ite ((.look 21) ;; (.chr 21 (.rg 0 1114111)))
       ((.ite (.chr 21 (.rg 123 123))
          (.val true)
          (.ite (.chr 21 (.rg 125 125))
            (.val true)
            (.ite (.chr 21 (.rg 40 40))
              (.val true)
              (.ite (.chr 21 (.rg 41 41))
                (.val true)
                (.ite (.chr 21 (.rg 91 91))
                  (.val true)
                  (.ite (.chr 21 (.rg 93 93))
                    (.val true)
                    (.ite (.chr 21 (.rg 58 58))
                      (.val true)
                      (.ite (.chr 21 (.rg 59 59))
                        (.val true)
                        (.ite (.chr 21 (.rg 46 46))
                          (.val true)
                          (.ite (.chr 21 (.rg 44 44))
                            (.val true)
                            (.ite (.chr 21 (.rg 47 47)) (.val true) (.ret false)))))))))))) ;;
        (.advc 21) ;;
        (.tok 20) ;;
        (.ret true))
       (.val true)) ;;
     (.val false))

/-- `run` (examples/oak-jasm/src/lexer/mod.rs:35-73). -/
def run_ : Code :=
  .scope 0
    (.loop 0 false .more
      ((.mark 1) ;;
       (.ite skipWhitespace .cont (.val true)) ;;
       (.ite lexNewline .cont (.val true)) ;;
       (.ite skipComment .cont (.val true)) ;;
       (.ite lexStringLiteral .cont (.val true)) ;;
       (.ite lexNumberLiteral .cont (.val true)) ;;
       (.ite lexIdentifierOrKeyword .cont (.val true)) ;;
       (.ite lexPunctuation .cont (.val true)) ;;
       (.guard 1)))

end Oaks.HandLex.Jasm
