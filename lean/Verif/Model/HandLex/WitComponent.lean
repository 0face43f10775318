import Verif.Model.LexCode

/-
The lexer of the example `oak-wit-component` as a program of Model/LexCode.lean, function by function in the order of
the calls. Kinds of tokens and messages are left out.
-/
namespace Oaks.HandLex.WitComponent

open Oaks.Lc

/-- `skip_whitespace` (examples/oak-wit-component/src/lexer/mod.rs:80-82). -/
def skipWhitespace : Code :=
  .scope 1
    (.space true)

/-- `skip_comment` (examples/oak-wit-component/src/lexer/mod.rs:84-86). -/
def skipComment : Code :=
  .scope 1
    (.comment ⟨['/', '/'], ['/', '*'], ['*', '/'], true⟩)

/-- `lex_string_literal` (examples/oak-wit-component/src/lexer/mod.rs:88-90). -/
def lexStringLiteral : Code :=
  .scope 1
    (.quoted ⟨['"'], some '\\'⟩)

/-- `lex_number_literal` (examples/oak-wit-component/src/lexer/mod.rs:92-113). `has_digits` is asked as: the position has
moved. -/
def lexNumberLiteral : Code :=
  .scope 1
    ((.mark 1) ;;
     (.loop 3 true ((.look 4) ;; (.chr 4 (.rg 0 1114111))) (.ite (.chr 4 (.rg 48 57)) (.adv 1) .brk)) ;;
     (.ite (.moved 1) ((.tok 1) ;; (.ret true)) (.val true)) ;;
     (.val false))

/-- `lex_identifier_or_keyword` (examples/oak-wit-component/src/lexer/mod.rs:115-184). -/
def lexIdentifierOrKeyword : Code :=
  .scope 5
    ((.mark 5) ;;
     (.ite ((.look 6) ;; (.chr 6 (.rg 0 1114111)))
       (.ite (.ite (.ite (.chr 6 (.or (.rg 65 90) (.rg 97 122))) (.val true) (.chr 6 (.rg 95 95)))
           (.val true)
           (.chr 6 (.rg 37 37)))
         ((.advc 6) ;;
          (.loop 7 true ((.look 8) ;; (.chr 8 (.rg 0 1114111)))
            (.ite (.ite (.ite (.chr 8 (.or (.or (.rg 48 57) (.rg 65 90)) (.rg 97 122))) (.val true) (.chr 8 (.rg 95 95)))
                (.val true)
                (.chr 8 (.rg 45 45)))
              (.advc 8)
              .brk)) ;;
          (.tok 5) ;;
          (.ret true))
         (.val true))
       (.val true)) ;;
     (.val false))

/-- `lex_punctuation` (examples/oak-wit-component/src/lexer/mod.rs:186-273). -/
def lexPunctuation : Code :=
  .scope 9
    ((.mark 9) ;;
     (.ite ((.look 10) ;; (.chr 10 (.rg 0 1114111)))
       ((.ite (.chr 10 (.rg 40 40))
          (.adv 1)
          (.ite (.chr 10 (.rg 41 41))
            (.adv 1)
            (.ite (.chr 10 (.rg 123 123))
              (.adv 1)
              (.ite (.chr 10 (.rg 125 125))
                (.adv 1)
                (.ite (.chr 10 (.rg 91 91))
                  (.adv 1)
                  (.ite (.chr 10 (.rg 93 93))
                    (.adv 1)
                    (.ite (.chr 10 (.rg 60 60))
                      (.adv 1)
                      (.ite (.chr 10 (.rg 62 62))
                        (.adv 1)
                        (.ite (.chr 10 (.rg 44 44))
                          (.adv 1)
                          (.ite (.chr 10 (.rg 59 59))
                            (.adv 1)
                            (.ite (.chr 10 (.rg 58 58))
                              (.adv 1)
                              (.ite (.chr 10 (.rg 61 61))
                                (.adv 1)
                                (.ite (.chr 10 (.rg 46 46))
                                  (.adv 1)
                                  (.ite (.chr 10 (.rg 42 42))
                                    (.adv 1)
                                    (.ite (.chr 10 (.rg 47 47))
                                      (.adv 1)
                                      (.ite (.chr 10 (.rg 64 64))
                                        (.adv 1)
                                        (.ite (.chr 10 (.rg 45 45))
                                          ((.adv 1) ;;
                                           (.ite ((.look 11) ;; (.chr 11 (.rg 62 62))) (.adv 1) (.val true)))
                                          (.ret false)))))))))))))))))) ;;
        (.tok 9) ;;
        (.ret true))
       (.val true)) ;;
     (.val false))

/-- `lex_text` (examples/oak-wit-component/src/lexer/mod.rs:275-285). -/
def lexText : Code :=
  .scope 12
    ((.mark 12) ;;
     (.ite ((.look 13) ;; (.chr 13 (.rg 0 1114111))) ((.advc 13) ;; (.tok 12) ;; (.ret true)) (.val true)) ;;
     (.val false))

/-- `run` (examples/oak-wit-component/src/lexer/mod.rs:36-78). -/
def run_ : Code :=
  .scope 0
    ((.loop 0 false .more
       ((.ite skipWhitespace .cont (.val true)) ;;
        (.ite skipComment .cont (.val true)) ;;
        (.ite lexStringLiteral .cont (.val true)) ;;
        (.ite lexNumberLiteral .cont (.val true)) ;;
        (.ite lexIdentifierOrKeyword .cont (.val true)) ;;
        (.ite lexPunctuation .cont (.val true)) ;;
        (.ite lexText .cont (.val true)) ;;
        (.mark 14) ;;
        (.ite ((.look 15) ;; (.chr 15 (.rg 0 1114111))) ((.advc 15) ;; (.tok 14)) (.val true)))) ;;
     (.mark 16) ;;
     (.tokTo 16 16))

end Oaks.HandLex.WitComponent
