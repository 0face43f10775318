import Verif.Model.LexCode

/-
The lexer of the example `oak-elm` as a program of Model/LexCode.lean, function by function in the order of
the calls. Kinds of tokens and messages are left out.
-/
namespace Oaks.HandLex.Elm

open Oaks.Lc

/-- `skip_whitespace` (examples/oak-elm/src/lexer/mod.rs:80-82). -/
def skipWhitespace : Code :=
  .scope 2
    (.space true)

/-- `skip_comment` (examples/oak-elm/src/lexer/mod.rs:84-86). -/
def skipComment : Code :=
  .scope 2
    (.comment ⟨['-', '-'], ['{', '-'], ['-', '}'], true⟩)

/-- `lex_string_literal` (examples/oak-elm/src/lexer/mod.rs:88-90). -/
def lexStringLiteral : Code :=
  .scope 2
    (.quoted ⟨['"'], some '\\'⟩)

/-- `lex_char_literal` (examples/oak-elm/src/lexer/mod.rs:92-94). -/
def lexCharLiteral : Code :=
  .scope 2
    (.quoted ⟨['\''], some '\\'⟩)

/-- `lex_number_literal` (examples/oak-elm/src/lexer/mod.rs:96-139). -/
def lexNumberLiteral : Code :=
  .scope 2
    ((.mark 2) ;;
     (.ite ((.look 3) ;; (.chr 3 (.rg 0 1114111))) (.val true) (.ret false)) ;;
     (.ite (.ite (.chr 3 (.rg 48 57)) (.val false) (.val true)) (.ret false) (.val true)) ;;
     (.put 4 0) ;;
     (.adv 1) ;;
     (.take (.or (.rg 48 57) (.rg 95 95))) ;;
     (.ite ((.look 5) ;; (.chr 5 (.rg 46 46)))
       ((.lookN 6 1) ;;
        (.ite (.chr 6 (.rg 48 57)) ((.put 4 1) ;; (.adv 1) ;; (.take (.or (.rg 48 57) (.rg 95 95)))) (.val true)))
       (.val true)) ;;
     (.ite ((.look 7) ;; (.chr 7 (.rg 0 1114111)))
       (.ite (.ite (.chr 7 (.rg 101 101)) (.val true) (.chr 7 (.rg 69 69)))
         ((.lookN 8 1) ;;
          (.ite (.ite (.ite (.chr 8 (.rg 43 43)) (.val true) (.chr 8 (.rg 45 45))) (.val true) (.chr 8 (.rg 48 57)))
            ((.put 4 1) ;;
             (.adv 1) ;;
             (.ite ((.look 9) ;; (.chr 9 (.rg 0 1114111)))
               (.ite (.ite (.chr 9 (.rg 43 43)) (.val true) (.chr 9 (.rg 45 45))) (.adv 1) (.val true))
               (.val true)) ;;
             (.take (.or (.rg 48 57) (.rg 95 95))))
            (.val true)))
         (.val true))
       (.val true)) ;;
     (.mark 10) ;;
     (.tokTo 2 10) ;;
     (.val true))

/-- `lex_identifier_or_keyword` (examples/oak-elm/src/lexer/mod.rs:141-174). -/
def lexIdentifierOrKeyword : Code :=
  .scope 11
    ((.mark 11) ;;
     (.ite ((.look 12) ;; (.chr 12 (.rg 0 1114111)))
       (.ite (.ite (.chr 12 .alpha) (.val true) (.chr 12 (.rg 95 95)))
         ((.advc 12) ;; (.take (.or .alnum (.rg 95 95))) ;; (.tok 11) ;; (.ret true))
         (.val true))
       (.val true)) ;;
     (.val false))

/-- `lex_operators` (examples/oak-elm/src/lexer/mod.rs:176-238). -/
def lexOperators : Code :=
  .scope 13
    ((.mark 13) ;;
     (.val true) ;;
     ((.ite (.ite (.starts ['=', '=']) ((.adv 2) ;; (.val true)) (.val false)) ((.tok 13) ;; (.ret true)) (.val true)) ;;
      (.ite (.ite (.starts ['/', '=']) ((.adv 2) ;; (.val true)) (.val false)) ((.tok 13) ;; (.ret true)) (.val true)) ;;
      (.ite (.ite (.starts ['<', '=']) ((.adv 2) ;; (.val true)) (.val false)) ((.tok 13) ;; (.ret true)) (.val true)) ;;
      (.ite (.ite (.starts ['>', '=']) ((.adv 2) ;; (.val true)) (.val false)) ((.tok 13) ;; (.ret true)) (.val true)) ;;
      (.ite (.ite (.starts ['&', '&']) ((.adv 2) ;; (.val true)) (.val false)) ((.tok 13) ;; (.ret true)) (.val true)) ;;
      (.ite (.ite (.starts ['|', '|']) ((.adv 2) ;; (.val true)) (.val false)) ((.tok 13) ;; (.ret true)) (.val true)) ;;
      (.ite (.ite (.starts ['+', '+']) ((.adv 2) ;; (.val true)) (.val false)) ((.tok 13) ;; (.ret true)) (.val true)) ;;
      (.ite (.ite (.starts ['<', '<']) ((.adv 2) ;; (.val true)) (.val false)) ((.tok 13) ;; (.ret true)) (.val true)) ;;
      (.ite (.ite (.starts ['>', '>']) ((.adv 2) ;; (.val true)) (.val false)) ((.tok 13) ;; (.ret true)) (.val true)) ;;
      (.ite (.ite (.starts ['|', '>']) ((.adv 2) ;; (.val true)) (.val false)) ((.tok 13) ;; (.ret true)) (.val true)) ;;
      (.ite (.ite (.starts ['-', '>']) ((.adv 2) ;; (.val true)) (.val false)) ((.tok 13) ;; (.ret true)) (.val true)) ;;
      (.ite (.ite (.starts ['.', '.', '.']) ((.adv 3) ;; (.val true)) (.val false))
        ((.tok 13) ;; (.ret true))
        (.val true)) ;;
      (.ite (.ite (.starts ['.', '.']) ((.adv 2) ;; (.val true)) (.val false)) ((.tok 13) ;; (.ret true)) (.val true)) ;;
      (.ite (.ite (.starts ['/', '/']) ((.adv 2) ;; (.val true)) (.val false)) ((.tok 13) ;; (.ret true)) (.val true))) ;;
     (.ite ((.look 15) ;; (.chr 15 (.rg 0 1114111)))
       ((.ite (.chr 15 (.rg 43 43))
          (.val true)
          (.ite (.chr 15 (.rg 45 45))
            (.val true)
            (.ite (.chr 15 (.rg 42 42))
              (.val true)
              (.ite (.chr 15 (.rg 47 47))
                (.val true)
                (.ite (.chr 15 (.rg 61 61))
                  (.val true)
                  (.ite (.chr 15 (.rg 60 60))
                    (.val true)
                    (.ite (.chr 15 (.rg 62 62))
                      (.val true)
                      (.ite (.chr 15 (.rg 94 94))
                        (.val true)
                        (.ite (.chr 15 (.rg 124 124))
                          (.val true)
                          (.ite (.chr 15 (.rg 40 40))
                            (.val true)
                            (.ite (.chr 15 (.rg 41 41))
                              (.val true)
                              (.ite (.chr 15 (.rg 123 123))
                                (.val true)
                                (.ite (.chr 15 (.rg 125 125))
                                  (.val true)
                                  (.ite (.chr 15 (.rg 91 91))
                                    (.val true)
                                    (.ite (.chr 15 (.rg 93 93))
                                      (.val true)
                                      (.ite (.chr 15 (.rg 44 44))
                                        (.val true)
                                        (.ite (.chr 15 (.rg 59 59))
                                          (.val true)
                                          (.ite (.chr 15 (.rg 46 46))
                                            (.val true)
                                            (.ite (.chr 15 (.rg 58 58))
                                              (.val true)
                                              (.ite (.chr 15 (.rg 92 92))
                                                (.val true)
                                                (.ite (.chr 15 (.rg 37 37))
                                                  (.val true)
                                                  (.ite (.chr 15 (.rg 10 10)) (.val true) (.ret false))))))))))))))))))))))) ;;
        (.advc 15) ;;
        (.tok 13) ;;
        (.ret true))
       (.val true)) ;;
     (.val false))

/-- `run` (examples/oak-elm/src/lexer/mod.rs:41-77). -/
def run_ : Code :=
  .scope 0
    (.loop 0 false .more
      ((.mark 1) ;;
       (.ite skipWhitespace .cont (.val true)) ;;
       (.ite skipComment .cont (.val true)) ;;
       (.ite lexStringLiteral .cont (.val true)) ;;
       (.ite lexCharLiteral .cont (.val true)) ;;
       (.ite lexNumberLiteral .cont (.val true)) ;;
       (.ite lexIdentifierOrKeyword .cont (.val true)) ;;
       (.ite lexOperators .cont (.val true)) ;;
       (.guard 1)))

end Oaks.HandLex.Elm
