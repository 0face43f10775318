import Verif.Model.LexCode

/-
The lexer of the example `oak-wat` as a program of Model/LexCode.lean, function by function in the order of
the calls. Kinds of tokens and messages are left out.
-/
namespace Oaks.HandLex.Wat

open Oaks.Lc

/-- `skip_whitespace` (examples/oak-wat/src/lexer/mod.rs:74-76). -/
def skipWhitespace : Code :=
  .scope 2
    (.space true)

/-- `skip_comment` (examples/oak-wat/src/lexer/mod.rs:79-81). -/
def skipComment : Code :=
  .scope 2
    (.comment ⟨[';', ';'], ['(', ';'], [')'], true⟩)

/-- `lex_string_literal` (examples/oak-wat/src/lexer/mod.rs:84-86). -/
def lexStringLiteral : Code :=
  .scope 2
    (.quoted ⟨['"'], some '\\'⟩)

/-- `lex_number_literal` (examples/oak-wat/src/lexer/mod.rs:89-116). -/
def lexNumberLiteral : Code :=
  .scope 2
    ((.mark 2) ;;
     (.ite ((.look 3) ;; (.chr 3 (.rg 0 1114111)))
       (.ite (.ite (.ite (.chr 3 (.rg 48 57)) (.val true) (.chr 3 (.rg 45 45))) (.val true) (.chr 3 (.rg 43 43)))
         ((.look 4) ;;
          (.ite (.chr 4 (.rg 0 1114111)) (.advc 4) (.val true)) ;;
          (.put 5 0) ;;
          (.loop 6 true ((.look 7) ;; (.chr 7 (.rg 0 1114111)))
            (.ite (.ite (.chr 7 (.rg 48 57)) (.val true) (.chr 7 (.rg 95 95)))
              ((.look 10) ;; (.ite (.chr 10 (.rg 0 1114111)) (.advc 10) (.val true)))
              (.ite (.chr 7 (.rg 46 46))
                ((.put 5 1) ;; (.look 9) ;; (.ite (.chr 9 (.rg 0 1114111)) (.advc 9) (.val true)))
                (.ite (.ite (.ite (.ite (.ite (.ite (.ite (.ite (.chr 7 (.rg 101 101)) (.val true) (.chr 7 (.rg 69 69)))
                              (.val true)
                              (.chr 7 (.rg 112 112)))
                            (.val true)
                            (.chr 7 (.rg 80 80)))
                          (.val true)
                          (.chr 7 (.rg 120 120)))
                        (.val true)
                        (.chr 7 (.rg 88 88)))
                      (.val true)
                      (.ite (.chr 7 (.rg 97 1114111)) (.chr 7 (.rg 0 102)) (.val false)))
                    (.val true)
                    (.ite (.chr 7 (.rg 65 1114111)) (.chr 7 (.rg 0 70)) (.val false)))
                  ((.look 8) ;; (.ite (.chr 8 (.rg 0 1114111)) (.advc 8) (.val true)))
                  .brk)))) ;;
          (.tok 2) ;;
          (.ret true))
         (.val true))
       (.val true)) ;;
     (.val false))

/-- `lex_identifier_or_keyword` (examples/oak-wat/src/lexer/mod.rs:119-220). -/
def lexIdentifierOrKeyword : Code :=
  .scope 11
    ((.mark 11) ;;
     (.ite ((.look 12) ;; (.chr 12 (.rg 0 1114111)))
       (.ite (.ite (.ite (.chr 12 (.rg 36 36)) (.val true) (.chr 12 (.or (.rg 65 90) (.rg 97 122))))
           (.val true)
           (.chr 12 (.rg 95 95)))
         ((.look 13) ;;
          (.ite (.chr 13 (.rg 0 1114111)) (.advc 13) (.val true)) ;;
          (.loop 14 true ((.look 15) ;; (.chr 15 (.rg 0 1114111)))
            (.ite (.ite (.ite (.ite (.ite (.chr 15 (.or (.or (.rg 48 57) (.rg 65 90)) (.rg 97 122)))
                      (.val true)
                      (.chr 15 (.rg 95 95)))
                    (.val true)
                    (.chr 15 (.rg 46 46)))
                  (.val true)
                  (.chr 15 (.rg 36 36)))
                (.val true)
                (.chr 15 (.rg 45 45)))
              ((.look 16) ;; (.ite (.chr 16 (.rg 0 1114111)) (.advc 16) (.val true)))
              .brk)) ;;
          (.mark 17) ;;
          (.tokTo 11 17) ;;
          (.ret true))
         (.val true))
       (.val true)) ;;
     (.val false))

/-- `lex_punctuation` (examples/oak-wat/src/lexer/mod.rs:223-240). -/
def lexPunctuation : Code :=
  .scope 18
    ((.mark 18) ;;
     (.ite ((.look 19) ;; (.chr 19 (.rg 0 1114111)))
       ((.ite (.chr 19 (.rg 40 40))
          (.put 20 1)
          (.ite (.chr 19 (.rg 41 41)) (.put 20 1) (.ite (.chr 19 (.rg 61 61)) (.put 20 1) (.put 20 0)))) ;;
        (.ite (.flag 20)
          ((.look 21) ;; (.ite (.chr 21 (.rg 0 1114111)) (.advc 21) (.val true)) ;; (.tok 18) ;; (.ret true))
          (.val true)))
       (.val true)) ;;
     (.val false))

/-- `lex_text` (examples/oak-wat/src/lexer/mod.rs:243-253). -/
def lexText : Code :=
  .scope 22
    ((.mark 22) ;;
     (.ite ((.look 23) ;; (.chr 23 (.rg 0 1114111)))
       (((.look 24) ;; (.ite (.chr 24 (.rg 0 1114111)) (.advc 24) (.val true))) ;; (.tok 22) ;; (.val true))
       (.val false)))

/-- `run` (examples/oak-wat/src/lexer/mod.rs:36-71). -/
def run_ : Code :=
  .scope 0
    (.loop 0 false .more
      ((.mark 1) ;;
       (.ite skipWhitespace .cont (.val true)) ;;
       (.ite skipComment .cont (.val true)) ;;
       (.ite lexStringLiteral .cont (.val true)) ;;
       (.ite lexNumberLiteral .cont (.val true)) ;;
       (.ite lexIdentifierOrKeyword .cont (.val true)) ;;
       (.ite lexPunctuation .cont (.val true)) ;;
       (.ite lexText .cont (.val true)) ;;
       (.guard 1)))

end Oaks.HandLex.Wat
