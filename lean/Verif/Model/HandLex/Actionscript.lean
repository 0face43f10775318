import Verif.Model.LexCode

/-
The lexer of the example `oak-actionscript` as a program of Model/LexCode.lean, function by function in the order of
the calls. Kinds of tokens and messages are left out.
-/
namespace Oaks.HandLex.Actionscript

open Oaks.Lc

/-- `skip_whitespace` (examples/oak-actionscript/src/lexer/mod.rs:81-83). -/
def skipWhitespace : Code :=
  .scope 2
    (.space true)

/-- `skip_comment` (examples/oak-actionscript/src/lexer/mod.rs:85-87). -/
def skipComment : Code :=
  .scope 2
    (.comment ⟨['/', '/'], ['/', '*'], ['*', '/'], true⟩)

/-- `lex_string_literal` (examples/oak-actionscript/src/lexer/mod.rs:112-114). -/
def lexStringLiteral : Code :=
  .scope 2
    (.quoted ⟨['"'], some '\\'⟩)

/-- `lex_char_literal` (examples/oak-actionscript/src/lexer/mod.rs:116-118). -/
def lexCharLiteral : Code :=
  .scope 2
    (.quoted ⟨['\''], some '\\'⟩)

/-- `lex_number_literal` (examples/oak-actionscript/src/lexer/mod.rs:89-110). -/
def lexNumberLiteral : Code :=
  .scope 2
    ((.mark 2) ;;
     (.ite ((.look 3) ;; (.chr 3 (.rg 0 1114111))) (.val true) (.ret false)) ;;
     (.ite (.ite (.chr 3 (.rg 48 57)) (.val false) (.val true)) (.ret false) (.val true)) ;;
     (.advc 3) ;;
     (.loop 4 true ((.look 5) ;; (.chr 5 (.rg 0 1114111)))
       (.ite (.ite (.chr 5 (.rg 48 57)) (.val true) (.chr 5 (.rg 95 95))) (.advc 5) .brk)) ;;
     (.tok 2) ;;
     (.val true))

/-- `lex_identifier_or_keyword` (examples/oak-actionscript/src/lexer/mod.rs:120-186). -/
def lexIdentifierOrKeyword : Code :=
  .scope 6
    ((.mark 6) ;;
     (.ite ((.look 7) ;; (.chr 7 (.rg 0 1114111))) (.val true) (.ret false)) ;;
     (.ite (.ite (.ite (.ite (.chr 7 (.or (.rg 65 90) (.rg 97 122))) (.val false) (.val true))
           (.ite (.chr 7 (.rg 95 95)) (.val false) (.val true))
           (.val false))
         (.ite (.chr 7 (.rg 36 36)) (.val false) (.val true))
         (.val false))
       (.ret false)
       (.val true)) ;;
     (.advc 7) ;;
     (.loop 8 true ((.look 9) ;; (.chr 9 (.rg 0 1114111)))
       (.ite (.ite (.ite (.chr 9 (.or (.or (.rg 48 57) (.rg 65 90)) (.rg 97 122))) (.val true) (.chr 9 (.rg 95 95)))
           (.val true)
           (.chr 9 (.rg 36 36)))
         (.advc 9)
         .brk)) ;;
     (.mark 10) ;;
     (.val true) ;;
     (.val true) ;;
     (.tokTo 6 10) ;;
     (.val true))

/-- `lex_operator_or_delimiter` (examples/oak-actionscript/src/lexer/mod.rs:188-459). -/
def lexOperatorOrDelimiter : Code :=
  .scope 11
    ((.mark 11) ;;
     (.ite ((.look 12) ;; (.chr 12 (.rg 0 1114111))) (.val true) (.ret false)) ;;
     (.ite (.chr 12 (.rg 43 43))
       ((.adv 1) ;;
        (.look 29) ;;
        (.ite (.chr 29 (.rg 61 61)) (.adv 1) (.ite (.chr 29 (.rg 43 43)) (.adv 1) (.val true))))
       (.ite (.chr 12 (.rg 45 45))
         ((.adv 1) ;;
          (.look 28) ;;
          (.ite (.chr 28 (.rg 61 61))
            (.adv 1)
            (.ite (.chr 28 (.rg 45 45)) (.adv 1) (.ite (.chr 28 (.rg 62 62)) (.adv 1) (.val true)))))
         (.ite (.chr 12 (.rg 42 42))
           ((.adv 1) ;; (.look 27) ;; (.ite (.chr 27 (.rg 61 61)) (.adv 1) (.val true)))
           (.ite (.chr 12 (.rg 47 47))
             ((.adv 1) ;; (.look 26) ;; (.ite (.chr 26 (.rg 61 61)) (.adv 1) (.val true)))
             (.ite (.chr 12 (.rg 37 37))
               ((.adv 1) ;; (.look 25) ;; (.ite (.chr 25 (.rg 61 61)) (.adv 1) (.val true)))
               (.ite (.chr 12 (.rg 61 61))
                 ((.adv 1) ;;
                  (.look 23) ;;
                  (.ite (.chr 23 (.rg 61 61))
                    ((.adv 1) ;; (.look 24) ;; (.ite (.chr 24 (.rg 61 61)) (.adv 1) (.val true)))
                    (.val true)))
                 (.ite (.chr 12 (.rg 33 33))
                   ((.adv 1) ;;
                    (.look 21) ;;
                    (.ite (.chr 21 (.rg 61 61))
                      ((.adv 1) ;; (.look 22) ;; (.ite (.chr 22 (.rg 61 61)) (.adv 1) (.val true)))
                      (.val true)))
                   (.ite (.chr 12 (.rg 60 60))
                     ((.adv 1) ;;
                      (.look 19) ;;
                      (.ite (.chr 19 (.rg 60 60))
                        ((.adv 1) ;; (.look 20) ;; (.ite (.chr 20 (.rg 61 61)) (.adv 1) (.val true)))
                        (.ite (.chr 19 (.rg 61 61)) (.adv 1) (.val true))))
                     (.ite (.chr 12 (.rg 62 62))
                       ((.adv 1) ;;
                        (.look 16) ;;
                        (.ite (.chr 16 (.rg 62 62))
                          ((.adv 1) ;;
                           (.look 17) ;;
                           (.ite (.chr 17 (.rg 62 62))
                             ((.adv 1) ;; (.look 18) ;; (.ite (.chr 18 (.rg 61 61)) (.adv 1) (.val true)))
                             (.ite (.chr 17 (.rg 61 61)) (.adv 1) (.val true))))
                          (.ite (.chr 16 (.rg 61 61)) (.adv 1) (.val true))))
                       (.ite (.chr 12 (.rg 38 38))
                         ((.adv 1) ;;
                          (.look 15) ;;
                          (.ite (.chr 15 (.rg 38 38)) (.adv 1) (.ite (.chr 15 (.rg 61 61)) (.adv 1) (.val true))))
                         (.ite (.chr 12 (.rg 124 124))
                           ((.adv 1) ;;
                            (.look 14) ;;
                            (.ite (.chr 14 (.rg 124 124)) (.adv 1) (.ite (.chr 14 (.rg 61 61)) (.adv 1) (.val true))))
                           (.ite (.chr 12 (.rg 94 94))
                             ((.adv 1) ;; (.look 13) ;; (.ite (.chr 13 (.rg 61 61)) (.adv 1) (.val true)))
                             (.ite (.chr 12 (.rg 126 126))
                               (.adv 1)
                               (.ite (.chr 12 (.rg 63 63))
                                 (.adv 1)
                                 (.ite (.chr 12 (.rg 58 58))
                                   (.adv 1)
                                   (.ite (.chr 12 (.rg 46 46))
                                     (.adv 1)
                                     (.ite (.chr 12 (.rg 40 40))
                                       (.adv 1)
                                       (.ite (.chr 12 (.rg 41 41))
                                         (.adv 1)
                                         (.ite (.chr 12 (.rg 123 123))
                                           (.adv 1)
                                           (.ite (.chr 12 (.rg 125 125))
                                             (.adv 1)
                                             (.ite (.chr 12 (.rg 91 91))
                                               (.adv 1)
                                               (.ite (.chr 12 (.rg 93 93))
                                                 (.adv 1)
                                                 (.ite (.chr 12 (.rg 59 59))
                                                   (.adv 1)
                                                   (.ite (.chr 12 (.rg 44 44))
                                                     (.adv 1)
                                                     (.ite (.chr 12 (.rg 64 64))
                                                       (.adv 1)
                                                       (.ite (.chr 12 (.rg 35 35))
                                                         (.adv 1)
                                                         (.ite (.chr 12 (.rg 36 36))
                                                           (.adv 1)
                                                           (.ite (.chr 12 (.rg 92 92))
                                                             (.adv 1)
                                                             (.ite (.chr 12 (.rg 39 39))
                                                               (.adv 1)
                                                               (.ite (.chr 12 (.rg 34 34))
                                                                 (.adv 1)
                                                                 (.ite (.chr 12 (.rg 96 96)) (.adv 1) (.ret false)))))))))))))))))))))))))))))))) ;;
     (.tok 11) ;;
     (.val true))

/-- `run` (examples/oak-actionscript/src/lexer/mod.rs:43-78). -/
def run_ : Code :=
  .scope 0
    (.loop 0 false .more
      ((.mark 1) ;;
       (.ite skipWhitespace .cont (.val true)) ;;
       (.ite skipComment .cont (.val true)) ;;
       (.ite lexStringLiteral .cont (.val true)) ;;
       (.ite lexCharLiteral .cont (.val true)) ;;
       (.ite lexNumberLiteral .cont (.val true)) ;;
       (.ite lexIdentifierOrKeyword .cont (.val true)) ;;
       (.ite lexOperatorOrDelimiter .cont (.val true)) ;;
       (.guard 1)))

end Oaks.HandLex.Actionscript
