import Verif.Model.LexCode

/-
The lexer of the example `oak-clojure` as a program of Model/LexCode.lean, function by function in the order of
the calls. Kinds of tokens and messages are left out.
-/
namespace Oaks.HandLex.Clojure

open Oaks.Lc

/-- `lex_whitespace` (examples/oak-clojure/src/lexer/mod.rs:100-106). -/
def lexWhitespace : Code :=
  .scope 28
    ((.mark 28) ;;
     (.loop 29 true ((.look 30) ;; (.chr 30 (.rg 0 1114111))) (.ite (.chr 30 .white) (.advc 30) .brk)) ;;
     (.tok 28))

/-- `lex_comment` (examples/oak-clojure/src/lexer/mod.rs:108-120). -/
def lexComment : Code :=
  .scope 25
    ((.mark 25) ;;
     (.adv 1) ;;
     (.loop 26 true ((.look 27) ;; (.chr 27 (.rg 0 1114111)))
       ((.ite (.chr 27 (.rg 10 10)) .brk (.val true)) ;; (.advc 27))) ;;
     (.tok 25))

/-- `lex_string` (examples/oak-clojure/src/lexer/mod.rs:122-143). -/
def lexString : Code :=
  .scope 21
    ((.mark 21) ;;
     (.adv 1) ;;
     (.loop 22 true ((.look 23) ;; (.chr 23 (.rg 0 1114111)))
       (.ite (.chr 23 (.rg 34 34))
         ((.adv 1) ;; .brk)
         (.ite (.chr 23 (.rg 92 92))
           ((.adv 1) ;; (.ite ((.look 24) ;; (.chr 24 (.rg 0 1114111))) (.advc 24) (.val true)))
           (.advc 23)))) ;;
     (.tok 21))

/-- `lex_character` (examples/oak-clojure/src/lexer/mod.rs:145-154). -/
def lexCharacter : Code :=
  .scope 19
    ((.mark 19) ;; (.adv 1) ;; (.ite ((.look 20) ;; (.chr 20 (.rg 0 1114111))) (.advc 20) (.val true)) ;; (.tok 19))

/-- `lex_number` (examples/oak-clojure/src/lexer/mod.rs:156-164). -/
def lexNumber : Code :=
  .scope 16
    ((.mark 16) ;;
     (.loop 17 true ((.look 18) ;; (.chr 18 (.rg 0 1114111)))
       (.ite (.ite (.chr 18 (.rg 48 57)) (.val true) (.chr 18 (.rg 46 46))) (.adv 1) .brk)) ;;
     (.tok 16))

/-- `lex_keyword` (examples/oak-clojure/src/lexer/mod.rs:166-175). -/
def lexKeyword : Code :=
  .scope 13
    ((.mark 13) ;;
     (.adv 1) ;;
     (.loop 14 true ((.look 15) ;; (.chr 15 (.rg 0 1114111)))
       (.ite (.ite (.ite (.ite (.ite (.chr 15 .alnum) (.val true) (.chr 15 (.rg 45 45))) (.val true) (.chr 15 (.rg 95 95)))
             (.val true)
             (.chr 15 (.rg 63 63)))
           (.val true)
           (.chr 15 (.rg 33 33)))
         (.advc 15)
         .brk)) ;;
     (.tok 13))

/-- `lex_regex` (examples/oak-clojure/src/lexer/mod.rs:195-215). -/
def lexRegex : Code :=
  .scope 10
    ((.adv 1) ;;
     (.loop 10 true ((.look 11) ;; (.chr 11 (.rg 0 1114111)))
       (.ite (.chr 11 (.rg 34 34))
         ((.adv 1) ;; .brk)
         (.ite (.chr 11 (.rg 92 92))
           ((.adv 1) ;; (.ite ((.look 12) ;; (.chr 12 (.rg 0 1114111))) (.advc 12) (.val true)))
           (.advc 11)))) ;;
     (.tok 8))

/-- `lex_dispatch` (examples/oak-clojure/src/lexer/mod.rs:177-193). -/
def lexDispatch : Code :=
  .scope 8
    ((.mark 8) ;;
     (.adv 1) ;;
     (.look 9) ;;
     (.ite (.chr 9 (.rg 123 123))
       ((.adv 1) ;; (.tok 8))
       (.ite (.chr 9 (.rg 40 40)) ((.adv 1) ;; (.tok 8)) (.ite (.chr 9 (.rg 34 34)) lexRegex (.tok 8)))))

/-- `lex_symbol` (examples/oak-clojure/src/lexer/mod.rs:217-225). -/
def lexSymbol : Code :=
  .scope 4
    ((.mark 4) ;;
     (.loop 5 true ((.look 6) ;; (.chr 6 (.rg 0 1114111)))
       (.ite (.ite (.ite (.ite (.ite (.ite (.ite (.ite (.chr 6 .alnum) (.val true) (.chr 6 (.rg 45 45))) (.val true) (.chr 6 (.rg 95 95)))
                   (.val true)
                   (.chr 6 (.rg 63 63)))
                 (.val true)
                 (.chr 6 (.rg 33 33)))
               (.val true)
               (.chr 6 (.rg 42 42)))
             (.val true)
             (.chr 6 (.rg 43 43)))
           (.val true)
           (.chr 6 (.rg 47 47)))
         (.advc 6)
         .brk)) ;;
     (.tok 4))

/-- `run` (examples/oak-clojure/src/lexer/mod.rs:34-96). -/
def run_ : Code :=
  .scope 0
    (.loop 0 false .more
      ((.mark 1) ;;
       (.copy 2 1) ;;
       (.look 3) ;;
       (.ite (.ite (.chr 3 (.rg 0 1114111)) (.chr 3 .white) (.val false))
         lexWhitespace
         (.ite (.chr 3 (.rg 59 59))
           lexComment
           (.ite (.chr 3 (.rg 34 34))
             lexString
             (.ite (.chr 3 (.rg 92 92))
               lexCharacter
               (.ite (.ite (.chr 3 (.rg 0 1114111)) (.chr 3 (.rg 48 57)) (.val false))
                 lexNumber
                 (.ite (.chr 3 (.rg 58 58))
                   lexKeyword
                   (.ite (.chr 3 (.rg 35 35))
                     lexDispatch
                     (.ite (.chr 3 (.rg 40 40))
                       ((.adv 1) ;; (.tok 1))
                       (.ite (.chr 3 (.rg 41 41))
                         ((.adv 1) ;; (.tok 1))
                         (.ite (.chr 3 (.rg 91 91))
                           ((.adv 1) ;; (.tok 1))
                           (.ite (.chr 3 (.rg 93 93))
                             ((.adv 1) ;; (.tok 1))
                             (.ite (.chr 3 (.rg 123 123))
                               ((.adv 1) ;; (.tok 1))
                               (.ite (.chr 3 (.rg 125 125))
                                 ((.adv 1) ;; (.tok 1))
                                 (.ite (.chr 3 (.or (.rg 39 39) (.rg 96 96)))
                                   ((.adv 1) ;; (.tok 1))
                                   (.ite (.chr 3 (.rg 126 126))
                                     ((.adv 1) ;;
                                      (.ite ((.look 7) ;; (.chr 7 (.rg 8623 8623))) ((.adv 1) ;; (.tok 1)) (.tok 1)))
                                     (.ite (.chr 3 (.rg 94 94))
                                       ((.adv 1) ;; (.tok 1))
                                       (.ite (.chr 3 (.rg 0 1114111))
                                         lexSymbol
                                         (.ite (.ite (.chr 3 (.rg 0 1114111)) (.val false) (.val true))
                                           .brk
                                           (.val false))))))))))))))))))) ;;
       (.guard 2)))

end Oaks.HandLex.Clojure
