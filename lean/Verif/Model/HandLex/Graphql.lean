import Verif.Model.LexCode

/-
The lexer of the example `oak-graphql` as a program of Model/LexCode.lean, function by function in the order of
the calls. Kinds of tokens and messages are left out.
-/
namespace Oaks.HandLex.Graphql

open Oaks.Lc

/-- `skip_whitespace` (examples/oak-graphql/src/lexer/mod.rs:78-80). -/
def skipWhitespace : Code :=
  .scope 2
    (.space true)

/-- `skip_comment` (examples/oak-graphql/src/lexer/mod.rs:83-85). -/
def skipComment : Code :=
  .scope 2
    (.comment ⟨['#'], [], [], false⟩)

/-- `lex_string_literal` (examples/oak-graphql/src/lexer/mod.rs:88-115). -/
def lexStringLiteral : Code :=
  .scope 2
    ((.ite (.quoted ⟨['"'], some '\\'⟩) (.ret true) (.val true)) ;;
     (.ite (.starts ['"', '"', '"'])
       ((.mark 2) ;;
        (.adv 3) ;;
        (.loop 3 true .more
          ((.ite (.starts ['"', '"', '"']) ((.adv 3) ;; .brk) (.val true)) ;;
           (.ite ((.look 4) ;; (.chr 4 (.rg 0 1114111))) (.advc 4) (.val true)))) ;;
        (.mark 5) ;;
        (.tokTo 2 5) ;;
        (.ret true))
       (.val true)) ;;
     (.val false))

/-- `lex_number_literal` (examples/oak-graphql/src/lexer/mod.rs:118-199). -/
def lexNumberLiteral : Code :=
  .scope 6
    ((.mark 6) ;;
     (.put 7 0) ;;
     (.put 8 0) ;;
     (.ite (.starts ['-']) (.adv 1) (.val true)) ;;
     (.ite (.starts ['0'])
       ((.adv 1) ;; (.put 7 1))
       (.loop 9 true ((.look 10) ;; (.chr 10 (.rg 0 1114111)))
         (.ite (.chr 10 (.rg 48 57)) ((.advc 10) ;; (.put 7 1)) .brk))) ;;
     (.ite (.ite (.starts ['.']) (.flag 7) (.val false))
       (.ite ((.lookN 11 1) ;; (.chr 11 (.rg 0 1114111)))
         (.ite (.chr 11 (.rg 48 57))
           ((.adv 1) ;;
            (.put 8 1) ;;
            (.loop 12 true ((.look 13) ;; (.chr 13 (.rg 0 1114111))) (.ite (.chr 13 (.rg 48 57)) (.advc 13) .brk)))
           (.val true))
         (.val true))
       (.val true)) ;;
     (.ite (.ite (.ite (.starts ['e']) (.val true) (.starts ['E'])) (.flag 7) (.val false))
       ((.adv 1) ;;
        (.put 8 1) ;;
        (.ite (.ite (.starts ['+']) (.val true) (.starts ['-'])) (.adv 1) (.val true)) ;;
        (.put 14 0) ;;
        (.loop 15 true ((.look 16) ;; (.chr 16 (.rg 0 1114111)))
          (.ite (.chr 16 (.rg 48 57)) ((.advc 16) ;; (.put 14 1)) .brk)) ;;
        (.ite (.ite (.flag 14) (.val false) (.val true)) (.ret false) (.val true)))
       (.val true)) ;;
     (.ite (.ite (.flag 7) (.val false) (.val true)) (.ret false) (.val true)) ;;
     (.val true) ;;
     (.tok 6) ;;
     (.val true))

/-- `lex_identifier_or_keyword` (examples/oak-graphql/src/lexer/mod.rs:202-232). -/
def lexIdentifierOrKeyword : Code :=
  .scope 17
    ((.mark 17) ;;
     (.ite ((.look 18) ;; (.chr 18 (.rg 0 1114111)))
       ((.ite (.ite (.ite (.chr 18 .alpha) (.val false) (.val true))
            (.ite (.chr 18 (.rg 95 95)) (.val false) (.val true))
            (.val false))
          (.ret false)
          (.val true)) ;;
        (.advc 18) ;;
        (.loop 19 true ((.look 20) ;; (.chr 20 (.rg 0 1114111)))
          (.ite (.ite (.chr 20 .alnum) (.val true) (.chr 20 (.rg 95 95))) (.advc 20) .brk)) ;;
        (.mark 21) ;;
        (.val true) ;;
        (.val true) ;;
        (.tokTo 17 21) ;;
        (.val true))
       (.val false)))

/-- `lex_operators` (examples/oak-graphql/src/lexer/mod.rs:265-276). -/
def lexOperators : Code :=
  .scope 22
    ((.mark 22) ;;
     (.ite (.starts ['.', '.', '.']) ((.adv 3) ;; (.tok 22) ;; (.ret true)) (.val true)) ;;
     (.val false))

/-- `lex_single_char_tokens` (examples/oak-graphql/src/lexer/mod.rs:279-314). -/
def lexSingleCharTokens : Code :=
  .scope 23
    (.ite ((.look 23) ;; (.chr 23 (.rg 0 1114111)))
      ((.mark 24) ;;
       (.ite (.chr 23 (.rg 40 40))
         (.put 25 1)
         (.ite (.chr 23 (.rg 41 41))
           (.put 25 1)
           (.ite (.chr 23 (.rg 91 91))
             (.put 25 1)
             (.ite (.chr 23 (.rg 93 93))
               (.put 25 1)
               (.ite (.chr 23 (.rg 123 123))
                 (.put 25 1)
                 (.ite (.chr 23 (.rg 125 125))
                   (.put 25 1)
                   (.ite (.chr 23 (.rg 44 44))
                     (.put 25 1)
                     (.ite (.chr 23 (.rg 58 58))
                       (.put 25 1)
                       (.ite (.chr 23 (.rg 59 59))
                         (.put 25 1)
                         (.ite (.chr 23 (.rg 124 124))
                           (.put 25 1)
                           (.ite (.chr 23 (.rg 38 38))
                             (.put 25 1)
                             (.ite (.chr 23 (.rg 61 61))
                               (.put 25 1)
                               (.ite (.chr 23 (.rg 33 33))
                                 (.put 25 1)
                                 (.ite (.chr 23 (.rg 64 64))
                                   (.put 25 1)
                                   (.ite (.chr 23 (.rg 36 36)) (.put 25 1) (.put 25 0)))))))))))))))) ;;
       (.ite (.flag 25) ((.advc 23) ;; (.mark 26) ;; (.tokTo 24 26) ;; (.val true)) (.val false)))
      (.val false))

/-- `run` (examples/oak-graphql/src/lexer/mod.rs:39-75). -/
def run_ : Code :=
  .scope 0
    (.loop 0 false .more
      ((.mark 1) ;;
       (.ite skipWhitespace .cont (.val true)) ;;
       (.ite skipComment .cont (.val true)) ;;
       (.ite lexStringLiteral .cont (.val true)) ;;
       (.ite lexNumberLiteral .cont (.val true)) ;;
       (.ite lexIdentifierOrKeyword .cont (.val true)) ;;
       (.ite lexOperators .cont (.val true)) ;;
       (.ite lexSingleCharTokens .cont (.val true)) ;;
       (.guard 1)))

end Oaks.HandLex.Graphql
