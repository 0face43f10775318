import Verif.Model.LexCode

/-
The lexer of the example `oak-sql` as a program of Model/LexCode.lean, function by function in the order of
the calls. Kinds of tokens and messages are left out.
-/
namespace Oaks.HandLex.Sql

open Oaks.Lc

/-- `skip_whitespace` (examples/oak-sql/src/lexer/mod.rs:116-119). -/
def skipWhitespace : Code :=
  .scope 46
    ((.space true) ;; (.val true))

/-- `lex_newline` (examples/oak-sql/src/lexer/mod.rs:95-114). -/
def lexNewline : Code :=
  .scope 42
    ((.mark 42) ;;
     (.ite ((.look 45) ;; (.chr 45 (.rg 10 10)))
       ((.adv 1) ;; (.tok 42) ;; (.val true))
       (.ite ((.look 43) ;; (.chr 43 (.rg 13 13)))
         ((.adv 1) ;; (.ite ((.look 44) ;; (.chr 44 (.rg 10 10))) (.adv 1) (.val true)) ;; (.tok 42) ;; (.val true))
         (.val false))))

/-- `skip_comment` (examples/oak-sql/src/lexer/mod.rs:121-149). -/
def skipComment : Code :=
  .scope 39
    ((.mark 39) ;;
     (.ite (.starts ['-', '-'])
       ((.adv 2) ;; (.take (.and (.not (.rg 10 10)) (.not (.rg 13 13)))) ;; (.tok 39) ;; (.ret true))
       (.val true)) ;;
     (.ite (.starts ['/', '*'])
       ((.adv 2) ;;
        (.loop 40 true .more
          ((.ite (.starts ['*', '/']) ((.adv 2) ;; .brk) (.val true)) ;;
           (.ite ((.look 41) ;; (.chr 41 (.rg 0 1114111))) (.advc 41) (.val true)))) ;;
        (.tok 39) ;;
        (.ret true))
       (.val true)) ;;
     (.val false))

/-- `lex_operators` (examples/oak-sql/src/lexer/mod.rs:349-376). -/
def lexOperators : Code :=
  .scope 37
    ((.mark 37) ;;
     (.val true) ;;
     ((.ite (.starts ['<', '=']) ((.adv 2) ;; (.tok 37) ;; (.ret true)) (.val true)) ;;
      (.ite (.starts ['>', '=']) ((.adv 2) ;; (.tok 37) ;; (.ret true)) (.val true)) ;;
      (.ite (.starts ['<', '>']) ((.adv 2) ;; (.tok 37) ;; (.ret true)) (.val true)) ;;
      (.ite (.starts ['!', '=']) ((.adv 2) ;; (.tok 37) ;; (.ret true)) (.val true)) ;;
      (.ite (.starts ['=']) ((.adv 1) ;; (.tok 37) ;; (.ret true)) (.val true)) ;;
      (.ite (.starts ['<']) ((.adv 1) ;; (.tok 37) ;; (.ret true)) (.val true)) ;;
      (.ite (.starts ['>']) ((.adv 1) ;; (.tok 37) ;; (.ret true)) (.val true)) ;;
      (.ite (.starts ['+']) ((.adv 1) ;; (.tok 37) ;; (.ret true)) (.val true)) ;;
      (.ite (.starts ['-']) ((.adv 1) ;; (.tok 37) ;; (.ret true)) (.val true)) ;;
      (.ite (.starts ['*']) ((.adv 1) ;; (.tok 37) ;; (.ret true)) (.val true)) ;;
      (.ite (.starts ['/']) ((.adv 1) ;; (.tok 37) ;; (.ret true)) (.val true)) ;;
      (.ite (.starts ['%']) ((.adv 1) ;; (.tok 37) ;; (.ret true)) (.val true))) ;;
     (.val false))

/-- `skip_comment` (examples/oak-sql/src/lexer/mod.rs:121-149). -/
def skipComment2 : Code :=
  .scope 34
    ((.mark 34) ;;
     (.ite (.starts ['-', '-'])
       ((.adv 2) ;; (.take (.and (.not (.rg 10 10)) (.not (.rg 13 13)))) ;; (.tok 34) ;; (.ret true))
       (.val true)) ;;
     (.ite (.starts ['/', '*'])
       ((.adv 2) ;;
        (.loop 35 true .more
          ((.ite (.starts ['*', '/']) ((.adv 2) ;; .brk) (.val true)) ;;
           (.ite ((.look 36) ;; (.chr 36 (.rg 0 1114111))) (.advc 36) (.val true)))) ;;
        (.tok 34) ;;
        (.ret true))
       (.val true)) ;;
     (.val false))

/-- `lex_operators` (examples/oak-sql/src/lexer/mod.rs:349-376). -/
def lexOperators2 : Code :=
  .scope 32
    ((.mark 32) ;;
     (.val true) ;;
     ((.ite (.starts ['<', '=']) ((.adv 2) ;; (.tok 32) ;; (.ret true)) (.val true)) ;;
      (.ite (.starts ['>', '=']) ((.adv 2) ;; (.tok 32) ;; (.ret true)) (.val true)) ;;
      (.ite (.starts ['<', '>']) ((.adv 2) ;; (.tok 32) ;; (.ret true)) (.val true)) ;;
      (.ite (.starts ['!', '=']) ((.adv 2) ;; (.tok 32) ;; (.ret true)) (.val true)) ;;
      (.ite (.starts ['=']) ((.adv 1) ;; (.tok 32) ;; (.ret true)) (.val true)) ;;
      (.ite (.starts ['<']) ((.adv 1) ;; (.tok 32) ;; (.ret true)) (.val true)) ;;
      (.ite (.starts ['>']) ((.adv 1) ;; (.tok 32) ;; (.ret true)) (.val true)) ;;
      (.ite (.starts ['+']) ((.adv 1) ;; (.tok 32) ;; (.ret true)) (.val true)) ;;
      (.ite (.starts ['-']) ((.adv 1) ;; (.tok 32) ;; (.ret true)) (.val true)) ;;
      (.ite (.starts ['*']) ((.adv 1) ;; (.tok 32) ;; (.ret true)) (.val true)) ;;
      (.ite (.starts ['/']) ((.adv 1) ;; (.tok 32) ;; (.ret true)) (.val true)) ;;
      (.ite (.starts ['%']) ((.adv 1) ;; (.tok 32) ;; (.ret true)) (.val true))) ;;
     (.val false))

/-- `lex_string_literal` (examples/oak-sql/src/lexer/mod.rs:151-188). -/
def lexStringLiteral : Code :=
  .scope 27
    ((.mark 27) ;;
     (.ite ((.look 28) ;; (.chr 28 (.rg 0 1114111)))
       ((.ite (.ite (.ite (.chr 28 (.rg 39 39)) (.val false) (.val true))
            (.ite (.chr 28 (.rg 34 34)) (.val false) (.val true))
            (.val false))
          (.ret false)
          (.val true)) ;;
        (.adv 1) ;;
        (.put 29 0) ;;
        (.loop 30 true .more
          ((.ite ((.look 31) ;; (.chr 31 (.rg 0 1114111))) (.val true) .brk) ;;
           (.ite (.ite (.same 31 28) (.ite (.flag 29) (.val false) (.val true)) (.val false))
             ((.adv 1) ;; .brk)
             (.val true)) ;;
           (.advc 31) ;;
           (.ite (.flag 29) ((.put 29 0) ;; .cont) (.val true)) ;;
           (.ite (.chr 31 (.rg 92 92)) ((.put 29 1) ;; .cont) (.val true)) ;;
           (.ite (.ite (.chr 31 (.rg 10 10)) (.val true) (.chr 31 (.rg 13 13))) .brk (.val true)))) ;;
        (.tok 27) ;;
        (.val true))
       (.val false)))

/-- `lex_number_literal` (examples/oak-sql/src/lexer/mod.rs:190-258). -/
def lexNumberLiteral : Code :=
  .scope 12
    ((.mark 12) ;;
     (.ite ((.look 13) ;; (.chr 13 (.rg 0 1114111))) (.val true) (.ret false)) ;;
     (.ite (.ite (.chr 13 (.rg 48 57)) (.val false) (.val true)) (.ret false) (.val true)) ;;
     (.put 14 0) ;;
     (.adv 1) ;;
     (.loop 15 true ((.look 16) ;; (.chr 16 (.rg 0 1114111)))
       (.ite (.ite (.chr 16 (.rg 48 57)) (.val true) (.chr 16 (.rg 95 95))) (.adv 1) .brk)) ;;
     (.ite ((.look 17) ;; (.chr 17 (.rg 46 46)))
       ((.lookN 18 1) ;;
        (.ite (.chr 18 (.rg 48 57))
          ((.put 14 1) ;;
           (.adv 1) ;;
           (.loop 19 true ((.look 20) ;; (.chr 20 (.rg 0 1114111)))
             (.ite (.ite (.chr 20 (.rg 48 57)) (.val true) (.chr 20 (.rg 95 95))) (.adv 1) .brk)))
          (.val true)))
       (.val true)) ;;
     (.ite ((.look 21) ;; (.chr 21 (.rg 0 1114111)))
       (.ite (.ite (.chr 21 (.rg 101 101)) (.val true) (.chr 21 (.rg 69 69)))
         ((.lookN 22 1) ;;
          (.ite (.ite (.ite (.chr 22 (.rg 43 43)) (.val true) (.chr 22 (.rg 45 45))) (.val true) (.chr 22 (.rg 48 57)))
            ((.put 14 1) ;;
             (.adv 1) ;;
             (.ite ((.look 23) ;; (.chr 23 (.rg 0 1114111)))
               (.ite (.ite (.chr 23 (.rg 43 43)) (.val true) (.chr 23 (.rg 45 45))) (.adv 1) (.val true))
               (.val true)) ;;
             (.loop 24 true ((.look 25) ;; (.chr 25 (.rg 0 1114111)))
               (.ite (.ite (.chr 25 (.rg 48 57)) (.val true) (.chr 25 (.rg 95 95))) (.adv 1) .brk)))
            (.val true)))
         (.val true))
       (.val true)) ;;
     (.mark 26) ;;
     (.tokTo 12 26) ;;
     (.val true))

/-- `lex_identifier_or_keyword` (examples/oak-sql/src/lexer/mod.rs:260-347). -/
def lexIdentifierOrKeyword : Code :=
  .scope 7
    ((.mark 7) ;;
     (.ite ((.look 8) ;; (.chr 8 (.rg 0 1114111))) (.val true) (.ret false)) ;;
     (.ite (.ite (.ite (.chr 8 .alpha) (.val false) (.val true))
         (.ite (.chr 8 (.rg 95 95)) (.val false) (.val true))
         (.val false))
       (.ret false)
       (.val true)) ;;
     (.advc 8) ;;
     (.loop 9 true ((.look 10) ;; (.chr 10 (.rg 0 1114111)))
       (.ite (.ite (.chr 10 .alnum) (.val true) (.chr 10 (.rg 95 95))) (.advc 10) .brk)) ;;
     (.mark 11) ;;
     (.val true) ;;
     (.val true) ;;
     (.tokTo 7 11) ;;
     (.val true))

/-- `lex_operators` (examples/oak-sql/src/lexer/mod.rs:349-376). -/
def lexOperators3 : Code :=
  .scope 5
    ((.mark 5) ;;
     (.val true) ;;
     ((.ite (.starts ['<', '=']) ((.adv 2) ;; (.tok 5) ;; (.ret true)) (.val true)) ;;
      (.ite (.starts ['>', '=']) ((.adv 2) ;; (.tok 5) ;; (.ret true)) (.val true)) ;;
      (.ite (.starts ['<', '>']) ((.adv 2) ;; (.tok 5) ;; (.ret true)) (.val true)) ;;
      (.ite (.starts ['!', '=']) ((.adv 2) ;; (.tok 5) ;; (.ret true)) (.val true)) ;;
      (.ite (.starts ['=']) ((.adv 1) ;; (.tok 5) ;; (.ret true)) (.val true)) ;;
      (.ite (.starts ['<']) ((.adv 1) ;; (.tok 5) ;; (.ret true)) (.val true)) ;;
      (.ite (.starts ['>']) ((.adv 1) ;; (.tok 5) ;; (.ret true)) (.val true)) ;;
      (.ite (.starts ['+']) ((.adv 1) ;; (.tok 5) ;; (.ret true)) (.val true)) ;;
      (.ite (.starts ['-']) ((.adv 1) ;; (.tok 5) ;; (.ret true)) (.val true)) ;;
      (.ite (.starts ['*']) ((.adv 1) ;; (.tok 5) ;; (.ret true)) (.val true)) ;;
      (.ite (.starts ['/']) ((.adv 1) ;; (.tok 5) ;; (.ret true)) (.val true)) ;;
      (.ite (.starts ['%']) ((.adv 1) ;; (.tok 5) ;; (.ret true)) (.val true))) ;;
     (.val false))

/-- `lex_single_char_tokens` (examples/oak-sql/src/lexer/mod.rs:378-397). -/
def lexSingleCharTokens : Code :=
  .scope 3
    ((.mark 3) ;;
     (.ite ((.look 4) ;; (.chr 4 (.rg 0 1114111))) (.val true) (.ret false)) ;;
     (.ite (.chr 4 (.rg 40 40))
       (.val true)
       (.ite (.chr 4 (.rg 41 41))
         (.val true)
         (.ite (.chr 4 (.rg 44 44))
           (.val true)
           (.ite (.chr 4 (.rg 59 59)) (.val true) (.ite (.chr 4 (.rg 46 46)) (.val true) (.ret false)))))) ;;
     (.advc 4) ;;
     (.tok 3) ;;
     (.val true))

/-- `run` (examples/oak-sql/src/lexer/mod.rs:38-92). -/
def run_ : Code :=
  .scope 0
    (.loop 0 false .more
      ((.mark 1) ;;
       (.ite ((.look 2) ;; (.chr 2 (.rg 0 1114111)))
         (.ite (.chr 2 (.or (.rg 32 32) (.rg 9 9)))
           skipWhitespace
           (.ite (.chr 2 (.or (.rg 10 10) (.rg 13 13)))
             lexNewline
             (.ite (.chr 2 (.rg 45 45))
               (.ite (.starts ['-', '-']) skipComment lexOperators)
               (.ite (.chr 2 (.rg 47 47))
                 (.ite (.starts ['/', '*']) skipComment2 lexOperators2)
                 (.ite (.chr 2 (.or (.rg 39 39) (.rg 34 34)))
                   lexStringLiteral
                   (.ite (.chr 2 (.rg 48 57))
                     lexNumberLiteral
                     (.ite (.chr 2 (.or (.or (.rg 97 122) (.rg 65 90)) (.rg 95 95)))
                       lexIdentifierOrKeyword
                       (.ite (.chr 2 (.or (.or (.or (.or (.or (.or (.rg 60 60) (.rg 62 62)) (.rg 33 33)) (.rg 61 61)) (.rg 43 43)) (.rg 42 42)) (.rg 37 37)))
                         lexOperators3
                         (.ite (.chr 2 (.or (.or (.or (.or (.rg 40 40) (.rg 41 41)) (.rg 44 44)) (.rg 59 59)) (.rg 46 46)))
                           lexSingleCharTokens
                           ((.advc 2) ;; (.tok 1)))))))))))
         (.val true)) ;;
       (.guard 1)))

end Oaks.HandLex.Sql
