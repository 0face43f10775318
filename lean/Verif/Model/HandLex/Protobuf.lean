import Verif.Model.LexCode

/-
The lexer of the example `oak-protobuf` as a program of Model/LexCode.lean, function by function in the order of
the calls. Kinds of tokens and messages are left out.
-/
namespace Oaks.HandLex.Protobuf

open Oaks.Lc

/-- `skip_whitespace` (examples/oak-protobuf/src/lexer/mod.rs:77-91). -/
def skipWhitespace : Code :=
  .scope 2
    ((.mark 2) ;;
     (.loop 3 true ((.look 4) ;; (.chr 4 (.rg 0 1114111)))
       (.ite (.ite (.chr 4 (.rg 32 32)) (.val true) (.chr 4 (.rg 9 9))) (.advc 4) .brk)) ;;
     (.ite (.moved 2) ((.tok 2) ;; (.val true)) (.val false)))

/-- `lex_newline` (examples/oak-protobuf/src/lexer/mod.rs:93-112). -/
def lexNewline : Code :=
  .scope 5
    ((.mark 5) ;;
     (.ite ((.look 8) ;; (.chr 8 (.rg 10 10)))
       ((.adv 1) ;; (.tok 5) ;; (.val true))
       (.ite ((.look 6) ;; (.chr 6 (.rg 13 13)))
         ((.adv 1) ;; (.ite ((.look 7) ;; (.chr 7 (.rg 10 10))) (.adv 1) (.val true)) ;; (.tok 5) ;; (.val true))
         (.val false))))

/-- `lex_comment` (examples/oak-protobuf/src/lexer/mod.rs:114-158). -/
def lexComment : Code :=
  .scope 9
    ((.mark 9) ;;
     (.ite ((.look 10) ;; (.chr 10 (.rg 47 47)))
       ((.adv 1) ;;
        (.ite ((.look 15) ;; (.chr 15 (.rg 47 47)))
          ((.adv 1) ;;
           (.loop 16 true ((.look 17) ;; (.chr 17 (.rg 0 1114111)))
             ((.ite (.ite (.chr 17 (.rg 10 10)) (.val true) (.chr 17 (.rg 13 13))) .brk (.val true)) ;; (.advc 17))) ;;
           (.tok 9) ;;
           (.val true))
          (.ite ((.look 11) ;; (.chr 11 (.rg 42 42)))
            ((.adv 1) ;;
             (.loop 12 true ((.look 13) ;; (.chr 13 (.rg 0 1114111)))
               (.ite (.chr 13 (.rg 42 42))
                 ((.adv 1) ;; (.ite ((.look 14) ;; (.chr 14 (.rg 47 47))) ((.adv 1) ;; .brk) (.val true)))
                 (.advc 13))) ;;
             (.tok 9) ;;
             (.val true))
            ((.goto 9) ;; (.val false)))))
       (.val false)))

/-- the block of an `if … || …` of `lex_string_literal` (examples/oak-protobuf/src/lexer/mod.rs:160-200). -/
def lexStringLiteralBlock : Code :=
  ((.adv 1) ;;
   (.put 20 0) ;;
   (.loop 21 true ((.look 22) ;; (.chr 22 (.rg 0 1114111)))
     (.ite (.flag 20)
       ((.put 20 0) ;; (.advc 22))
       (.ite (.chr 22 (.rg 92 92))
         ((.put 20 1) ;; (.adv 1))
         (.ite (.same 22 19)
           ((.adv 1) ;; .brk)
           (.ite (.ite (.chr 22 (.rg 10 10)) (.val true) (.chr 22 (.rg 13 13))) .brk (.advc 22)))))) ;;
   (.tok 18) ;;
   (.val true))

/-- `lex_string_literal` (examples/oak-protobuf/src/lexer/mod.rs:160-200). -/
def lexStringLiteral : Code :=
  .scope 18
    ((.mark 18) ;;
     (.ite ((.look 19) ;; (.chr 19 (.rg 0 1114111)))
       (.ite (.chr 19 (.rg 34 34))
         lexStringLiteralBlock
         (.ite (.chr 19 (.rg 39 39)) lexStringLiteralBlock (.val false)))
       (.val false)))

/-- the block of an `if … || …` of `lex_number_literal` (examples/oak-protobuf/src/lexer/mod.rs:202-253). -/
def lexNumberLiteralBlock2 : Code :=
  ((.adv 1) ;;
   (.ite ((.look 33) ;; (.chr 33 (.rg 0 1114111)))
     (.ite (.ite (.chr 33 (.rg 43 43)) (.val true) (.chr 33 (.rg 45 45))) (.adv 1) (.val true))
     (.val true)) ;;
   (.loop 34 true ((.look 35) ;; (.chr 35 (.rg 0 1114111))) (.ite (.chr 35 (.rg 48 57)) (.adv 1) .brk)))

/-- the block of an `if … || …` of `lex_number_literal` (examples/oak-protobuf/src/lexer/mod.rs:202-253). -/
def lexNumberLiteralBlock : Code :=
  ((.mark 25) ;;
   (.ite (.chr 23 (.rg 45 45)) (.adv 1) (.val true)) ;;
   (.loop 26 true ((.look 27) ;; (.chr 27 (.rg 0 1114111))) (.ite (.chr 27 (.rg 48 57)) (.adv 1) .brk)) ;;
   (.ite ((.look 28) ;; (.chr 28 (.rg 46 46)))
     (.ite ((.lookN 29 1) ;; (.chr 29 (.rg 48 57)))
       ((.adv 1) ;;
        (.loop 30 true ((.look 31) ;; (.chr 31 (.rg 0 1114111))) (.ite (.chr 31 (.rg 48 57)) (.adv 1) .brk)))
       (.val true))
     (.val true)) ;;
   (.ite ((.look 32) ;; (.chr 32 (.rg 0 1114111)))
     (.ite (.chr 32 (.rg 101 101))
       lexNumberLiteralBlock2
       (.ite (.chr 32 (.rg 69 69)) lexNumberLiteralBlock2 (.val true)))
     (.val true)) ;;
   (.tok 25) ;;
   (.val true))

/-- `lex_number_literal` (examples/oak-protobuf/src/lexer/mod.rs:202-253). -/
def lexNumberLiteral : Code :=
  .scope 23
    (.ite ((.look 23) ;; (.chr 23 (.rg 0 1114111)))
      (.ite (.chr 23 (.rg 48 57))
        lexNumberLiteralBlock
        (.ite (.ite (.chr 23 (.rg 45 45)) ((.lookN 24 1) ;; (.chr 24 (.rg 48 57))) (.val false))
          lexNumberLiteralBlock
          (.val false)))
      (.val false))

/-- the block of an `if … || …` of `lex_identifier_or_keyword` (examples/oak-protobuf/src/lexer/mod.rs:255-326). -/
def lexIdentifierOrKeywordBlock : Code :=
  ((.mark 37) ;;
   (.val true) ;;
   (.loop 38 true ((.look 39) ;; (.chr 39 (.rg 0 1114111)))
     (.ite (.ite (.chr 39 .alnum) (.val true) (.chr 39 (.rg 95 95))) (.advc 39) .brk)) ;;
   (.val true) ;;
   (.tok 37) ;;
   (.val true))

/-- `lex_identifier_or_keyword` (examples/oak-protobuf/src/lexer/mod.rs:255-326). -/
def lexIdentifierOrKeyword : Code :=
  .scope 36
    (.ite ((.look 36) ;; (.chr 36 (.rg 0 1114111)))
      (.ite (.chr 36 (.or (.rg 65 90) (.rg 97 122)))
        lexIdentifierOrKeywordBlock
        (.ite (.chr 36 (.rg 95 95)) lexIdentifierOrKeywordBlock (.val false)))
      (.val false))

/-- `lex_operators_and_delimiters` (examples/oak-protobuf/src/lexer/mod.rs:328-390). -/
def lexOperatorsAndDelimiters : Code :=
  .scope 40
    (.ite ((.look 40) ;; (.chr 40 (.rg 0 1114111)))
      ((.mark 41) ;;
       (.ite (.chr 40 (.rg 61 61))
         (.adv 1)
         (.ite (.chr 40 (.rg 59 59))
           (.adv 1)
           (.ite (.chr 40 (.rg 44 44))
             (.adv 1)
             (.ite (.chr 40 (.rg 46 46))
               (.adv 1)
               (.ite (.chr 40 (.rg 40 40))
                 (.adv 1)
                 (.ite (.chr 40 (.rg 41 41))
                   (.adv 1)
                   (.ite (.chr 40 (.rg 91 91))
                     (.adv 1)
                     (.ite (.chr 40 (.rg 93 93))
                       (.adv 1)
                       (.ite (.chr 40 (.rg 123 123))
                         (.adv 1)
                         (.ite (.chr 40 (.rg 125 125))
                           (.adv 1)
                           (.ite (.chr 40 (.rg 60 60)) (.adv 1) (.ite (.chr 40 (.rg 62 62)) (.adv 1) (.ret false))))))))))))) ;;
       (.tok 41) ;;
       (.val true))
      (.val false))

/-- `run` (examples/oak-protobuf/src/lexer/mod.rs:24-75). -/
def run_ : Code :=
  .scope 0
    ((.loop 0 false .more
       ((.mark 1) ;;
        (.ite skipWhitespace .cont (.val true)) ;;
        (.ite lexNewline .cont (.val true)) ;;
        (.ite lexComment .cont (.val true)) ;;
        (.ite lexStringLiteral .cont (.val true)) ;;
        (.ite lexNumberLiteral .cont (.val true)) ;;
        (.ite lexIdentifierOrKeyword .cont (.val true)) ;;
        (.ite lexOperatorsAndDelimiters .cont (.val true)) ;;
        (.ite ((.look 42) ;; (.chr 42 (.rg 0 1114111))) ((.mark 43) ;; (.advc 42) ;; (.tok 43)) .brk) ;;
        (.guard 1))) ;;
     (.mark 44) ;;
     (.tokTo 44 44))

end Oaks.HandLex.Protobuf
