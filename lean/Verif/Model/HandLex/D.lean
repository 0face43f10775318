import Verif.Model.LexCode

/-
The lexer of the example `oak-d` as a program of Model/LexCode.lean, function by function in the order of
the calls. Kinds of tokens and messages are left out.
-/
namespace Oaks.HandLex.D

open Oaks.Lc

/-- `skip_whitespace` (examples/oak-d/src/lexer/mod.rs:89-104). -/
def skipWhitespace : Code :=
  .scope 2
    ((.ite ((.look 2) ;; (.chr 2 (.rg 0 1114111)))
       (.ite (.ite (.ite (.chr 2 .white) (.ite (.chr 2 (.rg 10 10)) (.val false) (.val true)) (.val false))
           (.ite (.chr 2 (.rg 13 13)) (.val false) (.val true))
           (.val false))
         ((.mark 3) ;;
          (.loop 4 true ((.look 5) ;; (.chr 5 (.rg 0 1114111)))
            ((.ite (.ite (.ite (.ite (.chr 5 .white) (.val false) (.val true)) (.val true) (.chr 5 (.rg 10 10)))
                 (.val true)
                 (.chr 5 (.rg 13 13)))
               .brk
               (.val true)) ;;
             (.advc 5))) ;;
          (.tok 3) ;;
          (.ret true))
         (.val true))
       (.val true)) ;;
     (.val false))

/-- `lex_newline` (examples/oak-d/src/lexer/mod.rs:106-124). -/
def lexNewline : Code :=
  .scope 6
    ((.ite ((.look 6) ;; (.chr 6 (.rg 0 1114111)))
       (.ite (.ite (.chr 6 (.rg 10 10)) (.val true) (.chr 6 (.rg 13 13)))
         ((.mark 7) ;;
          (.ite (.chr 6 (.rg 13 13))
            ((.adv 1) ;; (.ite ((.look 8) ;; (.chr 8 (.rg 10 10))) (.adv 1) (.val true)))
            (.adv 1)) ;;
          (.tok 7) ;;
          (.ret true))
         (.val true))
       (.val true)) ;;
     (.val false))

/-- `lex_line_comment` (examples/oak-d/src/lexer/mod.rs:358-374). -/
def lexLineComment : Code :=
  .scope 9
    ((.ite ((.look 9) ;; (.chr 9 (.rg 47 47)))
       (.ite ((.lookN 10 1) ;; (.chr 10 (.rg 47 47)))
         ((.mark 11) ;;
          (.adv 2) ;;
          (.loop 12 true ((.look 13) ;; (.chr 13 (.rg 0 1114111)))
            ((.ite (.ite (.chr 13 (.rg 10 10)) (.val true) (.chr 13 (.rg 13 13))) .brk (.val true)) ;; (.advc 13))) ;;
          (.tok 11) ;;
          (.ret true))
         (.val true))
       (.val true)) ;;
     (.val false))

/-- `lex_block_comment` (examples/oak-d/src/lexer/mod.rs:376-398). -/
def lexBlockComment : Code :=
  .scope 14
    ((.ite ((.look 14) ;; (.chr 14 (.rg 47 47)))
       (.ite ((.lookN 15 1) ;; (.chr 15 (.rg 42 42)))
         ((.mark 16) ;;
          (.adv 2) ;;
          (.loop 17 true ((.look 18) ;; (.chr 18 (.rg 0 1114111)))
            (.ite (.chr 18 (.rg 42 42))
              ((.adv 1) ;; (.ite ((.look 19) ;; (.chr 19 (.rg 47 47))) ((.adv 1) ;; .brk) (.val true)))
              (.advc 18))) ;;
          (.tok 16) ;;
          (.ret true))
         (.val true))
       (.val true)) ;;
     (.val false))

/-- `lex_nested_comment` (examples/oak-d/src/lexer/mod.rs:400-433). -/
def lexNestedComment : Code :=
  .scope 20
    ((.ite ((.look 20) ;; (.chr 20 (.rg 47 47)))
       (.ite ((.lookN 21 1) ;; (.chr 21 (.rg 43 43)))
         ((.mark 22) ;;
          (.adv 2) ;;
          (.put 23 1) ;;
          (.loop 24 true ((.look 25) ;; (.chr 25 (.rg 0 1114111)))
            (.ite (.chr 25 (.rg 47 47))
              ((.adv 1) ;;
               (.ite ((.look 27) ;; (.chr 27 (.rg 43 43))) ((.adv 1) ;; (.comp 23 23 (· + 1))) (.val true)))
              (.ite (.chr 25 (.rg 43 43))
                ((.adv 1) ;;
                 (.ite ((.look 26) ;; (.chr 26 (.rg 47 47)))
                   ((.adv 1) ;; (.comp 23 23 (· - 1)) ;; (.ite (.ask 23 (· == 0)) .brk (.val true)))
                   (.val true)))
                (.advc 25)))) ;;
          (.tok 22) ;;
          (.ret true))
         (.val true))
       (.val true)) ;;
     (.val false))

/-- `lex_identifier_or_keyword` (examples/oak-d/src/lexer/mod.rs:126-252). -/
def lexIdentifierOrKeyword : Code :=
  .scope 28
    ((.ite ((.look 28) ;; (.chr 28 (.rg 0 1114111)))
       (.ite (.ite (.chr 28 .alpha) (.val true) (.chr 28 (.rg 95 95)))
         ((.mark 29) ;;
          (.loop 30 true ((.look 31) ;; (.chr 31 (.rg 0 1114111)))
            (.ite (.ite (.chr 31 .alnum) (.val true) (.chr 31 (.rg 95 95))) (.advc 31) .brk)) ;;
          (.mark 32) ;;
          (.tokTo 29 32) ;;
          (.ret true))
         (.val true))
       (.val true)) ;;
     (.val false))

/-- `lex_number` (examples/oak-d/src/lexer/mod.rs:254-299). -/
def lexNumber : Code :=
  .scope 33
    ((.ite ((.look 33) ;; (.chr 33 (.rg 0 1114111)))
       (.ite (.chr 33 (.rg 48 57))
         ((.mark 34) ;;
          (.loop 35 true ((.look 36) ;; (.chr 36 (.rg 0 1114111)))
            (.ite (.ite (.chr 36 (.rg 48 57)) (.val true) (.chr 36 (.rg 95 95))) (.advc 36) .brk)) ;;
          (.ite ((.look 37) ;; (.chr 37 (.rg 46 46)))
            ((.adv 1) ;;
             (.loop 38 true ((.look 39) ;; (.chr 39 (.rg 0 1114111)))
               (.ite (.ite (.chr 39 (.rg 48 57)) (.val true) (.chr 39 (.rg 95 95))) (.advc 39) .brk)))
            (.val true)) ;;
          (.ite ((.look 40) ;; (.chr 40 (.rg 0 1114111)))
            (.ite (.ite (.chr 40 (.rg 101 101)) (.val true) (.chr 40 (.rg 69 69)))
              ((.adv 1) ;;
               (.ite ((.look 41) ;; (.chr 41 (.rg 0 1114111)))
                 (.ite (.ite (.chr 41 (.rg 43 43)) (.val true) (.chr 41 (.rg 45 45))) (.adv 1) (.val true))
                 (.val true)) ;;
               (.loop 42 true ((.look 43) ;; (.chr 43 (.rg 0 1114111)))
                 (.ite (.ite (.chr 43 (.rg 48 57)) (.val true) (.chr 43 (.rg 95 95))) (.advc 43) .brk)))
              (.val true))
            (.val true)) ;;
          (.ite ((.look 44) ;; (.chr 44 (.rg 0 1114111)))
            (.ite (.ite (.ite (.ite (.ite (.chr 44 (.rg 102 102)) (.val true) (.chr 44 (.rg 70 70)))
                    (.val true)
                    (.chr 44 (.rg 76 76)))
                  (.val true)
                  (.chr 44 (.rg 117 117)))
                (.val true)
                (.chr 44 (.rg 85 85)))
              (.adv 1)
              (.val true))
            (.val true)) ;;
          (.tok 34) ;;
          (.ret true))
         (.val true))
       (.val true)) ;;
     (.val false))

/-- `lex_string` (examples/oak-d/src/lexer/mod.rs:301-329). -/
def lexString : Code :=
  .scope 45
    ((.ite ((.look 45) ;; (.chr 45 (.rg 0 1114111)))
       (.ite (.ite (.chr 45 (.rg 34 34)) (.val true) (.chr 45 (.rg 39 39)))
         ((.mark 46) ;;
          (.copy 47 45) ;;
          (.adv 1) ;;
          (.loop 48 true ((.look 49) ;; (.chr 49 (.rg 0 1114111)))
            (.ite (.same 49 47)
              ((.adv 1) ;; .brk)
              (.ite (.chr 49 (.rg 92 92))
                ((.adv 1) ;; (.ite ((.look 50) ;; (.chr 50 (.rg 0 1114111))) (.adv 1) (.val true)))
                (.advc 49)))) ;;
          (.tok 46) ;;
          (.ret true))
         (.val true))
       (.val true)) ;;
     (.val false))

/-- `lex_character` (examples/oak-d/src/lexer/mod.rs:331-356). -/
def lexCharacter : Code :=
  .scope 51
    ((.ite ((.look 51) ;; (.chr 51 (.rg 39 39)))
       ((.mark 52) ;;
        (.adv 1) ;;
        (.ite ((.look 53) ;; (.chr 53 (.rg 0 1114111)))
          (.ite (.chr 53 (.rg 92 92))
            ((.adv 1) ;; (.ite ((.look 54) ;; (.chr 54 (.rg 0 1114111))) (.adv 1) (.val true)))
            (.advc 53))
          (.val true)) ;;
        (.ite ((.look 55) ;; (.chr 55 (.rg 39 39))) (.adv 1) (.val true)) ;;
        (.tok 52) ;;
        (.ret true))
       (.val true)) ;;
     (.val false))

/-- `lex_operator` (examples/oak-d/src/lexer/mod.rs:435-618). -/
def lexOperator : Code :=
  .scope 56
    (.ite ((.look 56) ;; (.chr 56 (.rg 0 1114111)))
      ((.mark 57) ;;
       (.ite (.chr 56 (.rg 43 43))
         ((.adv 1) ;;
          (.ite ((.look 77) ;; (.chr 77 (.rg 61 61)))
            ((.adv 1) ;; (.tok 57))
            (.ite ((.look 76) ;; (.chr 76 (.rg 43 43))) ((.adv 1) ;; (.tok 57)) (.tok 57))) ;;
          (.ret true))
         (.ite (.chr 56 (.rg 45 45))
           ((.adv 1) ;;
            (.ite ((.look 75) ;; (.chr 75 (.rg 61 61)))
              ((.adv 1) ;; (.tok 57))
              (.ite ((.look 74) ;; (.chr 74 (.rg 45 45))) ((.adv 1) ;; (.tok 57)) (.tok 57))) ;;
            (.ret true))
           (.ite (.chr 56 (.rg 42 42))
             ((.adv 1) ;;
              (.ite ((.look 73) ;; (.chr 73 (.rg 61 61))) ((.adv 1) ;; (.tok 57)) (.tok 57)) ;;
              (.ret true))
             (.ite (.chr 56 (.rg 47 47))
               (.ret false)
               (.ite (.chr 56 (.rg 37 37))
                 ((.adv 1) ;;
                  (.ite ((.look 72) ;; (.chr 72 (.rg 61 61))) ((.adv 1) ;; (.tok 57)) (.tok 57)) ;;
                  (.ret true))
                 (.ite (.chr 56 (.rg 38 38))
                   ((.adv 1) ;;
                    (.ite ((.look 71) ;; (.chr 71 (.rg 38 38)))
                      ((.adv 1) ;; (.tok 57))
                      (.ite ((.look 70) ;; (.chr 70 (.rg 61 61))) ((.adv 1) ;; (.tok 57)) (.tok 57))) ;;
                    (.ret true))
                   (.ite (.chr 56 (.rg 124 124))
                     ((.adv 1) ;;
                      (.ite ((.look 69) ;; (.chr 69 (.rg 124 124)))
                        ((.adv 1) ;; (.tok 57))
                        (.ite ((.look 68) ;; (.chr 68 (.rg 61 61))) ((.adv 1) ;; (.tok 57)) (.tok 57))) ;;
                      (.ret true))
                     (.ite (.chr 56 (.rg 94 94))
                       ((.adv 1) ;;
                        (.ite ((.look 67) ;; (.chr 67 (.rg 61 61))) ((.adv 1) ;; (.tok 57)) (.tok 57)) ;;
                        (.ret true))
                       (.ite (.chr 56 (.rg 126 126))
                         ((.adv 1) ;;
                          (.ite ((.look 66) ;; (.chr 66 (.rg 61 61))) ((.adv 1) ;; (.tok 57)) (.tok 57)) ;;
                          (.ret true))
                         (.ite (.chr 56 (.rg 33 33))
                           ((.adv 1) ;;
                            (.ite ((.look 65) ;; (.chr 65 (.rg 61 61))) ((.adv 1) ;; (.tok 57)) (.tok 57)) ;;
                            (.ret true))
                           (.ite (.chr 56 (.rg 60 60))
                             ((.adv 1) ;;
                              (.ite ((.look 63) ;; (.chr 63 (.rg 60 60)))
                                ((.adv 1) ;;
                                 (.ite ((.look 64) ;; (.chr 64 (.rg 61 61))) ((.adv 1) ;; (.tok 57)) (.tok 57)))
                                (.ite ((.look 62) ;; (.chr 62 (.rg 61 61))) ((.adv 1) ;; (.tok 57)) (.tok 57))) ;;
                              (.ret true))
                             (.ite (.chr 56 (.rg 62 62))
                               ((.adv 1) ;;
                                (.ite ((.look 60) ;; (.chr 60 (.rg 62 62)))
                                  ((.adv 1) ;;
                                   (.ite ((.look 61) ;; (.chr 61 (.rg 61 61))) ((.adv 1) ;; (.tok 57)) (.tok 57)))
                                  (.ite ((.look 59) ;; (.chr 59 (.rg 61 61))) ((.adv 1) ;; (.tok 57)) (.tok 57))) ;;
                                (.ret true))
                               (.ite (.chr 56 (.rg 61 61))
                                 ((.adv 1) ;;
                                  (.ite ((.look 58) ;; (.chr 58 (.rg 61 61))) ((.adv 1) ;; (.tok 57)) (.tok 57)) ;;
                                  (.ret true))
                                 (.val false)))))))))))))))
      (.val false))

/-- `lex_delimiter` (examples/oak-d/src/lexer/mod.rs:620-686). -/
def lexDelimiter : Code :=
  .scope 78
    (.ite ((.look 78) ;; (.chr 78 (.rg 0 1114111)))
      ((.mark 79) ;;
       (.ite (.chr 78 (.rg 40 40))
         ((.adv 1) ;; (.tok 79) ;; (.ret true))
         (.ite (.chr 78 (.rg 41 41))
           ((.adv 1) ;; (.tok 79) ;; (.ret true))
           (.ite (.chr 78 (.rg 91 91))
             ((.adv 1) ;; (.tok 79) ;; (.ret true))
             (.ite (.chr 78 (.rg 93 93))
               ((.adv 1) ;; (.tok 79) ;; (.ret true))
               (.ite (.chr 78 (.rg 123 123))
                 ((.adv 1) ;; (.tok 79) ;; (.ret true))
                 (.ite (.chr 78 (.rg 125 125))
                   ((.adv 1) ;; (.tok 79) ;; (.ret true))
                   (.ite (.chr 78 (.rg 59 59))
                     ((.adv 1) ;; (.tok 79) ;; (.ret true))
                     (.ite (.chr 78 (.rg 44 44))
                       ((.adv 1) ;; (.tok 79) ;; (.ret true))
                       (.ite (.chr 78 (.rg 46 46))
                         ((.adv 1) ;; (.tok 79) ;; (.ret true))
                         (.ite (.chr 78 (.rg 58 58))
                           ((.adv 1) ;; (.tok 79) ;; (.ret true))
                           (.ite (.chr 78 (.rg 63 63)) ((.adv 1) ;; (.tok 79) ;; (.ret true)) (.val false)))))))))))))
      (.val false))

/-- `run` (examples/oak-d/src/lexer/mod.rs:31-87). -/
def run_ : Code :=
  .scope 0
    (.loop 0 false .more
      ((.mark 1) ;;
       (.ite skipWhitespace .cont (.val true)) ;;
       (.ite lexNewline .cont (.val true)) ;;
       (.ite lexLineComment .cont (.val true)) ;;
       (.ite lexBlockComment .cont (.val true)) ;;
       (.ite lexNestedComment .cont (.val true)) ;;
       (.ite lexIdentifierOrKeyword .cont (.val true)) ;;
       (.ite lexNumber .cont (.val true)) ;;
       (.ite lexString .cont (.val true)) ;;
       (.ite lexCharacter .cont (.val true)) ;;
       (.ite lexOperator .cont (.val true)) ;;
       (.ite lexDelimiter .cont (.val true)) ;;
       (.guard 1) ;;
       (.ite (.moved 1) (.tok 1) (.val true))))

end Oaks.HandLex.D
