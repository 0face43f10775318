import Verif.Model.LexCode

/-
The lexer of the example `oak-typescript` as a program of Model/LexCode.lean, function by function in the order of
the calls. Kinds of tokens and messages are left out.
-/
namespace Oaks.HandLex.Typescript

open Oaks.Lc

/-- `skip_whitespace` (examples/oak-typescript/src/lexer/mod.rs:84-103). -/
def skipWhitespace : Code :=
  .scope 2
    ((.mark 2) ;;
     (.put 3 0) ;;
     (.loop 4 true ((.look 5) ;; (.chr 5 (.rg 0 1114111)))
       (.ite (.ite (.chr 5 (.rg 32 32)) (.val true) (.chr 5 (.rg 9 9))) ((.advc 5) ;; (.put 3 1)) .brk)) ;;
     (.ite (.flag 3) (.tok 2) (.val true)) ;;
     (.flag 3))

/-- `lex_newline` (examples/oak-typescript/src/lexer/mod.rs:105-125). -/
def lexNewline : Code :=
  .scope 6
    ((.mark 6) ;;
     (.ite ((.look 7) ;; (.chr 7 (.rg 0 1114111)))
       (.ite (.chr 7 (.rg 10 10))
         ((.adv 1) ;; (.tok 6) ;; (.ret true))
         (.ite (.chr 7 (.rg 13 13))
           ((.adv 1) ;; (.ite ((.look 8) ;; (.chr 8 (.rg 10 10))) (.adv 1) (.val true)) ;; (.tok 6) ;; (.ret true))
           (.val true)))
       (.val true)) ;;
     (.val false))

/-- `skip_comment` (examples/oak-typescript/src/lexer/mod.rs:127-159). -/
def skipComment : Code :=
  .scope 9
    ((.mark 9) ;;
     (.val true) ;;
     (.ite (.restStarts ['/', '/'])
       ((.adv 2) ;;
        (.loop 10 true ((.look 11) ;; (.chr 11 (.rg 0 1114111)))
          ((.ite (.ite (.chr 11 (.rg 10 10)) (.val true) (.chr 11 (.rg 13 13))) .brk (.val true)) ;; (.advc 11))) ;;
        (.tok 9) ;;
        (.ret true))
       (.val true)) ;;
     (.ite (.restStarts ['/', '*'])
       ((.adv 2) ;;
        (.loop 12 true ((.look 13) ;; (.chr 13 (.rg 0 1114111)))
          ((.ite (.ite (.chr 13 (.rg 42 42)) ((.lookN 14 1) ;; (.chr 14 (.rg 47 47))) (.val false))
             ((.adv 2) ;; .brk)
             (.val true)) ;;
           (.advc 13))) ;;
        (.tok 9) ;;
        (.ret true))
       (.val true)) ;;
     (.val false))

/-- `lex_string_literal` (examples/oak-typescript/src/lexer/mod.rs:161-190). -/
def lexStringLiteral : Code :=
  .scope 15
    ((.mark 15) ;;
     (.ite ((.look 16) ;; (.chr 16 (.rg 0 1114111)))
       (.ite (.ite (.chr 16 (.rg 34 34)) (.val true) (.chr 16 (.rg 39 39)))
         ((.adv 1) ;;
          (.loop 17 true ((.look 18) ;; (.chr 18 (.rg 0 1114111)))
            (.ite (.same 18 16)
              ((.adv 1) ;; .brk)
              (.ite (.chr 18 (.rg 92 92))
                ((.adv 1) ;; (.ite ((.look 19) ;; (.chr 19 (.rg 0 1114111))) (.adv 1) (.val true)))
                (.advc 18)))) ;;
          (.tok 15) ;;
          (.ret true))
         (.val true))
       (.val true)) ;;
     (.val false))

/-- `lex_template_literal` (examples/oak-typescript/src/lexer/mod.rs:192-219). -/
def lexTemplateLiteral : Code :=
  .scope 20
    ((.mark 20) ;;
     (.ite ((.look 21) ;; (.chr 21 (.rg 96 96)))
       ((.adv 1) ;;
        (.loop 22 true ((.look 23) ;; (.chr 23 (.rg 0 1114111)))
          (.ite (.chr 23 (.rg 96 96))
            ((.adv 1) ;; .brk)
            (.ite (.chr 23 (.rg 92 92))
              ((.adv 1) ;; (.ite ((.look 24) ;; (.chr 24 (.rg 0 1114111))) (.adv 1) (.val true)))
              (.advc 23)))) ;;
        (.tok 20) ;;
        (.ret true))
       (.val true)) ;;
     (.val false))

/-- `lex_numeric_literal` (examples/oak-typescript/src/lexer/mod.rs:221-278). -/
def lexNumericLiteral : Code :=
  .scope 25
    ((.mark 25) ;;
     (.ite ((.look 26) ;; (.chr 26 (.rg 0 1114111)))
       (.ite (.chr 26 (.rg 48 57))
         ((.adv 1) ;;
          (.ite (.ite (.chr 26 (.rg 48 48))
              (.ite ((.look 32) ;; (.chr 32 (.rg 120 120))) (.val true) ((.look 33) ;; (.chr 33 (.rg 88 88))))
              (.val false))
            ((.adv 1) ;;
             (.loop 34 true ((.look 35) ;; (.chr 35 (.rg 0 1114111)))
               (.ite (.chr 35 (.or (.or (.rg 48 57) (.rg 65 70)) (.rg 97 102))) (.adv 1) .brk)))
            (.loop 27 true ((.look 28) ;; (.chr 28 (.rg 0 1114111)))
              (.ite (.chr 28 (.rg 48 57))
                (.adv 1)
                (.ite (.ite (.chr 28 (.rg 46 46)) ((.lookN 29 1) ;; (.chr 29 (.rg 48 57))) (.val false))
                  ((.adv 1) ;;
                   (.loop 30 true ((.look 31) ;; (.chr 31 (.rg 0 1114111)))
                     (.ite (.chr 31 (.rg 48 57)) (.adv 1) .brk)) ;;
                   .brk)
                  .brk)))) ;;
          (.ite ((.look 36) ;; (.chr 36 (.rg 110 110))) ((.adv 1) ;; (.tok 25)) (.tok 25)) ;;
          (.ret true))
         (.val true))
       (.val true)) ;;
     (.val false))

/-- `lex_identifier_or_keyword` (examples/oak-typescript/src/lexer/mod.rs:280-307). -/
def lexIdentifierOrKeyword : Code :=
  .scope 37
    ((.mark 37) ;;
     (.ite ((.look 38) ;; (.chr 38 (.rg 0 1114111)))
       (.ite (.ite (.ite (.chr 38 .alpha) (.val true) (.chr 38 (.rg 95 95))) (.val true) (.chr 38 (.rg 36 36)))
         ((.advc 38) ;;
          (.loop 39 true ((.look 40) ;; (.chr 40 (.rg 0 1114111)))
            (.ite (.ite (.ite (.chr 40 .alnum) (.val true) (.chr 40 (.rg 95 95))) (.val true) (.chr 40 (.rg 36 36)))
              (.advc 40)
              .brk)) ;;
          (.mark 41) ;;
          (.tok 37) ;;
          (.ret true))
         (.val true))
       (.val true)) ;;
     (.val false))

/-- `lex_operator_or_punctuation` (examples/oak-typescript/src/lexer/mod.rs:313-396). -/
def lexOperatorOrPunctuation : Code :=
  .scope 42
    ((.mark 42) ;;
     (.val true) ;;
     (.val true) ;;
     ((.ite (.restStarts ['=', '=', '=']) ((.adv 3) ;; (.tok 42) ;; (.ret true)) (.val true)) ;;
      (.ite (.restStarts ['!', '=', '=']) ((.adv 3) ;; (.tok 42) ;; (.ret true)) (.val true)) ;;
      (.ite (.restStarts ['>', '>', '>']) ((.adv 3) ;; (.tok 42) ;; (.ret true)) (.val true)) ;;
      (.ite (.restStarts ['.', '.', '.']) ((.adv 3) ;; (.tok 42) ;; (.ret true)) (.val true)) ;;
      (.ite (.restStarts ['*', '*', '=']) ((.adv 3) ;; (.tok 42) ;; (.ret true)) (.val true)) ;;
      (.ite (.restStarts ['<', '<', '=']) ((.adv 3) ;; (.tok 42) ;; (.ret true)) (.val true)) ;;
      (.ite (.restStarts ['>', '>', '=']) ((.adv 3) ;; (.tok 42) ;; (.ret true)) (.val true)) ;;
      (.ite (.restStarts ['&', '&', '=']) ((.adv 3) ;; (.tok 42) ;; (.ret true)) (.val true)) ;;
      (.ite (.restStarts ['|', '|', '=']) ((.adv 3) ;; (.tok 42) ;; (.ret true)) (.val true)) ;;
      (.ite (.restStarts ['?', '?', '=']) ((.adv 3) ;; (.tok 42) ;; (.ret true)) (.val true)) ;;
      (.ite (.restStarts ['*', '*']) ((.adv 2) ;; (.tok 42) ;; (.ret true)) (.val true)) ;;
      (.ite (.restStarts ['<', '=']) ((.adv 2) ;; (.tok 42) ;; (.ret true)) (.val true)) ;;
      (.ite (.restStarts ['>', '=']) ((.adv 2) ;; (.tok 42) ;; (.ret true)) (.val true)) ;;
      (.ite (.restStarts ['=', '=']) ((.adv 2) ;; (.tok 42) ;; (.ret true)) (.val true)) ;;
      (.ite (.restStarts ['!', '=']) ((.adv 2) ;; (.tok 42) ;; (.ret true)) (.val true)) ;;
      (.ite (.restStarts ['&', '&']) ((.adv 2) ;; (.tok 42) ;; (.ret true)) (.val true)) ;;
      (.ite (.restStarts ['|', '|']) ((.adv 2) ;; (.tok 42) ;; (.ret true)) (.val true)) ;;
      (.ite (.restStarts ['<', '<']) ((.adv 2) ;; (.tok 42) ;; (.ret true)) (.val true)) ;;
      (.ite (.restStarts ['>', '>']) ((.adv 2) ;; (.tok 42) ;; (.ret true)) (.val true)) ;;
      (.ite (.restStarts ['+', '+']) ((.adv 2) ;; (.tok 42) ;; (.ret true)) (.val true)) ;;
      (.ite (.restStarts ['-', '-']) ((.adv 2) ;; (.tok 42) ;; (.ret true)) (.val true)) ;;
      (.ite (.restStarts ['=', '>']) ((.adv 2) ;; (.tok 42) ;; (.ret true)) (.val true)) ;;
      (.ite (.restStarts ['?', '.']) ((.adv 2) ;; (.tok 42) ;; (.ret true)) (.val true)) ;;
      (.ite (.restStarts ['?', '?']) ((.adv 2) ;; (.tok 42) ;; (.ret true)) (.val true)) ;;
      (.ite (.restStarts ['+', '=']) ((.adv 2) ;; (.tok 42) ;; (.ret true)) (.val true)) ;;
      (.ite (.restStarts ['-', '=']) ((.adv 2) ;; (.tok 42) ;; (.ret true)) (.val true)) ;;
      (.ite (.restStarts ['*', '=']) ((.adv 2) ;; (.tok 42) ;; (.ret true)) (.val true)) ;;
      (.ite (.restStarts ['/', '=']) ((.adv 2) ;; (.tok 42) ;; (.ret true)) (.val true)) ;;
      (.ite (.restStarts ['%', '=']) ((.adv 2) ;; (.tok 42) ;; (.ret true)) (.val true)) ;;
      (.ite (.restStarts ['&', '=']) ((.adv 2) ;; (.tok 42) ;; (.ret true)) (.val true)) ;;
      (.ite (.restStarts ['|', '=']) ((.adv 2) ;; (.tok 42) ;; (.ret true)) (.val true)) ;;
      (.ite (.restStarts ['^', '=']) ((.adv 2) ;; (.tok 42) ;; (.ret true)) (.val true))) ;;
     (.ite ((.look 44) ;; (.chr 44 (.rg 0 1114111)))
       ((.ite (.chr 44 (.rg 43 43))
          (.val true)
          (.ite (.chr 44 (.rg 45 45))
            (.val true)
            (.ite (.chr 44 (.rg 42 42))
              (.val true)
              (.ite (.chr 44 (.rg 47 47))
                (.val true)
                (.ite (.chr 44 (.rg 37 37))
                  (.val true)
                  (.ite (.chr 44 (.rg 60 60))
                    (.val true)
                    (.ite (.chr 44 (.rg 62 62))
                      (.val true)
                      (.ite (.chr 44 (.rg 33 33))
                        (.val true)
                        (.ite (.chr 44 (.rg 38 38))
                          (.val true)
                          (.ite (.chr 44 (.rg 124 124))
                            (.val true)
                            (.ite (.chr 44 (.rg 94 94))
                              (.val true)
                              (.ite (.chr 44 (.rg 126 126))
                                (.val true)
                                (.ite (.chr 44 (.rg 61 61))
                                  (.val true)
                                  (.ite (.chr 44 (.rg 63 63))
                                    (.val true)
                                    (.ite (.chr 44 (.rg 40 40))
                                      (.val true)
                                      (.ite (.chr 44 (.rg 41 41))
                                        (.val true)
                                        (.ite (.chr 44 (.rg 123 123))
                                          (.val true)
                                          (.ite (.chr 44 (.rg 125 125))
                                            (.val true)
                                            (.ite (.chr 44 (.rg 91 91))
                                              (.val true)
                                              (.ite (.chr 44 (.rg 93 93))
                                                (.val true)
                                                (.ite (.chr 44 (.rg 59 59))
                                                  (.val true)
                                                  (.ite (.chr 44 (.rg 44 44))
                                                    (.val true)
                                                    (.ite (.chr 44 (.rg 46 46))
                                                      (.val true)
                                                      (.ite (.chr 44 (.rg 58 58))
                                                        (.val true)
                                                        (.ite (.chr 44 (.rg 64 64)) (.val true) (.ret false)))))))))))))))))))))))))) ;;
        (.adv 1) ;;
        (.tok 42) ;;
        (.ret true))
       (.val true)) ;;
     (.val false))

/-- `run` (examples/oak-typescript/src/lexer/mod.rs:35-82). -/
def run_ : Code :=
  .scope 0
    (.loop 0 false .more
      ((.mark 1) ;;
       (.ite skipWhitespace .cont (.val true)) ;;
       (.ite lexNewline .cont (.val true)) ;;
       (.ite skipComment .cont (.val true)) ;;
       (.ite lexStringLiteral .cont (.val true)) ;;
       (.ite lexTemplateLiteral .cont (.val true)) ;;
       (.ite lexNumericLiteral .cont (.val true)) ;;
       (.ite lexIdentifierOrKeyword .cont (.val true)) ;;
       (.ite lexOperatorOrPunctuation .cont (.val true)) ;;
       (.mark 45) ;;
       (.ite ((.look 46) ;; (.chr 46 (.rg 0 1114111))) ((.advc 46) ;; (.tok 45)) (.val true)) ;;
       (.guard 1)))

end Oaks.HandLex.Typescript
