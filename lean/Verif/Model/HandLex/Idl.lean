import Verif.Model.LexCode

/-
The lexer of the example `oak-idl` as a program of Model/LexCode.lean, function by function in the order of
the calls. Kinds of tokens and messages are left out.
-/
namespace Oaks.HandLex.Idl

open Oaks.Lc

/-- `skip_whitespace` (examples/oak-idl/src/lexer/mod.rs:81-83). -/
def skipWhitespace : Code :=
  .scope 2
    (.space true)

/-- `skip_comment` (examples/oak-idl/src/lexer/mod.rs:86-118). -/
def skipComment : Code :=
  .scope 2
    ((.mark 2) ;;
     (.val true) ;;
     (.ite (.restStarts ['/', '/'])
       ((.adv 2) ;;
        (.loop 3 true ((.look 4) ;; (.chr 4 (.rg 0 1114111)))
          ((.ite (.ite (.chr 4 (.rg 10 10)) (.val true) (.chr 4 (.rg 13 13))) .brk (.val true)) ;; (.advc 4))) ;;
        (.tok 2) ;;
        (.ret true))
       (.val true)) ;;
     (.ite (.restStarts ['/', '*'])
       ((.adv 2) ;;
        (.loop 5 true ((.look 6) ;; (.chr 6 (.rg 0 1114111)))
          ((.ite (.ite (.chr 6 (.rg 42 42)) ((.lookN 7 1) ;; (.chr 7 (.rg 47 47))) (.val false))
             ((.adv 2) ;; .brk)
             (.val true)) ;;
           (.advc 6))) ;;
        (.tok 2) ;;
        (.ret true))
       (.val true)) ;;
     (.val false))

/-- `lex_string_literal` (examples/oak-idl/src/lexer/mod.rs:121-149). -/
def lexStringLiteral : Code :=
  .scope 8
    ((.mark 8) ;;
     (.ite ((.look 9) ;; (.chr 9 (.rg 34 34)))
       ((.adv 1) ;;
        (.put 10 0) ;;
        (.loop 11 true ((.look 12) ;; (.chr 12 (.rg 0 1114111)))
          ((.ite (.ite (.chr 12 (.rg 34 34)) (.ite (.flag 10) (.val false) (.val true)) (.val false))
             ((.adv 1) ;; .brk)
             (.val true)) ;;
           (.advc 12) ;;
           (.ite (.flag 10) ((.put 10 0) ;; .cont) (.val true)) ;;
           (.ite (.chr 12 (.rg 92 92)) ((.put 10 1) ;; .cont) (.val true)) ;;
           (.ite (.ite (.chr 12 (.rg 10 10)) (.val true) (.chr 12 (.rg 13 13))) .brk (.val true)))) ;;
        (.tok 8) ;;
        (.ret true))
       (.val true)) ;;
     (.val false))

/-- `lex_number_literal` (examples/oak-idl/src/lexer/mod.rs:152-226). -/
def lexNumberLiteral : Code :=
  .scope 13
    ((.mark 13) ;;
     (.ite ((.look 14) ;; (.chr 14 (.rg 0 1114111))) (.val true) (.ret false)) ;;
     (.ite (.ite (.chr 14 (.rg 48 57)) (.val false) (.val true)) (.ret false) (.val true)) ;;
     (.ite (.ite (.chr 14 (.rg 48 48)) ((.lookN 26 1) ;; (.chr 26 (.rg 120 120))) (.val false))
       ((.adv 2) ;;
        (.loop 27 true ((.look 28) ;; (.chr 28 (.rg 0 1114111)))
          (.ite (.chr 28 (.or (.or (.rg 48 57) (.rg 65 70)) (.rg 97 102))) (.adv 1) .brk)))
       ((.adv 1) ;;
        (.loop 15 true ((.look 16) ;; (.chr 16 (.rg 0 1114111))) (.ite (.chr 16 (.rg 48 57)) (.adv 1) .brk)) ;;
        (.ite (.ite ((.look 17) ;; (.chr 17 (.rg 46 46))) ((.lookN 18 1) ;; (.chr 18 (.rg 48 57))) (.val false))
          ((.adv 1) ;;
           (.loop 19 true ((.look 20) ;; (.chr 20 (.rg 0 1114111))) (.ite (.chr 20 (.rg 48 57)) (.adv 1) .brk)))
          (.val true)) ;;
        (.ite ((.look 21) ;; (.chr 21 (.rg 0 1114111)))
          (.ite (.ite (.chr 21 (.rg 101 101)) (.val true) (.chr 21 (.rg 69 69)))
            ((.lookN 22 1) ;;
             (.ite (.ite (.ite (.chr 22 (.rg 43 43)) (.val true) (.chr 22 (.rg 45 45))) (.val true) (.chr 22 (.rg 48 57)))
               ((.adv 1) ;;
                (.ite ((.look 23) ;; (.chr 23 (.rg 0 1114111)))
                  (.ite (.ite (.chr 23 (.rg 43 43)) (.val true) (.chr 23 (.rg 45 45))) (.adv 1) (.val true))
                  (.val true)) ;;
                (.loop 24 true ((.look 25) ;; (.chr 25 (.rg 0 1114111))) (.ite (.chr 25 (.rg 48 57)) (.adv 1) .brk)))
               (.val true)))
            (.val true))
          (.val true)))) ;;
     (.tok 13) ;;
     (.val true))

/-- `lex_identifier_or_keyword` (examples/oak-idl/src/lexer/mod.rs:229-311). -/
def lexIdentifierOrKeyword : Code :=
  .scope 29
    ((.mark 29) ;;
     (.ite ((.look 30) ;; (.chr 30 (.rg 0 1114111))) (.val true) (.ret false)) ;;
     (.ite (.ite (.ite (.chr 30 (.or (.rg 65 90) (.rg 97 122))) (.val true) (.chr 30 (.rg 95 95)))
         (.val false)
         (.val true))
       (.ret false)
       (.val true)) ;;
     (.adv 1) ;;
     (.loop 31 true ((.look 32) ;; (.chr 32 (.rg 0 1114111)))
       (.ite (.ite (.chr 32 (.or (.or (.rg 48 57) (.rg 65 90)) (.rg 97 122))) (.val true) (.chr 32 (.rg 95 95)))
         (.adv 1)
         .brk)) ;;
     (.mark 33) ;;
     (.val true) ;;
     (.val true) ;;
     (.tok 29) ;;
     (.val true))

/-- `lex_preprocessor` (examples/oak-idl/src/lexer/mod.rs:314-373). -/
def lexPreprocessor : Code :=
  .scope 34
    ((.mark 34) ;;
     (.ite (.ite ((.look 35) ;; (.chr 35 (.rg 35 35))) (.val false) (.val true)) (.ret false) (.val true)) ;;
     (.adv 1) ;;
     (.loop 36 true ((.look 37) ;; (.chr 37 (.rg 0 1114111)))
       (.ite (.ite (.chr 37 (.rg 32 32)) (.val true) (.chr 37 (.rg 9 9))) (.adv 1) .brk)) ;;
     (.mark 38) ;;
     (.loop 39 true ((.look 40) ;; (.chr 40 (.rg 0 1114111)))
       (.ite (.ite (.chr 40 (.or (.rg 65 90) (.rg 97 122))) (.val true) (.chr 40 (.rg 95 95))) (.adv 1) .brk)) ;;
     (.val true) ;;
     (.loop 41 true ((.look 42) ;; (.chr 42 (.rg 0 1114111)))
       ((.ite (.ite (.chr 42 (.rg 10 10)) (.val true) (.chr 42 (.rg 13 13))) .brk (.val true)) ;; (.advc 42))) ;;
     (.tok 34) ;;
     (.val true))

/-- `lex_operators` (examples/oak-idl/src/lexer/mod.rs:376-430). -/
def lexOperators : Code :=
  .scope 43
    ((.mark 43) ;;
     (.val true) ;;
     (.val true) ;;
     ((.ite (.restStarts [':', ':']) ((.adv 2) ;; (.tok 43) ;; (.ret true)) (.val true)) ;;
      (.ite (.restStarts ['<', '<']) ((.adv 2) ;; (.tok 43) ;; (.ret true)) (.val true)) ;;
      (.ite (.restStarts ['>', '>']) ((.adv 2) ;; (.tok 43) ;; (.ret true)) (.val true)) ;;
      (.ite (.restStarts ['<', '=']) ((.adv 2) ;; (.tok 43) ;; (.ret true)) (.val true)) ;;
      (.ite (.restStarts ['>', '=']) ((.adv 2) ;; (.tok 43) ;; (.ret true)) (.val true)) ;;
      (.ite (.restStarts ['=', '=']) ((.adv 2) ;; (.tok 43) ;; (.ret true)) (.val true)) ;;
      (.ite (.restStarts ['!', '=']) ((.adv 2) ;; (.tok 43) ;; (.ret true)) (.val true)) ;;
      (.ite (.restStarts ['&', '&']) ((.adv 2) ;; (.tok 43) ;; (.ret true)) (.val true)) ;;
      (.ite (.restStarts ['|', '|']) ((.adv 2) ;; (.tok 43) ;; (.ret true)) (.val true)) ;;
      (.ite (.restStarts ['-', '>']) ((.adv 2) ;; (.tok 43) ;; (.ret true)) (.val true))) ;;
     (.ite ((.look 45) ;; (.chr 45 (.rg 0 1114111)))
       ((.ite (.chr 45 (.rg 43 43))
          (.put 46 1)
          (.ite (.chr 45 (.rg 45 45))
            (.put 46 1)
            (.ite (.chr 45 (.rg 42 42))
              (.put 46 1)
              (.ite (.chr 45 (.rg 47 47))
                (.put 46 1)
                (.ite (.chr 45 (.rg 37 37))
                  (.put 46 1)
                  (.ite (.chr 45 (.rg 38 38))
                    (.put 46 1)
                    (.ite (.chr 45 (.rg 124 124))
                      (.put 46 1)
                      (.ite (.chr 45 (.rg 94 94))
                        (.put 46 1)
                        (.ite (.chr 45 (.rg 126 126))
                          (.put 46 1)
                          (.ite (.chr 45 (.rg 33 33))
                            (.put 46 1)
                            (.ite (.chr 45 (.rg 61 61))
                              (.put 46 1)
                              (.ite (.chr 45 (.rg 60 60))
                                (.put 46 1)
                                (.ite (.chr 45 (.rg 62 62))
                                  (.put 46 1)
                                  (.ite (.chr 45 (.rg 46 46))
                                    (.put 46 1)
                                    (.ite (.chr 45 (.rg 58 58)) (.put 46 1) (.put 46 0)))))))))))))))) ;;
        (.ite (.flag 46) ((.advc 45) ;; (.tok 43) ;; (.ret true)) (.val true)))
       (.val true)) ;;
     (.val false))

/-- `lex_single_char_tokens` (examples/oak-idl/src/lexer/mod.rs:433-456). -/
def lexSingleCharTokens : Code :=
  .scope 47
    ((.mark 47) ;;
     (.ite ((.look 48) ;; (.chr 48 (.rg 0 1114111)))
       ((.ite (.chr 48 (.rg 40 40))
          (.val true)
          (.ite (.chr 48 (.rg 41 41))
            (.val true)
            (.ite (.chr 48 (.rg 123 123))
              (.val true)
              (.ite (.chr 48 (.rg 125 125))
                (.val true)
                (.ite (.chr 48 (.rg 91 91))
                  (.val true)
                  (.ite (.chr 48 (.rg 93 93))
                    (.val true)
                    (.ite (.chr 48 (.rg 44 44))
                      (.val true)
                      (.ite (.chr 48 (.rg 59 59)) (.val true) (.ite (.chr 48 (.rg 35 35)) (.val true) (.ret false)))))))))) ;;
        (.advc 48) ;;
        (.tok 47) ;;
        (.ret true))
       (.val true)) ;;
     (.val false))

/-- `run` (examples/oak-idl/src/lexer/mod.rs:38-78). -/
def run_ : Code :=
  .scope 0
    (.loop 0 false .more
      ((.mark 1) ;;
       (.ite skipWhitespace .cont (.val true)) ;;
       (.ite skipComment .cont (.val true)) ;;
       (.ite lexStringLiteral .cont (.val true)) ;;
       (.ite lexNumberLiteral .cont (.val true)) ;;
       (.ite lexIdentifierOrKeyword .cont (.val true)) ;;
       (.ite lexPreprocessor .cont (.val true)) ;;
       (.ite lexOperators .cont (.val true)) ;;
       (.ite lexSingleCharTokens .cont (.val true)) ;;
       (.guard 1)))

end Oaks.HandLex.Idl
