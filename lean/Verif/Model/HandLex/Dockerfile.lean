import Verif.Model.LexCode

/-
The lexer of the example `oak-dockerfile` as a program of Model/LexCode.lean, function by function in the order of
the calls. Kinds of tokens and messages are left out.
-/
namespace Oaks.HandLex.Dockerfile

open Oaks.Lc

/-- `skip_whitespace` (examples/oak-dockerfile/src/lexer/mod.rs:83-85). -/
def skipWhitespace : Code :=
  .scope 2
    (.space true)

/-- `lex_newline` (examples/oak-dockerfile/src/lexer/mod.rs:88-106). -/
def lexNewline : Code :=
  .scope 2
    ((.mark 2) ;;
     (.ite ((.look 3) ;; (.chr 3 (.rg 0 1114111)))
       (.ite (.chr 3 (.rg 10 10))
         ((.adv 1) ;; (.tok 2) ;; (.ret true))
         (.ite (.chr 3 (.rg 13 13))
           ((.adv 1) ;; (.ite ((.look 4) ;; (.chr 4 (.rg 10 10))) (.adv 1) (.val true)) ;; (.tok 2) ;; (.ret true))
           (.val true)))
       (.val true)) ;;
     (.val false))

/-- `lex_comment` (examples/oak-dockerfile/src/lexer/mod.rs:109-123). -/
def lexComment : Code :=
  .scope 5
    ((.mark 5) ;;
     (.ite ((.look 6) ;; (.chr 6 (.rg 35 35)))
       ((.adv 1) ;;
        (.loop 7 true ((.look 8) ;; (.chr 8 (.rg 0 1114111)))
          ((.ite (.ite (.chr 8 (.rg 10 10)) (.val true) (.chr 8 (.rg 13 13))) .brk (.val true)) ;; (.advc 8))) ;;
        (.tok 5) ;;
        (.ret true))
       (.val true)) ;;
     (.val false))

/-- `lex_identifier_or_instruction` (examples/oak-dockerfile/src/lexer/mod.rs:126-173). -/
def lexIdentifierOrInstruction : Code :=
  .scope 9
    ((.mark 9) ;;
     (.ite ((.look 10) ;; (.chr 10 (.rg 0 1114111)))
       (.ite (.ite (.chr 10 (.or (.rg 65 90) (.rg 97 122))) (.val true) (.chr 10 (.rg 95 95)))
         ((.advc 10) ;;
          (.loop 11 true ((.look 12) ;; (.chr 12 (.rg 0 1114111)))
            (.ite (.ite (.chr 12 (.or (.or (.rg 48 57) (.rg 65 90)) (.rg 97 122))) (.val true) (.chr 12 (.rg 95 95)))
              (.advc 12)
              .brk)) ;;
          (.mark 13) ;;
          (.tokTo 9 13) ;;
          (.ret true))
         (.val true))
       (.val true)) ;;
     (.val false))

/-- `lex_number` (examples/oak-dockerfile/src/lexer/mod.rs:176-191). -/
def lexNumber : Code :=
  .scope 14
    ((.mark 14) ;;
     (.ite ((.look 15) ;; (.chr 15 (.rg 0 1114111)))
       (.ite (.chr 15 (.rg 48 57))
         ((.adv 1) ;;
          (.loop 16 true ((.look 17) ;; (.chr 17 (.rg 0 1114111)))
            (.ite (.ite (.chr 17 (.rg 48 57)) (.val true) (.chr 17 (.rg 46 46))) (.adv 1) .brk)) ;;
          (.tok 14) ;;
          (.ret true))
         (.val true))
       (.val true)) ;;
     (.val false))

/-- `lex_string` (examples/oak-dockerfile/src/lexer/mod.rs:194-221). -/
def lexString : Code :=
  .scope 18
    ((.mark 18) ;;
     (.ite ((.look 19) ;; (.chr 19 (.rg 0 1114111)))
       (.ite (.ite (.chr 19 (.rg 34 34)) (.val true) (.chr 19 (.rg 39 39)))
         ((.adv 1) ;;
          (.loop 20 true ((.look 21) ;; (.chr 21 (.rg 0 1114111)))
            (.ite (.same 21 19)
              ((.adv 1) ;; .brk)
              (.ite (.chr 21 (.rg 92 92))
                ((.adv 1) ;; (.ite ((.look 22) ;; (.chr 22 (.rg 0 1114111))) (.adv 1) (.val true)))
                (.advc 21)))) ;;
          (.tok 18) ;;
          (.ret true))
         (.val true))
       (.val true)) ;;
     (.val false))

/-- `lex_path` (examples/oak-dockerfile/src/lexer/mod.rs:224-239). -/
def lexPath : Code :=
  .scope 23
    ((.mark 23) ;;
     (.ite ((.look 24) ;; (.chr 24 (.rg 0 1114111)))
       (.ite (.ite (.chr 24 (.rg 47 47)) (.val true) (.chr 24 (.rg 46 46)))
         ((.adv 1) ;;
          (.loop 25 true ((.look 26) ;; (.chr 26 (.rg 0 1114111)))
            (.ite (.ite (.ite (.ite (.ite (.chr 26 (.or (.or (.rg 48 57) (.rg 65 90)) (.rg 97 122)))
                      (.val true)
                      (.chr 26 (.rg 47 47)))
                    (.val true)
                    (.chr 26 (.rg 46 46)))
                  (.val true)
                  (.chr 26 (.rg 45 45)))
                (.val true)
                (.chr 26 (.rg 95 95)))
              (.adv 1)
              .brk)) ;;
          (.tok 23) ;;
          (.ret true))
         (.val true))
       (.val true)) ;;
     (.val false))

/-- `lex_operators_and_delimiters` (examples/oak-dockerfile/src/lexer/mod.rs:242-265). -/
def lexOperatorsAndDelimiters : Code :=
  .scope 27
    ((.mark 27) ;;
     (.ite ((.look 28) ;; (.chr 28 (.rg 0 1114111)))
       ((.ite (.chr 28 (.rg 61 61))
          (.val true)
          (.ite (.chr 28 (.rg 58 58))
            (.val true)
            (.ite (.chr 28 (.rg 123 123))
              (.val true)
              (.ite (.chr 28 (.rg 125 125))
                (.val true)
                (.ite (.chr 28 (.rg 91 91))
                  (.val true)
                  (.ite (.chr 28 (.rg 93 93))
                    (.val true)
                    (.ite (.chr 28 (.rg 40 40))
                      (.val true)
                      (.ite (.chr 28 (.rg 41 41))
                        (.val true)
                        (.ite (.chr 28 (.rg 44 44))
                          (.val true)
                          (.ite (.chr 28 (.rg 59 59))
                            (.val true)
                            (.ite (.chr 28 (.rg 36 36)) (.val true) (.ret false)))))))))))) ;;
        (.adv 1) ;;
        (.tok 27) ;;
        (.ret true))
       (.val true)) ;;
     (.val false))

/-- `lex_other` (examples/oak-dockerfile/src/lexer/mod.rs:268-276). -/
def lexOther : Code :=
  .scope 29
    ((.mark 29) ;;
     (.ite ((.look 30) ;; (.chr 30 (.rg 0 1114111))) ((.advc 30) ;; (.tok 29) ;; (.ret true)) (.val true)) ;;
     (.val false))

/-- `run` (examples/oak-dockerfile/src/lexer/mod.rs:36-80). -/
def run_ : Code :=
  .scope 0
    (.loop 0 false .more
      ((.mark 1) ;;
       (.ite skipWhitespace .cont (.val true)) ;;
       (.ite lexNewline .cont (.val true)) ;;
       (.ite lexComment .cont (.val true)) ;;
       (.ite lexIdentifierOrInstruction .cont (.val true)) ;;
       (.ite lexNumber .cont (.val true)) ;;
       (.ite lexString .cont (.val true)) ;;
       (.ite lexPath .cont (.val true)) ;;
       (.ite lexOperatorsAndDelimiters .cont (.val true)) ;;
       (.ite lexOther .cont (.val true)) ;;
       (.guard 1)))

end Oaks.HandLex.Dockerfile
