import Verif.Model.LexCode

/-
The lexer of the example `oak-msil` as a program of Model/LexCode.lean, function by function in the order of
the calls. Kinds of tokens and messages are left out.
-/
namespace Oaks.HandLex.Msil

open Oaks.Lc

/-- `skip_whitespace` (examples/oak-msil/src/lexer/mod.rs:68-82). -/
def skipWhitespace : Code :=
  .scope 2
    ((.mark 2) ;;
     (.loop 3 true ((.look 4) ;; (.chr 4 (.rg 0 1114111)))
       (.ite (.ite (.chr 4 (.rg 32 32)) (.val true) (.chr 4 (.rg 9 9))) (.advc 4) .brk)) ;;
     (.ite (.moved 2) ((.tok 2) ;; (.val true)) (.val false)))

/-- `lex_newline` (examples/oak-msil/src/lexer/mod.rs:85-104). -/
def lexNewline : Code :=
  .scope 5
    ((.mark 5) ;;
     (.ite ((.look 8) ;; (.chr 8 (.rg 10 10)))
       ((.adv 1) ;; (.tok 5) ;; (.val true))
       (.ite ((.look 6) ;; (.chr 6 (.rg 13 13)))
         ((.adv 1) ;; (.ite ((.look 7) ;; (.chr 7 (.rg 10 10))) (.adv 1) (.val true)) ;; (.tok 5) ;; (.val true))
         (.val false))))

/-- `lex_comment` (examples/oak-msil/src/lexer/mod.rs:107-126). -/
def lexComment : Code :=
  .scope 9
    ((.mark 9) ;;
     (.ite ((.look 10) ;; (.chr 10 (.rg 47 47)))
       (.ite ((.lookN 11 1) ;; (.chr 11 (.rg 47 47)))
         ((.adv 2) ;;
          (.loop 12 true ((.look 13) ;; (.chr 13 (.rg 0 1114111)))
            ((.ite (.ite (.chr 13 (.rg 10 10)) (.val true) (.chr 13 (.rg 13 13))) .brk (.val true)) ;; (.advc 13))) ;;
          (.tok 9) ;;
          (.ret true))
         (.val true))
       (.val true)) ;;
     (.val false))

/-- `lex_string` (examples/oak-msil/src/lexer/mod.rs:233-261). -/
def lexString : Code :=
  .scope 14
    ((.mark 14) ;;
     (.ite ((.look 15) ;; (.chr 15 (.rg 34 34)))
       ((.adv 1) ;;
        (.loop 16 true ((.look 17) ;; (.chr 17 (.rg 0 1114111)))
          (.ite (.chr 17 (.rg 34 34))
            ((.adv 1) ;; .brk)
            (.ite (.chr 17 (.rg 92 92))
              ((.adv 1) ;; (.ite ((.look 18) ;; (.chr 18 (.rg 0 1114111))) (.adv 1) (.val true)))
              (.advc 17)))) ;;
        (.tok 14) ;;
        (.val true))
       (.val false)))

/-- `lex_number` (examples/oak-msil/src/lexer/mod.rs:199-230). -/
def lexNumber : Code :=
  .scope 19
    ((.mark 19) ;;
     (.ite ((.look 20) ;; (.chr 20 (.rg 0 1114111)))
       ((.ite (.ite (.chr 20 (.rg 48 57)) (.val false) (.val true)) (.ret false) (.val true)) ;;
        (.loop 21 true ((.look 22) ;; (.chr 22 (.rg 0 1114111))) (.ite (.chr 22 (.rg 48 57)) (.advc 22) .brk)) ;;
        (.ite ((.look 23) ;; (.chr 23 (.rg 46 46)))
          (.ite ((.lookN 24 1) ;; (.chr 24 (.rg 0 1114111)))
            (.ite (.chr 24 (.rg 48 57))
              ((.adv 1) ;;
               (.loop 25 true ((.look 26) ;; (.chr 26 (.rg 0 1114111))) (.ite (.chr 26 (.rg 48 57)) (.advc 26) .brk)))
              (.val true))
            (.val true))
          (.val true)) ;;
        (.tok 19) ;;
        (.val true))
       (.val false)))

/-- `lex_identifier` (examples/oak-msil/src/lexer/mod.rs:129-196). -/
def lexIdentifier : Code :=
  .scope 27
    ((.mark 27) ;;
     (.ite ((.look 28) ;; (.chr 28 (.rg 0 1114111)))
       ((.ite (.ite (.ite (.ite (.chr 28 (.or (.rg 65 90) (.rg 97 122))) (.val false) (.val true))
              (.ite (.chr 28 (.rg 95 95)) (.val false) (.val true))
              (.val false))
            (.ite (.chr 28 (.rg 46 46)) (.val false) (.val true))
            (.val false))
          (.ret false)
          (.val true)) ;;
        (.loop 29 true ((.look 30) ;; (.chr 30 (.rg 0 1114111)))
          (.ite (.ite (.ite (.chr 30 (.or (.or (.rg 48 57) (.rg 65 90)) (.rg 97 122))) (.val true) (.chr 30 (.rg 95 95)))
              (.val true)
              (.chr 30 (.rg 46 46)))
            (.advc 30)
            .brk)) ;;
        (.val true) ;;
        (.val true) ;;
        (.tok 27) ;;
        (.val true))
       (.val false)))

/-- `lex_delimiter` (examples/oak-msil/src/lexer/mod.rs:264-291). -/
def lexDelimiter : Code :=
  .scope 31
    ((.mark 31) ;;
     (.ite ((.look 32) ;; (.chr 32 (.rg 0 1114111)))
       ((.ite (.chr 32 (.rg 123 123))
          (.val true)
          (.ite (.chr 32 (.rg 125 125))
            (.val true)
            (.ite (.chr 32 (.rg 40 40))
              (.val true)
              (.ite (.chr 32 (.rg 41 41))
                (.val true)
                (.ite (.chr 32 (.rg 91 91))
                  (.val true)
                  (.ite (.chr 32 (.rg 93 93))
                    (.val true)
                    (.ite (.chr 32 (.rg 46 46))
                      (.val true)
                      (.ite (.chr 32 (.rg 58 58))
                        (.val true)
                        (.ite (.chr 32 (.rg 59 59))
                          (.val true)
                          (.ite (.chr 32 (.rg 44 44))
                            (.val true)
                            (.ite (.chr 32 (.rg 61 61))
                              (.val true)
                              (.ite (.chr 32 (.rg 47 47)) (.val true) (.ret false))))))))))))) ;;
        (.advc 32) ;;
        (.tok 31) ;;
        (.val true))
       (.val false)))

/-- `run` (examples/oak-msil/src/lexer/mod.rs:22-65). -/
def run_ : Code :=
  .scope 0
    ((.mark 0) ;;
     (.loop 1 false .more
       ((.ite skipWhitespace .cont (.val true)) ;;
        (.ite lexNewline .cont (.val true)) ;;
        (.ite lexComment .cont (.val true)) ;;
        (.ite lexString .cont (.val true)) ;;
        (.ite lexNumber .cont (.val true)) ;;
        (.ite lexIdentifier .cont (.val true)) ;;
        (.ite lexDelimiter .cont (.val true)) ;;
        (.ite ((.look 33) ;; (.chr 33 (.rg 0 1114111))) ((.mark 34) ;; (.advc 33) ;; (.tok 34)) (.val true)) ;;
        (.guard 0))))

end Oaks.HandLex.Msil
