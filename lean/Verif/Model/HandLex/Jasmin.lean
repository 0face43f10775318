import Verif.Model.LexCode

/-
The lexer of the example `oak-jasmin` as a program of Model/LexCode.lean, function by function in the order of
the calls. Kinds of tokens and messages are left out.
-/
namespace Oaks.HandLex.Jasmin

open Oaks.Lc

/-- `skip_whitespace` (examples/oak-jasmin/src/lexer/mod.rs:109-130). -/
def skipWhitespace : Code :=
  .scope 2
    ((.mark 2) ;;
     (.put 3 0) ;;
     (.loop 4 true ((.look 5) ;; (.chr 5 (.rg 0 1114111))) (.ite (.chr 5 .white) ((.put 3 1) ;; (.advc 5)) .brk)) ;;
     (.ite (.flag 3) ((.tok 2) ;; (.val true)) (.val false)))

/-- `skip_comment` (examples/oak-jasmin/src/lexer/mod.rs:133-149). -/
def skipComment : Code :=
  .scope 6
    ((.ite ((.look 6) ;; (.chr 6 (.rg 0 1114111)))
       (.ite (.chr 6 (.rg 59 59))
         ((.mark 7) ;;
          (.loop 8 true ((.look 9) ;; (.chr 9 (.rg 0 1114111)))
            ((.advc 9) ;; (.ite (.chr 9 (.rg 10 10)) .brk (.val true)))) ;;
          (.tok 7) ;;
          (.ret true))
         (.val true))
       (.val true)) ;;
     (.val false))

/-- `lex_string` (examples/oak-jasmin/src/lexer/mod.rs:152-179). -/
def lexString : Code :=
  .scope 10
    ((.ite ((.look 10) ;; (.chr 10 (.rg 0 1114111)))
       (.ite (.chr 10 (.rg 34 34))
         ((.mark 11) ;;
          (.adv 1) ;;
          (.loop 12 true ((.look 13) ;; (.chr 13 (.rg 0 1114111)))
            (.ite (.chr 13 (.rg 34 34))
              ((.adv 1) ;; .brk)
              (.ite (.chr 13 (.rg 92 92))
                ((.adv 1) ;; (.ite ((.look 14) ;; (.chr 14 (.rg 0 1114111))) (.adv 1) (.val true)))
                (.advc 13)))) ;;
          (.tok 11) ;;
          (.ret true))
         (.val true))
       (.val true)) ;;
     (.val false))

/-- `lex_number` (examples/oak-jasmin/src/lexer/mod.rs:182-219). -/
def lexNumber : Code :=
  .scope 15
    ((.mark 15) ;;
     (.ite ((.look 16) ;; (.chr 16 (.rg 0 1114111)))
       ((.ite (.ite (.chr 16 (.rg 48 57)) (.val false) (.val true)) (.ret false) (.val true)) ;;
        (.loop 17 true ((.look 18) ;; (.chr 18 (.rg 0 1114111)))
          (.ite (.chr 18 (.rg 48 57))
            (.advc 18)
            (.ite (.chr 18 (.rg 46 46))
              ((.adv 1) ;;
               (.loop 19 true ((.look 20) ;; (.chr 20 (.rg 0 1114111))) (.ite (.chr 20 (.rg 48 57)) (.advc 20) .brk)) ;;
               .brk)
              .brk))) ;;
        (.tok 15) ;;
        (.ret true))
       (.val true)) ;;
     (.val false))

/-- `lex_identifier_or_keyword` (examples/oak-jasmin/src/lexer/mod.rs:222-252). -/
def lexIdentifierOrKeyword : Code :=
  .scope 21
    ((.mark 21) ;;
     (.ite ((.look 22) ;; (.chr 22 (.rg 0 1114111))) (.val true) (.ret false)) ;;
     (.ite (.ite (.ite (.ite (.chr 22 (.or (.rg 65 90) (.rg 97 122))) (.val false) (.val true))
           (.ite (.chr 22 (.rg 95 95)) (.val false) (.val true))
           (.val false))
         (.ite (.chr 22 (.rg 46 46)) (.val false) (.val true))
         (.val false))
       (.ret false)
       (.val true)) ;;
     (.advc 22) ;;
     (.loop 23 true ((.look 24) ;; (.chr 24 (.rg 0 1114111)))
       (.ite (.ite (.ite (.ite (.ite (.ite (.chr 24 (.or (.or (.rg 48 57) (.rg 65 90)) (.rg 97 122))) (.val true) (.chr 24 (.rg 95 95)))
                 (.val true)
                 (.chr 24 (.rg 47 47)))
               (.val true)
               (.chr 24 (.rg 36 36)))
             (.val true)
             (.chr 24 (.rg 60 60)))
           (.val true)
           (.chr 24 (.rg 62 62)))
         (.advc 24)
         .brk)) ;;
     (.mark 25) ;;
     (.val true) ;;
     (.val true) ;;
     (.tok 21) ;;
     (.val true))

/-- `lex_operator_or_delimiter` (examples/oak-jasmin/src/lexer/mod.rs:255-280). -/
def lexOperatorOrDelimiter : Code :=
  .scope 26
    ((.mark 26) ;;
     (.ite ((.look 27) ;; (.chr 27 (.rg 0 1114111))) (.val true) (.ret false)) ;;
     (.ite (.chr 27 (.rg 123 123))
       (.val true)
       (.ite (.chr 27 (.rg 125 125))
         (.val true)
         (.ite (.chr 27 (.rg 40 40))
           (.val true)
           (.ite (.chr 27 (.rg 41 41))
             (.val true)
             (.ite (.chr 27 (.rg 91 91))
               (.val true)
               (.ite (.chr 27 (.rg 93 93))
                 (.val true)
                 (.ite (.chr 27 (.rg 58 58))
                   (.val true)
                   (.ite (.chr 27 (.rg 59 59))
                     (.val true)
                     (.ite (.chr 27 (.rg 46 46))
                       (.val true)
                       (.ite (.chr 27 (.rg 44 44)) (.val true) (.ite (.chr 27 (.rg 47 47)) (.val true) (.ret false)))))))))))) ;;
     (.advc 27) ;;
     (.tok 26) ;;
     (.val true))

/-- `run` (examples/oak-jasmin/src/lexer/mod.rs:283-323). -/
def run_ : Code :=
  .scope 0
    (.loop 0 false .more
      ((.mark 1) ;;
       (.ite skipWhitespace .cont (.val true)) ;;
       (.ite skipComment .cont (.val true)) ;;
       (.ite lexString .cont (.val true)) ;;
       (.ite lexNumber .cont (.val true)) ;;
       (.ite lexIdentifierOrKeyword .cont (.val true)) ;;
       (.ite lexOperatorOrDelimiter .cont (.val true)) ;;
       (.mark 28) ;;
       (.ite ((.look 29) ;; (.chr 29 (.rg 0 1114111))) ((.advc 29) ;; (.tok 28)) (.val true)) ;;
       (.guard 1)))

end Oaks.HandLex.Jasmin
