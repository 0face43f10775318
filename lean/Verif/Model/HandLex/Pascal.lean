import Verif.Model.LexCode

/-
The lexer of the example `oak-pascal` as a program of Model/LexCode.lean, function by function in the order of
the calls. Kinds of tokens and messages are left out.
-/
namespace Oaks.HandLex.Pascal

open Oaks.Lc

/-- `skip_whitespace` (examples/oak-pascal/src/lexer/mod.rs:27-29). -/
def skipWhitespace : Code :=
  .scope 2
    (.space true)

/-- `skip_comment` (examples/oak-pascal/src/lexer/mod.rs:31-68). -/
def skipComment : Code :=
  .scope 2
    ((.mark 2) ;;
     (.ite (.restStarts ['/', '/'])
       (.ite (.comment ⟨['/', '/'], ['{'], ['}'], false⟩) (.ret true) (.ret false))
       (.val true)) ;;
     (.ite ((.look 3) ;; (.chr 3 (.rg 123 123)))
       ((.adv 1) ;;
        (.loop 4 true ((.look 5) ;; (.chr 5 (.rg 0 1114111)))
          ((.ite (.chr 5 (.rg 125 125)) ((.adv 1) ;; .brk) (.val true)) ;; (.advc 5))) ;;
        (.tok 2) ;;
        (.ret true))
       (.val true)) ;;
     (.ite (.restStarts ['(', '*'])
       ((.adv 2) ;;
        (.loop 6 true ((.look 7) ;; (.chr 7 (.rg 0 1114111)))
          ((.ite (.ite (.chr 7 (.rg 42 42)) ((.lookN 8 1) ;; (.chr 8 (.rg 41 41))) (.val false))
             ((.adv 2) ;; .brk)
             (.val true)) ;;
           (.advc 7))) ;;
        (.tok 2) ;;
        (.ret true))
       (.val true)) ;;
     (.val false))

/-- `lex_string` (examples/oak-pascal/src/lexer/mod.rs:70-94). -/
def lexString : Code :=
  .scope 9
    ((.mark 9) ;;
     (.ite ((.look 10) ;; (.chr 10 (.rg 39 39)))
       ((.adv 1) ;;
        (.loop 11 true ((.look 12) ;; (.chr 12 (.rg 0 1114111)))
          ((.ite (.chr 12 (.rg 39 39))
             (.ite ((.lookN 13 1) ;; (.chr 13 (.rg 39 39))) ((.adv 2) ;; .cont) ((.adv 1) ;; .brk))
             (.val true)) ;;
           (.advc 12))) ;;
        (.tok 9) ;;
        (.ret true))
       (.val true)) ;;
     (.val false))

/-- `lex_identifier_or_keyword` (examples/oak-pascal/src/lexer/mod.rs:96-164). -/
def lexIdentifierOrKeyword : Code :=
  .scope 14
    (.ite ((.look 14) ;; (.chr 14 (.rg 0 1114111)))
      (.ite (.ite (.chr 14 .alpha) (.val true) (.chr 14 (.rg 95 95)))
        ((.mark 15) ;;
         (.val true) ;;
         (.loop 16 true ((.look 17) ;; (.chr 17 (.rg 0 1114111)))
           (.ite (.ite (.chr 17 .alnum) (.val true) (.chr 17 (.rg 95 95))) (.advc 17) .brk)) ;;
         (.val true) ;;
         (.tok 15) ;;
         (.val true))
        (.val false))
      (.val false))

/-- `lex_number` (examples/oak-pascal/src/lexer/mod.rs:166-198). -/
def lexNumber : Code :=
  .scope 18
    (.ite ((.look 18) ;; (.chr 18 (.rg 0 1114111)))
      (.ite (.chr 18 (.rg 48 57))
        ((.mark 19) ;;
         (.put 20 0) ;;
         (.loop 21 true ((.look 22) ;; (.chr 22 (.rg 0 1114111)))
           (.ite (.chr 22 (.rg 48 57))
             (.adv 1)
             (.ite (.ite (.chr 22 (.rg 46 46)) (.ite (.flag 20) (.val false) (.val true)) (.val false))
               ((.put 20 1) ;; (.adv 1))
               .brk))) ;;
         (.val true) ;;
         (.tok 19) ;;
         (.val true))
        (.val false))
      (.val false))

/-- `lex_operators_and_punctuation` (examples/oak-pascal/src/lexer/mod.rs:200-313). -/
def lexOperatorsAndPunctuation : Code :=
  .scope 23
    (.ite ((.look 23) ;; (.chr 23 (.rg 0 1114111)))
      ((.mark 24) ;;
       (.ite (.chr 23 (.rg 43 43))
         (.adv 1)
         (.ite (.chr 23 (.rg 45 45))
           (.adv 1)
           (.ite (.chr 23 (.rg 42 42))
             (.adv 1)
             (.ite (.chr 23 (.rg 47 47))
               (.adv 1)
               (.ite (.chr 23 (.rg 61 61))
                 (.adv 1)
                 (.ite (.chr 23 (.rg 60 60))
                   ((.adv 1) ;;
                    (.ite ((.look 29) ;; (.chr 29 (.rg 61 61)))
                      (.adv 1)
                      (.ite ((.look 28) ;; (.chr 28 (.rg 62 62))) (.adv 1) (.val true))))
                   (.ite (.chr 23 (.rg 62 62))
                     ((.adv 1) ;; (.ite ((.look 27) ;; (.chr 27 (.rg 61 61))) (.adv 1) (.val true)))
                     (.ite (.chr 23 (.rg 58 58))
                       ((.adv 1) ;; (.ite ((.look 26) ;; (.chr 26 (.rg 61 61))) (.adv 1) (.val true)))
                       (.ite (.chr 23 (.rg 59 59))
                         (.adv 1)
                         (.ite (.chr 23 (.rg 44 44))
                           (.adv 1)
                           (.ite (.chr 23 (.rg 46 46))
                             ((.adv 1) ;; (.ite ((.look 25) ;; (.chr 25 (.rg 46 46))) (.adv 1) (.val true)))
                             (.ite (.chr 23 (.rg 40 40))
                               (.adv 1)
                               (.ite (.chr 23 (.rg 41 41))
                                 (.adv 1)
                                 (.ite (.chr 23 (.rg 91 91))
                                   (.adv 1)
                                   (.ite (.chr 23 (.rg 93 93))
                                     (.adv 1)
                                     (.ite (.chr 23 (.rg 94 94))
                                       (.adv 1)
                                       (.ite (.chr 23 (.rg 10 10)) (.adv 1) (.advc 23)))))))))))))))))) ;;
       (.tok 24) ;;
       (.val true))
      (.val false))

/-- `run` (examples/oak-pascal/src/lexer/mod.rs:328-373). -/
def run_ : Code :=
  .scope 0
    ((.mark 0) ;;
     (.loop 1 false .more
       ((.ite skipWhitespace .cont (.val true)) ;;
        (.ite skipComment .cont (.val true)) ;;
        (.ite lexString .cont (.val true)) ;;
        (.ite lexIdentifierOrKeyword .cont (.val true)) ;;
        (.ite lexNumber .cont (.val true)) ;;
        (.ite lexOperatorsAndPunctuation .cont (.val true)) ;;
        (.mark 30) ;;
        (.ite ((.look 31) ;; (.chr 31 (.rg 0 1114111))) ((.advc 31) ;; (.tok 30)) (.val true)) ;;
        (.guard 0))))

end Oaks.HandLex.Pascal
