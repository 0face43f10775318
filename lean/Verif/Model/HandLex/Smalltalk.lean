import Verif.Model.LexCode

/-
The lexer of the example `oak-smalltalk` as a program of Model/LexCode.lean, function by function in the order of
the calls. Kinds of tokens and messages are left out.
-/
namespace Oaks.HandLex.Smalltalk

open Oaks.Lc

/-- `skip_whitespace` (examples/oak-smalltalk/src/lexer/mod.rs:80-99). -/
def skipWhitespace : Code :=
  .scope 2
    ((.mark 2) ;;
     (.loop 3 true ((.look 4) ;; (.chr 4 (.rg 0 1114111)))
       (.ite (.ite (.chr 4 (.rg 32 32)) (.val true) (.chr 4 (.rg 9 9))) (.advc 4) .brk)) ;;
     (.ite (.moved 2) ((.tok 2) ;; (.val true)) (.val false)))

/-- `lex_newline` (examples/oak-smalltalk/src/lexer/mod.rs:102-121). -/
def lexNewline : Code :=
  .scope 5
    ((.mark 5) ;;
     (.ite ((.look 8) ;; (.chr 8 (.rg 10 10)))
       ((.adv 1) ;; (.tok 5) ;; (.val true))
       (.ite ((.look 6) ;; (.chr 6 (.rg 13 13)))
         ((.adv 1) ;; (.ite ((.look 7) ;; (.chr 7 (.rg 10 10))) (.adv 1) (.val true)) ;; (.tok 5) ;; (.val true))
         (.val false))))

/-- `lex_comment` (examples/oak-smalltalk/src/lexer/mod.rs:124-144). -/
def lexComment : Code :=
  .scope 9
    ((.mark 9) ;;
     (.ite ((.look 10) ;; (.chr 10 (.rg 34 34)))
       ((.adv 1) ;;
        (.loop 11 true ((.look 12) ;; (.chr 12 (.rg 0 1114111)))
          ((.ite (.chr 12 (.rg 34 34)) ((.adv 1) ;; .brk) (.val true)) ;; (.advc 12))) ;;
        (.tok 9) ;;
        (.val true))
       (.val false)))

/-- `lex_number` (examples/oak-smalltalk/src/lexer/mod.rs:176-202). -/
def lexNumber : Code :=
  .scope 13
    ((.mark 13) ;;
     (.ite ((.look 14) ;; (.chr 14 (.rg 0 1114111)))
       (.ite (.chr 14 (.rg 48 57))
         ((.adv 1) ;;
          (.loop 15 true ((.look 16) ;; (.chr 16 (.rg 0 1114111))) (.ite (.chr 16 (.rg 48 57)) (.adv 1) .brk)) ;;
          (.tok 13) ;;
          (.val true))
         (.val false))
       (.val false)))

/-- `lex_identifier` (examples/oak-smalltalk/src/lexer/mod.rs:147-173). -/
def lexIdentifier : Code :=
  .scope 17
    ((.mark 17) ;;
     (.ite ((.look 18) ;; (.chr 18 (.rg 0 1114111)))
       (.ite (.ite (.chr 18 .alpha) (.val true) (.chr 18 (.rg 95 95)))
         ((.advc 18) ;;
          (.loop 19 true ((.look 20) ;; (.chr 20 (.rg 0 1114111)))
            (.ite (.ite (.chr 20 .alnum) (.val true) (.chr 20 (.rg 95 95))) (.advc 20) .brk)) ;;
          (.tok 17) ;;
          (.val true))
         (.val false))
       (.val false)))

/-- `lex_punctuation` (examples/oak-smalltalk/src/lexer/mod.rs:205-236). -/
def lexPunctuation : Code :=
  .scope 21
    ((.mark 21) ;;
     (.ite ((.look 22) ;; (.chr 22 (.rg 0 1114111)))
       ((.ite (.chr 22 (.rg 40 40))
          (.val true)
          (.ite (.chr 22 (.rg 41 41))
            (.val true)
            (.ite (.chr 22 (.rg 91 91))
              (.val true)
              (.ite (.chr 22 (.rg 93 93))
                (.val true)
                (.ite (.chr 22 (.rg 123 123))
                  (.val true)
                  (.ite (.chr 22 (.rg 125 125))
                    (.val true)
                    (.ite (.chr 22 (.rg 46 46))
                      (.val true)
                      (.ite (.chr 22 (.rg 59 59))
                        (.val true)
                        (.ite (.chr 22 (.rg 44 44))
                          (.val true)
                          (.ite (.chr 22 (.rg 43 43))
                            (.val true)
                            (.ite (.chr 22 (.rg 45 45))
                              (.val true)
                              (.ite (.chr 22 (.rg 42 42))
                                (.val true)
                                (.ite (.chr 22 (.rg 47 47))
                                  (.val true)
                                  (.ite (.chr 22 (.rg 61 61))
                                    (.val true)
                                    (.ite (.chr 22 (.rg 60 60))
                                      (.val true)
                                      (.ite (.chr 22 (.rg 62 62)) (.val true) (.ret false))))))))))))))))) ;;
        (.adv 1) ;;
        (.tok 21) ;;
        (.val true))
       (.val false)))

/-- `run` (examples/oak-smalltalk/src/lexer/mod.rs:36-77). -/
def run_ : Code :=
  .scope 0
    (.loop 0 false .more
      ((.mark 1) ;;
       (.ite skipWhitespace .cont (.val true)) ;;
       (.ite lexNewline .cont (.val true)) ;;
       (.ite lexComment .cont (.val true)) ;;
       (.ite lexNumber .cont (.val true)) ;;
       (.ite lexIdentifier .cont (.val true)) ;;
       (.ite lexPunctuation .cont (.val true)) ;;
       (.mark 23) ;;
       (.ite ((.look 24) ;; (.chr 24 (.rg 0 1114111))) ((.advc 24) ;; (.tok 23)) (.val true)) ;;
       (.guard 1)))

end Oaks.HandLex.Smalltalk
