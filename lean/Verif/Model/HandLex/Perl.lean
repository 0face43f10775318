import Verif.Model.LexCode

/-
The lexer of the example `oak-perl` as a program of Model/LexCode.lean, function by function in the order of
the calls. Kinds of tokens and messages are left out.
-/
namespace Oaks.HandLex.Perl

open Oaks.Lc

/-- `skip_whitespace` (examples/oak-perl/src/lexer/mod.rs:32-34). -/
def skipWhitespace : Code :=
  .scope 2
    (.space true)

/-- `skip_comment` (examples/oak-perl/src/lexer/mod.rs:37-39). -/
def skipComment : Code :=
  .scope 2
    (.comment ⟨['#'], [], [], false⟩)

/-- `lex_string` (examples/oak-perl/src/lexer/mod.rs:42-82). -/
def lexString : Code :=
  .scope 2
    ((.mark 2) ;;
     (.ite ((.look 3) ;; (.chr 3 (.rg 0 1114111)))
       (.ite (.ite (.chr 3 (.rg 34 34)) (.val true) (.chr 3 (.rg 39 39)))
         ((.adv 1) ;;
          (.put 4 0) ;;
          (.loop 5 true ((.look 6) ;; (.chr 6 (.rg 0 1114111)))
            (.ite (.flag 4)
              ((.put 4 0) ;; (.advc 6))
              (.ite (.chr 6 (.rg 92 92))
                ((.put 4 1) ;; (.adv 1))
                (.ite (.same 6 3)
                  ((.adv 1) ;; .brk)
                  (.ite (.ite (.chr 6 (.rg 10 10)) (.val true) (.chr 6 (.rg 13 13))) .brk (.advc 6)))))) ;;
          (.tok 2) ;;
          (.val true))
         (.val false))
       (.val false)))

/-- `lex_variable` (examples/oak-perl/src/lexer/mod.rs:85-123). -/
def lexVariable : Code :=
  .scope 7
    (.ite ((.look 7) ;; (.chr 7 (.rg 0 1114111)))
      ((.mark 8) ;;
       (.ite (.chr 7 (.rg 36 36))
         ((.adv 1) ;;
          (.loop 13 true ((.look 14) ;; (.chr 14 (.rg 0 1114111)))
            (.ite (.ite (.chr 14 .alnum) (.val true) (.chr 14 (.rg 95 95))) (.advc 14) .brk)) ;;
          (.tok 8) ;;
          (.val true))
         (.ite (.chr 7 (.rg 64 64))
           ((.adv 1) ;;
            (.loop 11 true ((.look 12) ;; (.chr 12 (.rg 0 1114111)))
              (.ite (.ite (.chr 12 .alnum) (.val true) (.chr 12 (.rg 95 95))) (.advc 12) .brk)) ;;
            (.tok 8) ;;
            (.val true))
           (.ite (.chr 7 (.rg 37 37))
             ((.adv 1) ;;
              (.loop 9 true ((.look 10) ;; (.chr 10 (.rg 0 1114111)))
                (.ite (.ite (.chr 10 .alnum) (.val true) (.chr 10 (.rg 95 95))) (.advc 10) .brk)) ;;
              (.tok 8) ;;
              (.val true))
             (.val false)))))
      (.val false))

/-- `lex_identifier_or_keyword` (examples/oak-perl/src/lexer/mod.rs:126-204). -/
def lexIdentifierOrKeyword : Code :=
  .scope 15
    (.ite ((.look 15) ;; (.chr 15 (.rg 0 1114111)))
      (.ite (.ite (.chr 15 .alpha) (.val true) (.chr 15 (.rg 95 95)))
        ((.mark 16) ;;
         (.val true) ;;
         (.loop 17 true ((.look 18) ;; (.chr 18 (.rg 0 1114111)))
           (.ite (.ite (.chr 18 .alnum) (.val true) (.chr 18 (.rg 95 95))) (.advc 18) .brk)) ;;
         (.val true) ;;
         (.tok 16) ;;
         (.val true))
        (.val false))
      (.val false))

/-- `lex_number` (examples/oak-perl/src/lexer/mod.rs:207-239). -/
def lexNumber : Code :=
  .scope 19
    (.ite ((.look 19) ;; (.chr 19 (.rg 0 1114111)))
      (.ite (.chr 19 (.rg 48 57))
        ((.mark 20) ;;
         (.put 21 0) ;;
         (.loop 22 true ((.look 23) ;; (.chr 23 (.rg 0 1114111)))
           (.ite (.chr 23 (.rg 48 57))
             (.adv 1)
             (.ite (.ite (.chr 23 (.rg 46 46)) (.ite (.flag 21) (.val false) (.val true)) (.val false))
               ((.put 21 1) ;; (.adv 1))
               .brk))) ;;
         (.val true) ;;
         (.tok 20) ;;
         (.val true))
        (.val false))
      (.val false))

/-- `lex_operators_and_punctuation` (examples/oak-perl/src/lexer/mod.rs:242-463). -/
def lexOperatorsAndPunctuation : Code :=
  .scope 24
    (.ite ((.look 24) ;; (.chr 24 (.rg 0 1114111)))
      ((.mark 25) ;;
       (.ite (.chr 24 (.rg 43 43))
         ((.adv 1) ;;
          (.ite ((.look 45) ;; (.chr 45 (.rg 43 43)))
            (.adv 1)
            (.ite ((.look 44) ;; (.chr 44 (.rg 61 61))) (.adv 1) (.val true))))
         (.ite (.chr 24 (.rg 45 45))
           ((.adv 1) ;;
            (.ite ((.look 43) ;; (.chr 43 (.rg 45 45)))
              (.adv 1)
              (.ite ((.look 42) ;; (.chr 42 (.rg 61 61)))
                (.adv 1)
                (.ite ((.look 41) ;; (.chr 41 (.rg 62 62))) (.adv 1) (.val true)))))
           (.ite (.chr 24 (.rg 42 42))
             ((.adv 1) ;;
              (.ite ((.look 40) ;; (.chr 40 (.rg 42 42)))
                (.adv 1)
                (.ite ((.look 39) ;; (.chr 39 (.rg 61 61))) (.adv 1) (.val true))))
             (.ite (.chr 24 (.rg 47 47))
               ((.adv 1) ;; (.ite ((.look 38) ;; (.chr 38 (.rg 61 61))) (.adv 1) (.val true)))
               (.ite (.chr 24 (.rg 37 37))
                 ((.adv 1) ;; (.ite ((.look 37) ;; (.chr 37 (.rg 61 61))) (.adv 1) (.val true)))
                 (.ite (.chr 24 (.rg 61 61))
                   ((.adv 1) ;;
                    (.ite ((.look 35) ;; (.chr 35 (.rg 61 61)))
                      ((.adv 1) ;; (.ite ((.look 36) ;; (.chr 36 (.rg 62 62))) (.adv 1) (.val true)))
                      (.ite ((.look 34) ;; (.chr 34 (.rg 126 126))) (.adv 1) (.val true))))
                   (.ite (.chr 24 (.rg 60 60))
                     ((.adv 1) ;;
                      (.ite ((.look 33) ;; (.chr 33 (.rg 60 60)))
                        (.adv 1)
                        (.ite ((.look 31) ;; (.chr 31 (.rg 61 61)))
                          ((.adv 1) ;; (.ite ((.look 32) ;; (.chr 32 (.rg 62 62))) (.adv 1) (.val true)))
                          (.val true))))
                     (.ite (.chr 24 (.rg 62 62))
                       ((.adv 1) ;;
                        (.ite ((.look 30) ;; (.chr 30 (.rg 62 62)))
                          (.adv 1)
                          (.ite ((.look 29) ;; (.chr 29 (.rg 61 61))) (.adv 1) (.val true))))
                       (.ite (.chr 24 (.rg 33 33))
                         ((.adv 1) ;;
                          (.ite ((.look 28) ;; (.chr 28 (.rg 61 61)))
                            (.adv 1)
                            (.ite ((.look 27) ;; (.chr 27 (.rg 126 126))) (.adv 1) (.val true))))
                         (.ite (.chr 24 (.rg 38 38))
                           (.adv 1)
                           (.ite (.chr 24 (.rg 124 124))
                             (.adv 1)
                             (.ite (.chr 24 (.rg 94 94))
                               (.adv 1)
                               (.ite (.chr 24 (.rg 126 126))
                                 (.adv 1)
                                 (.ite (.chr 24 (.rg 46 46))
                                   ((.adv 1) ;; (.ite ((.look 26) ;; (.chr 26 (.rg 46 46))) (.adv 1) (.val true)))
                                   (.ite (.chr 24 (.rg 63 63))
                                     (.adv 1)
                                     (.ite (.chr 24 (.rg 58 58))
                                       (.adv 1)
                                       (.ite (.chr 24 (.rg 59 59))
                                         (.adv 1)
                                         (.ite (.chr 24 (.rg 44 44))
                                           (.adv 1)
                                           (.ite (.chr 24 (.rg 40 40))
                                             (.adv 1)
                                             (.ite (.chr 24 (.rg 41 41))
                                               (.adv 1)
                                               (.ite (.chr 24 (.rg 91 91))
                                                 (.adv 1)
                                                 (.ite (.chr 24 (.rg 93 93))
                                                   (.adv 1)
                                                   (.ite (.chr 24 (.rg 123 123))
                                                     (.adv 1)
                                                     (.ite (.chr 24 (.rg 125 125))
                                                       (.adv 1)
                                                       (.ite (.chr 24 (.rg 10 10)) (.adv 1) (.advc 24)))))))))))))))))))))))))) ;;
       (.tok 25) ;;
       (.val true))
      (.val false))

/-- `run` (examples/oak-perl/src/lexer/mod.rs:479-529). -/
def run_ : Code :=
  .scope 0
    (.loop 0 false .more
      ((.mark 1) ;;
       (.ite skipWhitespace .cont (.val true)) ;;
       (.ite skipComment .cont (.val true)) ;;
       (.ite lexString .cont (.val true)) ;;
       (.ite lexVariable .cont (.val true)) ;;
       (.ite lexIdentifierOrKeyword .cont (.val true)) ;;
       (.ite lexNumber .cont (.val true)) ;;
       (.ite lexOperatorsAndPunctuation .cont (.val true)) ;;
       (.mark 46) ;;
       (.ite ((.look 47) ;; (.chr 47 (.rg 0 1114111))) ((.advc 47) ;; (.tok 46)) (.val true)) ;;
       (.guard 1)))

end Oaks.HandLex.Perl
