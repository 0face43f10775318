import Verif.Model.LexCode

/-
The lexer of the example `oak-nim` as a program of Model/LexCode.lean, function by function in the order of
the calls. Kinds of tokens and messages are left out.
-/
namespace Oaks.HandLex.Nim

open Oaks.Lc

/-- `skip_whitespace` (examples/oak-nim/src/lexer/mod.rs:21-40). -/
def skipWhitespace : Code :=
  .scope 1
    ((.mark 1) ;;
     (.loop 2 true ((.look 3) ;; (.chr 3 (.rg 0 1114111)))
       (.ite (.ite (.chr 3 (.rg 32 32)) (.val true) (.chr 3 (.rg 9 9))) (.advc 3) .brk)) ;;
     (.ite (.moved 1) ((.tok 1) ;; (.val true)) (.val false)))

/-- `lex_newline` (examples/oak-nim/src/lexer/mod.rs:43-62). -/
def lexNewline : Code :=
  .scope 4
    ((.mark 4) ;;
     (.ite ((.look 7) ;; (.chr 7 (.rg 10 10)))
       ((.adv 1) ;; (.tok 4) ;; (.val true))
       (.ite ((.look 5) ;; (.chr 5 (.rg 13 13)))
         ((.adv 1) ;; (.ite ((.look 6) ;; (.chr 6 (.rg 10 10))) (.adv 1) (.val true)) ;; (.tok 4) ;; (.val true))
         (.val false))))

/-- `lex_comment` (examples/oak-nim/src/lexer/mod.rs:65-92). -/
def lexComment : Code :=
  .scope 8
    ((.mark 8) ;;
     (.ite ((.look 9) ;; (.chr 9 (.rg 35 35)))
       ((.adv 1) ;;
        (.ite ((.look 10) ;; (.chr 10 (.rg 35 35))) (.adv 1) (.val true)) ;;
        (.loop 11 true ((.look 12) ;; (.chr 12 (.rg 0 1114111)))
          ((.ite (.ite (.chr 12 (.rg 10 10)) (.val true) (.chr 12 (.rg 13 13))) .brk (.val true)) ;; (.advc 12))) ;;
        (.val true) ;;
        (.tok 8) ;;
        (.val true))
       (.val false)))

/-- `lex_string` (examples/oak-nim/src/lexer/mod.rs:95-123). -/
def lexString : Code :=
  .scope 13
    ((.mark 13) ;;
     (.ite ((.look 14) ;; (.chr 14 (.rg 34 34)))
       ((.adv 1) ;;
        (.loop 15 true ((.look 16) ;; (.chr 16 (.rg 0 1114111)))
          ((.ite (.chr 16 (.rg 34 34)) ((.adv 1) ;; .brk) (.val true)) ;;
           (.ite (.chr 16 (.rg 92 92))
             ((.adv 1) ;; (.ite ((.look 17) ;; (.chr 17 (.rg 0 1114111))) (.advc 17) (.val true)))
             (.advc 16)))) ;;
        (.tok 13) ;;
        (.val true))
       (.val false)))

/-- `lex_char` (examples/oak-nim/src/lexer/mod.rs:126-154). -/
def lexChar : Code :=
  .scope 18
    ((.mark 18) ;;
     (.ite ((.look 19) ;; (.chr 19 (.rg 39 39)))
       ((.adv 1) ;;
        (.ite ((.look 21) ;; (.chr 21 (.rg 92 92)))
          ((.adv 1) ;; (.ite ((.look 22) ;; (.chr 22 (.rg 0 1114111))) (.advc 22) (.val true)))
          (.ite ((.look 20) ;; (.chr 20 (.rg 0 1114111)))
            (.ite (.ite (.chr 20 (.rg 39 39)) (.val false) (.val true)) (.advc 20) (.val true))
            (.val true))) ;;
        (.ite ((.look 23) ;; (.chr 23 (.rg 39 39))) (.adv 1) (.val true)) ;;
        (.tok 18) ;;
        (.val true))
       (.val false)))

/-- `lex_number` (examples/oak-nim/src/lexer/mod.rs:157-199). -/
def lexNumber : Code :=
  .scope 24
    ((.mark 24) ;;
     (.ite ((.look 25) ;; (.chr 25 (.rg 0 1114111)))
       (.ite (.chr 25 (.rg 48 57))
         ((.advc 25) ;;
          (.loop 26 true ((.look 27) ;; (.chr 27 (.rg 0 1114111)))
            (.ite (.ite (.chr 27 .alnum) (.val true) (.chr 27 (.rg 95 95))) (.advc 27) .brk)) ;;
          (.put 28 0) ;;
          (.ite ((.look 29) ;; (.chr 29 (.rg 46 46)))
            ((.adv 1) ;;
             (.put 28 1) ;;
             (.loop 30 true ((.look 31) ;; (.chr 31 (.rg 0 1114111)))
               (.ite (.ite (.chr 31 (.rg 48 57)) (.val true) (.chr 31 (.rg 95 95))) (.advc 31) .brk)))
            (.val true)) ;;
          (.val true) ;;
          (.tok 24) ;;
          (.val true))
         (.val false))
       (.val false)))

/-- `lex_identifier` (examples/oak-nim/src/lexer/mod.rs:202-264). -/
def lexIdentifier : Code :=
  .scope 32
    ((.mark 32) ;;
     (.ite ((.look 33) ;; (.chr 33 (.rg 0 1114111)))
       (.ite (.ite (.chr 33 .alpha) (.val true) (.chr 33 (.rg 95 95)))
         ((.advc 33) ;;
          (.loop 34 true ((.look 35) ;; (.chr 35 (.rg 0 1114111)))
            (.ite (.ite (.chr 35 .alnum) (.val true) (.chr 35 (.rg 95 95))) (.advc 35) .brk)) ;;
          (.val true) ;;
          (.val true) ;;
          (.tok 32) ;;
          (.val true))
         (.val false))
       (.val false)))

/-- `lex_operator` (examples/oak-nim/src/lexer/mod.rs:267-400). -/
def lexOperator : Code :=
  .scope 36
    (.ite ((.look 36) ;; (.chr 36 (.rg 0 1114111)))
      ((.mark 37) ;;
       (.ite (.chr 36 (.rg 43 43))
         ((.adv 1) ;; (.tok 37) ;; (.val true))
         (.ite (.chr 36 (.rg 45 45))
           ((.adv 1) ;; (.tok 37) ;; (.val true))
           (.ite (.chr 36 (.rg 42 42))
             ((.adv 1) ;; (.tok 37) ;; (.val true))
             (.ite (.chr 36 (.rg 47 47))
               ((.adv 1) ;; (.tok 37) ;; (.val true))
               (.ite (.chr 36 (.rg 61 61))
                 ((.adv 1) ;;
                  (.ite ((.look 43) ;; (.chr 43 (.rg 61 61))) ((.adv 1) ;; (.tok 37)) (.tok 37)) ;;
                  (.val true))
                 (.ite (.chr 36 (.rg 33 33))
                   ((.adv 1) ;;
                    (.ite ((.look 42) ;; (.chr 42 (.rg 61 61))) ((.adv 1) ;; (.tok 37)) (.tok 37)) ;;
                    (.val true))
                   (.ite (.chr 36 (.rg 60 60))
                     ((.adv 1) ;;
                      (.ite ((.look 41) ;; (.chr 41 (.rg 61 61)))
                        ((.adv 1) ;; (.tok 37))
                        (.ite ((.look 40) ;; (.chr 40 (.rg 60 60))) ((.adv 1) ;; (.tok 37)) (.tok 37))) ;;
                      (.val true))
                     (.ite (.chr 36 (.rg 62 62))
                       ((.adv 1) ;;
                        (.ite ((.look 39) ;; (.chr 39 (.rg 61 61)))
                          ((.adv 1) ;; (.tok 37))
                          (.ite ((.look 38) ;; (.chr 38 (.rg 62 62))) ((.adv 1) ;; (.tok 37)) (.tok 37))) ;;
                        (.val true))
                       (.ite (.chr 36 (.rg 40 40))
                         ((.adv 1) ;; (.tok 37) ;; (.val true))
                         (.ite (.chr 36 (.rg 41 41))
                           ((.adv 1) ;; (.tok 37) ;; (.val true))
                           (.ite (.chr 36 (.rg 91 91))
                             ((.adv 1) ;; (.tok 37) ;; (.val true))
                             (.ite (.chr 36 (.rg 93 93))
                               ((.adv 1) ;; (.tok 37) ;; (.val true))
                               (.ite (.chr 36 (.rg 123 123))
                                 ((.adv 1) ;; (.tok 37) ;; (.val true))
                                 (.ite (.chr 36 (.rg 125 125))
                                   ((.adv 1) ;; (.tok 37) ;; (.val true))
                                   (.ite (.chr 36 (.rg 44 44))
                                     ((.adv 1) ;; (.tok 37) ;; (.val true))
                                     (.ite (.chr 36 (.rg 59 59))
                                       ((.adv 1) ;; (.tok 37) ;; (.val true))
                                       (.ite (.chr 36 (.rg 58 58))
                                         ((.adv 1) ;; (.tok 37) ;; (.val true))
                                         (.ite (.chr 36 (.rg 46 46))
                                           ((.adv 1) ;; (.tok 37) ;; (.val true))
                                           (.val false))))))))))))))))))))
      (.val false))

/-- `run` (examples/oak-nim/src/lexer/mod.rs:402-416). -/
def run_ : Code :=
  .scope 0
    (.loop 0 false .more
      ((.ite (.ite (.ite (.ite (.ite (.ite (.ite (.ite skipWhitespace (.val true) lexNewline) (.val true) lexComment)
                   (.val true)
                   lexString)
                 (.val true)
                 lexChar)
               (.val true)
               lexNumber)
             (.val true)
             lexIdentifier)
           (.val true)
           lexOperator)
         .cont
         (.val true)) ;;
       (.mark 44) ;;
       (.ite ((.look 45) ;; (.chr 45 (.rg 0 1114111))) ((.advc 45) ;; (.tok 44)) (.val true))))

end Oaks.HandLex.Nim
