import Verif.Model.LexCode

/-
The lexer of the example `oak-hlsl` as a program of Model/LexCode.lean, function by function in the order of
the calls. Kinds of tokens and messages are left out.
-/
namespace Oaks.HandLex.Hlsl

open Oaks.Lc

/-- `skip_whitespace` (examples/oak-hlsl/src/lexer/mod.rs:76-95). -/
def skipWhitespace : Code :=
  .scope 2
    ((.mark 2) ;;
     (.loop 3 true ((.look 4) ;; (.chr 4 (.rg 0 1114111)))
       (.ite (.ite (.chr 4 (.rg 32 32)) (.val true) (.chr 4 (.rg 9 9))) (.advc 4) .brk)) ;;
     (.ite (.moved 2) ((.tok 2) ;; (.val true)) (.val false)))

/-- `lex_newline` (examples/oak-hlsl/src/lexer/mod.rs:98-117). -/
def lexNewline : Code :=
  .scope 5
    ((.mark 5) ;;
     (.ite ((.look 8) ;; (.chr 8 (.rg 10 10)))
       ((.adv 1) ;; (.tok 5) ;; (.val true))
       (.ite ((.look 6) ;; (.chr 6 (.rg 13 13)))
         ((.adv 1) ;; (.ite ((.look 7) ;; (.chr 7 (.rg 10 10))) (.adv 1) (.val true)) ;; (.tok 5) ;; (.val true))
         (.val false))))

/-- `lex_comment` (examples/oak-hlsl/src/lexer/mod.rs:120-159). -/
def lexComment : Code :=
  .scope 9
    ((.mark 9) ;;
     (.ite ((.look 10) ;; (.chr 10 (.rg 47 47)))
       (.ite ((.lookN 11 1) ;; (.chr 11 (.rg 47 47)))
         ((.adv 2) ;;
          (.loop 12 true ((.look 13) ;; (.chr 13 (.rg 0 1114111)))
            ((.ite (.ite (.chr 13 (.rg 10 10)) (.val true) (.chr 13 (.rg 13 13))) .brk (.val true)) ;; (.advc 13))) ;;
          (.tok 9) ;;
          (.ret true))
         (.val true))
       (.val true)) ;;
     (.ite ((.look 14) ;; (.chr 14 (.rg 47 47)))
       (.ite ((.lookN 15 1) ;; (.chr 15 (.rg 42 42)))
         ((.adv 2) ;;
          (.loop 16 true .more
            ((.ite ((.look 17) ;; (.chr 17 (.rg 42 42)))
               (.ite ((.lookN 18 1) ;; (.chr 18 (.rg 47 47))) ((.adv 2) ;; .brk) (.val true))
               (.val true)) ;;
             (.ite ((.look 19) ;; (.chr 19 (.rg 0 1114111))) (.advc 19) (.val true)))) ;;
          (.tok 9) ;;
          (.ret true))
         (.val true))
       (.val true)) ;;
     (.val false))

/-- `lex_preprocessor` (examples/oak-hlsl/src/lexer/mod.rs:162-217). -/
def lexPreprocessor : Code :=
  .scope 20
    ((.mark 20) ;;
     (.ite ((.look 21) ;; (.chr 21 (.rg 35 35)))
       ((.adv 1) ;;
        (.loop 22 true ((.look 23) ;; (.chr 23 (.rg 0 1114111)))
          (.ite (.ite (.chr 23 (.rg 32 32)) (.val true) (.chr 23 (.rg 9 9))) (.adv 1) .brk)) ;;
        (.mark 24) ;;
        (.loop 25 true ((.look 26) ;; (.chr 26 (.rg 0 1114111)))
          (.ite (.ite (.chr 26 (.or (.rg 65 90) (.rg 97 122))) (.val true) (.chr 26 (.rg 95 95))) (.adv 1) .brk)) ;;
        (.ite (.moved 24)
          ((.loop 27 true ((.look 28) ;; (.chr 28 (.rg 0 1114111)))
             ((.ite (.ite (.chr 28 (.rg 10 10)) (.val true) (.chr 28 (.rg 13 13))) .brk (.val true)) ;; (.advc 28))) ;;
           (.tok 20) ;;
           (.ret true))
          ((.tok 20) ;; (.ret true))))
       (.val true)) ;;
     (.val false))

/-- `lex_string` (examples/oak-hlsl/src/lexer/mod.rs:220-249). -/
def lexString : Code :=
  .scope 29
    ((.mark 29) ;;
     (.ite ((.look 30) ;; (.chr 30 (.rg 34 34)))
       ((.adv 1) ;;
        (.put 31 0) ;;
        (.loop 32 true ((.look 33) ;; (.chr 33 (.rg 0 1114111)))
          ((.ite (.flag 31)
             (.put 31 0)
             (.ite (.chr 33 (.rg 92 92))
               (.put 31 1)
               (.ite (.chr 33 (.rg 34 34))
                 ((.adv 1) ;; .brk)
                 (.ite (.ite (.chr 33 (.rg 10 10)) (.val true) (.chr 33 (.rg 13 13))) .brk (.val true))))) ;;
           (.advc 33))) ;;
        (.tok 29) ;;
        (.ret true))
       (.val true)) ;;
     (.val false))

/-- the block of an `if … || …` of `lex_number` (examples/oak-hlsl/src/lexer/mod.rs:252-335). -/
def lexNumberBlock2 : Code :=
  ((.mark 44) ;;
   (.adv 1) ;;
   (.ite ((.look 45) ;; (.chr 45 (.rg 0 1114111)))
     (.ite (.ite (.chr 45 (.rg 43 43)) (.val true) (.chr 45 (.rg 45 45))) (.adv 1) (.val true))
     (.val true)) ;;
   (.mark 46) ;;
   (.loop 47 true ((.look 48) ;; (.chr 48 (.rg 0 1114111))) (.ite (.chr 48 (.rg 48 57)) (.adv 1) .brk)) ;;
   (.ite (.ite (.moved 46) (.val false) (.val true)) (.goto 44) (.val true)))

/-- the block of an `if … || …` of `lex_number` (examples/oak-hlsl/src/lexer/mod.rs:252-335). -/
def lexNumberBlock : Code :=
  ((.ite (.ite (.chr 35 (.rg 48 48)) ((.lookN 49 1) ;; (.chr 49 (.rg 120 120))) (.val false))
     ((.adv 2) ;;
      (.loop 50 true ((.look 51) ;; (.chr 51 (.rg 0 1114111)))
        (.ite (.chr 51 (.or (.or (.rg 48 57) (.rg 65 70)) (.rg 97 102))) (.adv 1) .brk)))
     ((.loop 37 true ((.look 38) ;; (.chr 38 (.rg 0 1114111))) (.ite (.chr 38 (.rg 48 57)) (.adv 1) .brk)) ;;
      (.ite ((.look 39) ;; (.chr 39 (.rg 46 46)))
        (.ite ((.lookN 40 1) ;; (.chr 40 (.rg 48 57)))
          ((.adv 1) ;;
           (.loop 41 true ((.look 42) ;; (.chr 42 (.rg 0 1114111))) (.ite (.chr 42 (.rg 48 57)) (.adv 1) .brk)))
          (.val true))
        (.val true)) ;;
      (.ite ((.look 43) ;; (.chr 43 (.rg 0 1114111)))
        (.ite (.chr 43 (.rg 101 101)) lexNumberBlock2 (.ite (.chr 43 (.rg 69 69)) lexNumberBlock2 (.val true)))
        (.val true)))) ;;
   (.ite ((.look 52) ;; (.chr 52 (.rg 0 1114111)))
     (.ite (.ite (.ite (.ite (.ite (.ite (.ite (.ite (.chr 52 (.rg 102 102)) (.val true) (.chr 52 (.rg 70 70)))
                   (.val true)
                   (.chr 52 (.rg 104 104)))
                 (.val true)
                 (.chr 52 (.rg 72 72)))
               (.val true)
               (.chr 52 (.rg 108 108)))
             (.val true)
             (.chr 52 (.rg 76 76)))
           (.val true)
           (.chr 52 (.rg 117 117)))
         (.val true)
         (.chr 52 (.rg 85 85)))
       (.adv 1)
       (.val true))
     (.val true)) ;;
   (.tok 34) ;;
   (.ret true))

/-- `lex_number` (examples/oak-hlsl/src/lexer/mod.rs:252-335). -/
def lexNumber : Code :=
  .scope 34
    ((.mark 34) ;;
     (.ite ((.look 35) ;; (.chr 35 (.rg 0 1114111)))
       (.ite (.chr 35 (.rg 48 57))
         lexNumberBlock
         (.ite (.ite (.chr 35 (.rg 46 46)) ((.lookN 36 1) ;; (.chr 36 (.rg 48 57))) (.val false))
           lexNumberBlock
           (.val true)))
       (.val true)) ;;
     (.val false))

/-- the block of an `if … || …` of `lex_identifier_or_keyword` (examples/oak-hlsl/src/lexer/mod.rs:338-484). -/
def lexIdentifierOrKeywordBlock : Code :=
  ((.loop 55 true ((.look 56) ;; (.chr 56 (.rg 0 1114111)))
     (.ite (.ite (.chr 56 (.or (.or (.rg 48 57) (.rg 65 90)) (.rg 97 122))) (.val true) (.chr 56 (.rg 95 95)))
       (.advc 56)
       .brk)) ;;
   (.tok 53) ;;
   (.ret true))

/-- `lex_identifier_or_keyword` (examples/oak-hlsl/src/lexer/mod.rs:338-484). -/
def lexIdentifierOrKeyword : Code :=
  .scope 53
    ((.mark 53) ;;
     (.ite ((.look 54) ;; (.chr 54 (.rg 0 1114111)))
       (.ite (.chr 54 (.or (.rg 65 90) (.rg 97 122)))
         lexIdentifierOrKeywordBlock
         (.ite (.chr 54 (.rg 95 95)) lexIdentifierOrKeywordBlock (.val true)))
       (.val true)) ;;
     (.val false))

/-- `lex_operator_or_delimiter` (examples/oak-hlsl/src/lexer/mod.rs:487-726). -/
def lexOperatorOrDelimiter : Code :=
  .scope 57
    ((.mark 57) ;;
     (.ite ((.look 58) ;; (.chr 58 (.rg 0 1114111)))
       ((.ite (.chr 58 (.rg 43 43))
          ((.adv 1) ;;
           (.ite ((.look 80) ;; (.chr 80 (.rg 61 61)))
             (.adv 1)
             (.ite ((.look 79) ;; (.chr 79 (.rg 43 43))) (.adv 1) (.val true))))
          (.ite (.chr 58 (.rg 45 45))
            ((.adv 1) ;;
             (.ite ((.look 78) ;; (.chr 78 (.rg 61 61)))
               (.adv 1)
               (.ite ((.look 77) ;; (.chr 77 (.rg 45 45)))
                 (.adv 1)
                 (.ite ((.look 76) ;; (.chr 76 (.rg 62 62))) (.adv 1) (.val true)))))
            (.ite (.chr 58 (.rg 42 42))
              ((.adv 1) ;; (.ite ((.look 75) ;; (.chr 75 (.rg 61 61))) (.adv 1) (.val true)))
              (.ite (.chr 58 (.rg 47 47))
                ((.adv 1) ;; (.ite ((.look 74) ;; (.chr 74 (.rg 61 61))) (.adv 1) (.val true)))
                (.ite (.chr 58 (.rg 37 37))
                  ((.adv 1) ;; (.ite ((.look 73) ;; (.chr 73 (.rg 61 61))) (.adv 1) (.val true)))
                  (.ite (.chr 58 (.rg 61 61))
                    ((.adv 1) ;; (.ite ((.look 72) ;; (.chr 72 (.rg 61 61))) (.adv 1) (.val true)))
                    (.ite (.chr 58 (.rg 33 33))
                      ((.adv 1) ;; (.ite ((.look 71) ;; (.chr 71 (.rg 61 61))) (.adv 1) (.val true)))
                      (.ite (.chr 58 (.rg 60 60))
                        ((.adv 1) ;;
                         (.ite ((.look 70) ;; (.chr 70 (.rg 61 61)))
                           (.adv 1)
                           (.ite ((.look 68) ;; (.chr 68 (.rg 60 60)))
                             ((.adv 1) ;; (.ite ((.look 69) ;; (.chr 69 (.rg 61 61))) (.adv 1) (.val true)))
                             (.val true))))
                        (.ite (.chr 58 (.rg 62 62))
                          ((.adv 1) ;;
                           (.ite ((.look 67) ;; (.chr 67 (.rg 61 61)))
                             (.adv 1)
                             (.ite ((.look 65) ;; (.chr 65 (.rg 62 62)))
                               ((.adv 1) ;; (.ite ((.look 66) ;; (.chr 66 (.rg 61 61))) (.adv 1) (.val true)))
                               (.val true))))
                          (.ite (.chr 58 (.rg 38 38))
                            ((.adv 1) ;;
                             (.ite ((.look 64) ;; (.chr 64 (.rg 38 38)))
                               (.adv 1)
                               (.ite ((.look 63) ;; (.chr 63 (.rg 61 61))) (.adv 1) (.val true))))
                            (.ite (.chr 58 (.rg 124 124))
                              ((.adv 1) ;;
                               (.ite ((.look 62) ;; (.chr 62 (.rg 124 124)))
                                 (.adv 1)
                                 (.ite ((.look 61) ;; (.chr 61 (.rg 61 61))) (.adv 1) (.val true))))
                              (.ite (.chr 58 (.rg 94 94))
                                ((.adv 1) ;; (.ite ((.look 60) ;; (.chr 60 (.rg 61 61))) (.adv 1) (.val true)))
                                (.ite (.chr 58 (.rg 126 126))
                                  (.adv 1)
                                  (.ite (.chr 58 (.rg 63 63))
                                    (.adv 1)
                                    (.ite (.chr 58 (.rg 46 46))
                                      (.adv 1)
                                      (.ite (.chr 58 (.rg 58 58))
                                        ((.adv 1) ;;
                                         (.ite ((.look 59) ;; (.chr 59 (.rg 58 58))) (.adv 1) (.val true)))
                                        (.ite (.chr 58 (.rg 59 59))
                                          (.adv 1)
                                          (.ite (.chr 58 (.rg 44 44))
                                            (.adv 1)
                                            (.ite (.chr 58 (.rg 40 40))
                                              (.adv 1)
                                              (.ite (.chr 58 (.rg 41 41))
                                                (.adv 1)
                                                (.ite (.chr 58 (.rg 91 91))
                                                  (.adv 1)
                                                  (.ite (.chr 58 (.rg 93 93))
                                                    (.adv 1)
                                                    (.ite (.chr 58 (.rg 123 123))
                                                      (.adv 1)
                                                      (.ite (.chr 58 (.rg 125 125))
                                                        (.adv 1)
                                                        (.ite (.chr 58 (.rg 92 92))
                                                          (.adv 1)
                                                          (.ite (.chr 58 (.rg 35 35))
                                                            (.adv 1)
                                                            (.ite (.chr 58 (.rg 64 64)) (.adv 1) (.ret false)))))))))))))))))))))))))))) ;;
        (.tok 57) ;;
        (.ret true))
       (.val true)) ;;
     (.val false))

/-- `run` (examples/oak-hlsl/src/lexer/mod.rs:25-73). -/
def run_ : Code :=
  .scope 0
    (.loop 0 false .more
      ((.mark 1) ;;
       (.ite skipWhitespace .cont (.val true)) ;;
       (.ite lexNewline .cont (.val true)) ;;
       (.ite lexComment .cont (.val true)) ;;
       (.ite lexPreprocessor .cont (.val true)) ;;
       (.ite lexString .cont (.val true)) ;;
       (.ite lexNumber .cont (.val true)) ;;
       (.ite lexIdentifierOrKeyword .cont (.val true)) ;;
       (.ite lexOperatorOrDelimiter .cont (.val true)) ;;
       (.mark 81) ;;
       (.ite ((.look 82) ;; (.chr 82 (.rg 0 1114111))) ((.advc 82) ;; (.tok 81)) (.val true)) ;;
       (.guard 1)))

end Oaks.HandLex.Hlsl
