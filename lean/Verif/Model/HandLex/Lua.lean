import Verif.Model.LexCode

/-
The lexer of the example `oak-lua` as a program of Model/LexCode.lean, function by function in the order of
the calls. Kinds of tokens and messages are left out.
-/
namespace Oaks.HandLex.Lua

open Oaks.Lc

/-- `skip_whitespace` (examples/oak-lua/src/lexer/mod.rs:72-86). -/
def skipWhitespace : Code :=
  .scope 2
    ((.mark 2) ;;
     (.loop 3 true ((.look 4) ;; (.chr 4 (.rg 0 1114111)))
       (.ite (.ite (.chr 4 (.rg 32 32)) (.val true) (.chr 4 (.rg 9 9))) (.advc 4) .brk)) ;;
     (.ite (.moved 2) ((.tok 2) ;; (.val true)) (.val false)))

/-- `lex_newline` (examples/oak-lua/src/lexer/mod.rs:89-108). -/
def lexNewline : Code :=
  .scope 5
    ((.mark 5) ;;
     (.ite ((.look 8) ;; (.chr 8 (.rg 10 10)))
       ((.adv 1) ;; (.tok 5) ;; (.val true))
       (.ite ((.look 6) ;; (.chr 6 (.rg 13 13)))
         ((.adv 1) ;; (.ite ((.look 7) ;; (.chr 7 (.rg 10 10))) (.adv 1) (.val true)) ;; (.tok 5) ;; (.val true))
         (.val false))))

/-- `lex_comment` (examples/oak-lua/src/lexer/mod.rs:111-167). -/
def lexComment : Code :=
  .scope 9
    ((.mark 9) ;;
     (.ite ((.look 10) ;; (.chr 10 (.rg 45 45)))
       (.ite ((.look 11) ;; (.chr 11 (.rg 45 45)))
         ((.adv 1) ;;
          (.adv 1) ;;
          (.ite ((.look 14) ;; (.chr 14 (.rg 91 91)))
            (.ite ((.look 17) ;; (.chr 17 (.rg 91 91)))
              ((.adv 1) ;;
               (.adv 1) ;;
               (.loop 18 true ((.look 19) ;; (.chr 19 (.rg 0 1114111)))
                 ((.ite (.chr 19 (.rg 93 93))
                    (.ite ((.look 20) ;; (.chr 20 (.rg 93 93))) ((.adv 1) ;; (.adv 1) ;; .brk) (.val true))
                    (.val true)) ;;
                  (.advc 19))))
              (.loop 15 true ((.look 16) ;; (.chr 16 (.rg 0 1114111)))
                ((.ite (.ite (.chr 16 (.rg 10 10)) (.val true) (.chr 16 (.rg 13 13))) .brk (.val true)) ;; (.advc 16))))
            (.loop 12 true ((.look 13) ;; (.chr 13 (.rg 0 1114111)))
              ((.ite (.ite (.chr 13 (.rg 10 10)) (.val true) (.chr 13 (.rg 13 13))) .brk (.val true)) ;; (.advc 13)))) ;;
          (.tok 9) ;;
          (.val true))
         (.val false))
       (.val false)))

/-- `lex_string` (examples/oak-lua/src/lexer/mod.rs:170-235). -/
def lexString : Code :=
  .scope 21
    ((.mark 21) ;;
     (.ite ((.look 22) ;; (.chr 22 (.rg 0 1114111)))
       (.ite (.ite (.chr 22 (.rg 34 34)) (.val true) (.chr 22 (.rg 39 39)))
         ((.adv 1) ;;
          (.put 27 0) ;;
          (.loop 28 true ((.look 29) ;; (.chr 29 (.rg 0 1114111)))
            (.ite (.flag 27)
              ((.put 27 0) ;; (.advc 29))
              (.ite (.chr 29 (.rg 92 92))
                ((.put 27 1) ;; (.adv 1))
                (.ite (.same 29 22)
                  ((.adv 1) ;; .brk)
                  (.ite (.ite (.chr 29 (.rg 10 10)) (.val true) (.chr 29 (.rg 13 13))) .brk (.advc 29)))))) ;;
          (.tok 21) ;;
          (.val true))
         (.ite (.chr 22 (.rg 91 91))
           (.ite ((.look 23) ;; (.chr 23 (.rg 91 91)))
             ((.adv 1) ;;
              (.adv 1) ;;
              (.loop 24 true ((.look 25) ;; (.chr 25 (.rg 0 1114111)))
                ((.ite (.chr 25 (.rg 93 93))
                   (.ite ((.look 26) ;; (.chr 26 (.rg 93 93))) ((.adv 1) ;; (.adv 1) ;; .brk) (.val true))
                   (.val true)) ;;
                 (.advc 25))) ;;
              (.tok 21) ;;
              (.val true))
             (.val false))
           (.val false)))
       (.val false)))

/-- `lex_number` (examples/oak-lua/src/lexer/mod.rs:238-299). -/
def lexNumber : Code :=
  .scope 30
    ((.mark 30) ;;
     (.ite ((.look 31) ;; (.chr 31 (.rg 0 1114111)))
       (.ite (.chr 31 (.rg 48 57))
         ((.ite (.chr 31 (.rg 48 48))
            (.ite ((.look 32) ;; (.chr 32 (.rg 0 1114111)))
              (.ite (.ite (.chr 32 (.rg 120 120)) (.val true) (.chr 32 (.rg 88 88)))
                ((.adv 1) ;;
                 (.adv 1) ;;
                 (.loop 33 true ((.look 34) ;; (.chr 34 (.rg 0 1114111)))
                   (.ite (.chr 34 (.or (.or (.rg 48 57) (.rg 65 70)) (.rg 97 102))) (.adv 1) .brk)) ;;
                 (.tok 30) ;;
                 (.ret true))
                (.val true))
              (.val true))
            (.val true)) ;;
          (.put 35 0) ;;
          (.put 36 0) ;;
          (.loop 37 true ((.look 38) ;; (.chr 38 (.rg 0 1114111)))
            (.ite (.chr 38 (.rg 48 57))
              (.adv 1)
              (.ite (.ite (.ite (.chr 38 (.rg 46 46)) (.ite (.flag 35) (.val false) (.val true)) (.val false))
                  (.ite (.flag 36) (.val false) (.val true))
                  (.val false))
                ((.put 35 1) ;; (.adv 1))
                (.ite (.ite (.ite (.chr 38 (.rg 101 101)) (.val true) (.chr 38 (.rg 69 69)))
                    (.ite (.flag 36) (.val false) (.val true))
                    (.val false))
                  ((.put 36 1) ;;
                   (.adv 1) ;;
                   (.ite ((.look 39) ;; (.chr 39 (.rg 0 1114111)))
                     (.ite (.ite (.chr 39 (.rg 43 43)) (.val true) (.chr 39 (.rg 45 45))) (.adv 1) (.val true))
                     (.val true)))
                  .brk)))) ;;
          (.tok 30) ;;
          (.val true))
         (.val false))
       (.val false)))

/-- `lex_identifier_or_keyword` (examples/oak-lua/src/lexer/mod.rs:302-319). -/
def lexIdentifierOrKeyword : Code :=
  .scope 40
    (.ite ((.look 40) ;; (.chr 40 (.rg 0 1114111)))
      (.ite (.ite (.chr 40 (.or (.rg 65 90) (.rg 97 122))) (.val true) (.chr 40 (.rg 95 95)))
        (((.mark 41) ;; (.take (.or (.or (.or (.rg 48 57) (.rg 65 90)) (.rg 97 122)) (.rg 95 95))) ;; (.mark 42)) ;;
         (.val true) ;;
         (.val true) ;;
         (.tokTo 41 42) ;;
         (.val true))
        (.val false))
      (.val false))

/-- `lex_operator_or_delimiter` (examples/oak-lua/src/lexer/mod.rs:351-513). -/
def lexOperatorOrDelimiter : Code :=
  .scope 43
    ((.mark 43) ;;
     (.ite ((.look 44) ;; (.chr 44 (.rg 0 1114111)))
       ((.ite (.chr 44 (.rg 61 61))
          ((.adv 1) ;; (.ite ((.look 54) ;; (.chr 54 (.rg 61 61))) (.adv 1) (.val true)))
          (.ite (.chr 44 (.rg 126 126))
            ((.adv 1) ;; (.ite ((.look 53) ;; (.chr 53 (.rg 61 61))) (.adv 1) (.val true)))
            (.ite (.chr 44 (.rg 60 60))
              ((.adv 1) ;;
               (.ite ((.look 52) ;; (.chr 52 (.rg 61 61)))
                 (.adv 1)
                 (.ite ((.look 51) ;; (.chr 51 (.rg 60 60))) (.adv 1) (.val true))))
              (.ite (.chr 44 (.rg 62 62))
                ((.adv 1) ;;
                 (.ite ((.look 50) ;; (.chr 50 (.rg 61 61)))
                   (.adv 1)
                   (.ite ((.look 49) ;; (.chr 49 (.rg 62 62))) (.adv 1) (.val true))))
                (.ite (.chr 44 (.rg 46 46))
                  ((.adv 1) ;;
                   (.ite ((.look 47) ;; (.chr 47 (.rg 46 46)))
                     ((.adv 1) ;; (.ite ((.look 48) ;; (.chr 48 (.rg 46 46))) (.adv 1) (.val true)))
                     (.val true)))
                  (.ite (.chr 44 (.rg 58 58))
                    ((.adv 1) ;; (.ite ((.look 46) ;; (.chr 46 (.rg 58 58))) (.adv 1) (.val true)))
                    (.ite (.chr 44 (.rg 47 47))
                      ((.adv 1) ;; (.ite ((.look 45) ;; (.chr 45 (.rg 47 47))) (.adv 1) (.val true)))
                      (.ite (.chr 44 (.rg 43 43))
                        (.adv 1)
                        (.ite (.chr 44 (.rg 45 45))
                          (.adv 1)
                          (.ite (.chr 44 (.rg 42 42))
                            (.adv 1)
                            (.ite (.chr 44 (.rg 37 37))
                              (.adv 1)
                              (.ite (.chr 44 (.rg 94 94))
                                (.adv 1)
                                (.ite (.chr 44 (.rg 35 35))
                                  (.adv 1)
                                  (.ite (.chr 44 (.rg 38 38))
                                    (.adv 1)
                                    (.ite (.chr 44 (.rg 124 124))
                                      (.adv 1)
                                      (.ite (.chr 44 (.rg 40 40))
                                        (.adv 1)
                                        (.ite (.chr 44 (.rg 41 41))
                                          (.adv 1)
                                          (.ite (.chr 44 (.rg 123 123))
                                            (.adv 1)
                                            (.ite (.chr 44 (.rg 125 125))
                                              (.adv 1)
                                              (.ite (.chr 44 (.rg 91 91))
                                                (.adv 1)
                                                (.ite (.chr 44 (.rg 93 93))
                                                  (.adv 1)
                                                  (.ite (.chr 44 (.rg 59 59))
                                                    (.adv 1)
                                                    (.ite (.chr 44 (.rg 44 44)) (.adv 1) (.ret false)))))))))))))))))))))))) ;;
        (.tok 43) ;;
        (.val true))
       (.val false)))

/-- `run` (examples/oak-lua/src/lexer/mod.rs:25-69). -/
def run_ : Code :=
  .scope 0
    (.loop 0 false .more
      ((.mark 1) ;;
       (.ite skipWhitespace .cont (.val true)) ;;
       (.ite lexNewline .cont (.val true)) ;;
       (.ite lexComment .cont (.val true)) ;;
       (.ite lexString .cont (.val true)) ;;
       (.ite lexNumber .cont (.val true)) ;;
       (.ite lexIdentifierOrKeyword .cont (.val true)) ;;
       (.ite lexOperatorOrDelimiter .cont (.val true)) ;;
       (.mark 55) ;;
       (.ite ((.look 56) ;; (.chr 56 (.rg 0 1114111))) ((.advc 56) ;; (.tok 55)) (.val true)) ;;
       (.guard 1)))

end Oaks.HandLex.Lua
