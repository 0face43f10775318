import Verif.Model.LexCode

/-
The lexer of the example `oak-j` as a program of Model/LexCode.lean, function by function in the order of
the calls. Kinds of tokens and messages are left out.
-/
namespace Oaks.HandLex.J

open Oaks.Lc

/-- `skip_whitespace` (examples/oak-j/src/lexer/mod.rs:79-81). -/
def skipWhitespace : Code :=
  .scope 2
    (.space true)

/-- `skip_comment` (examples/oak-j/src/lexer/mod.rs:84-97). -/
def skipComment : Code :=
  .scope 2
    ((.mark 2) ;;
     (.ite (.ite (.starts ['N', 'B', '.']) ((.adv 3) ;; (.val true)) (.val false))
       ((.loop 3 true ((.look 4) ;; (.chr 4 (.rg 0 1114111)))
          ((.ite (.ite (.chr 4 (.rg 10 10)) (.val true) (.chr 4 (.rg 13 13))) .brk (.val true)) ;; (.advc 4))) ;;
        (.tok 2) ;;
        (.ret true))
       (.val true)) ;;
     (.val false))

/-- `lex_string_literal` (examples/oak-j/src/lexer/mod.rs:100-120). -/
def lexStringLiteral : Code :=
  .scope 5
    ((.mark 5) ;;
     (.ite (.ite (.starts ['\'']) ((.adv 1) ;; (.val true)) (.val false))
       ((.loop 6 true ((.look 7) ;; (.chr 7 (.rg 0 1114111)))
          ((.ite (.chr 7 (.rg 39 39))
             ((.advc 7) ;;
              (.ite (.ite (.starts ['\'']) ((.adv 1) ;; (.val true)) (.val false)) .cont (.val true)) ;;
              (.tok 5) ;;
              (.ret true))
             (.val true)) ;;
           (.advc 7))) ;;
        (.tok 5) ;;
        (.ret true))
       (.val true)) ;;
     (.val false))

/-- `lex_number_literal` (examples/oak-j/src/lexer/mod.rs:123-142). -/
def lexNumberLiteral : Code :=
  .scope 8
    ((.mark 8) ;;
     (.ite ((.look 9) ;; (.chr 9 (.rg 0 1114111)))
       (.ite (.ite (.chr 9 (.rg 48 57)) (.val true) (.chr 9 (.rg 95 95)))
         ((.advc 9) ;;
          (.loop 10 true ((.look 11) ;; (.chr 11 (.rg 0 1114111)))
            (.ite (.ite (.ite (.ite (.ite (.ite (.chr 11 (.rg 48 57)) (.val true) (.chr 11 (.rg 46 46)))
                      (.val true)
                      (.chr 11 (.rg 101 101)))
                    (.val true)
                    (.chr 11 (.rg 69 69)))
                  (.val true)
                  (.chr 11 (.rg 106 106)))
                (.val true)
                (.chr 11 (.rg 114 114)))
              (.advc 11)
              .brk)) ;;
          (.tok 8) ;;
          (.ret true))
         (.val true))
       (.val true)) ;;
     (.val false))

/-- `lex_identifier` (examples/oak-j/src/lexer/mod.rs:145-163). -/
def lexIdentifier : Code :=
  .scope 12
    ((.mark 12) ;;
     (.ite ((.look 13) ;; (.chr 13 (.rg 0 1114111)))
       (.ite (.chr 13 (.or (.rg 65 90) (.rg 97 122)))
         ((.advc 13) ;;
          (.loop 14 true ((.look 15) ;; (.chr 15 (.rg 0 1114111)))
            (.ite (.ite (.chr 15 (.or (.or (.rg 48 57) (.rg 65 90)) (.rg 97 122))) (.val true) (.chr 15 (.rg 95 95)))
              (.advc 15)
              .brk)) ;;
          (.tok 12) ;;
          (.ret true))
         (.val true))
       (.val true)) ;;
     (.val false))

/-- `lex_operators` (examples/oak-j/src/lexer/mod.rs:166-215). -/
def lexOperators : Code :=
  .scope 16
    ((.mark 16) ;;
     ((.ite (.ite (.starts ['=', ':']) ((.adv 2) ;; (.val true)) (.val false)) ((.tok 16) ;; (.ret true)) (.val true)) ;;
      (.ite (.ite (.starts ['=', '.']) ((.adv 2) ;; (.val true)) (.val false)) ((.tok 16) ;; (.ret true)) (.val true))) ;;
     (.ite ((.look 18) ;; (.chr 18 (.rg 0 1114111)))
       ((.ite (.chr 18 (.rg 61 61))
          (.put 19 1)
          (.ite (.chr 18 (.rg 46 46))
            (.put 19 1)
            (.ite (.chr 18 (.rg 58 58))
              (.put 19 1)
              (.ite (.chr 18 (.rg 43 43))
                (.put 19 1)
                (.ite (.chr 18 (.rg 45 45))
                  (.put 19 1)
                  (.ite (.chr 18 (.rg 42 42))
                    (.put 19 1)
                    (.ite (.chr 18 (.rg 37 37))
                      (.put 19 1)
                      (.ite (.chr 18 (.rg 36 36))
                        (.put 19 1)
                        (.ite (.chr 18 (.rg 44 44))
                          (.put 19 1)
                          (.ite (.chr 18 (.rg 35 35))
                            (.put 19 1)
                            (.ite (.chr 18 (.rg 47 47))
                              (.put 19 1)
                              (.ite (.chr 18 (.rg 92 92))
                                (.put 19 1)
                                (.ite (.chr 18 (.rg 124 124))
                                  (.put 19 1)
                                  (.ite (.chr 18 (.rg 38 38))
                                    (.put 19 1)
                                    (.ite (.chr 18 (.rg 94 94))
                                      (.put 19 1)
                                      (.ite (.chr 18 (.rg 126 126))
                                        (.put 19 1)
                                        (.ite (.chr 18 (.rg 60 60))
                                          (.put 19 1)
                                          (.ite (.chr 18 (.rg 62 62))
                                            (.put 19 1)
                                            (.ite (.chr 18 (.rg 40 40))
                                              (.put 19 1)
                                              (.ite (.chr 18 (.rg 41 41))
                                                (.put 19 1)
                                                (.ite (.chr 18 (.rg 91 91))
                                                  (.put 19 1)
                                                  (.ite (.chr 18 (.rg 93 93))
                                                    (.put 19 1)
                                                    (.ite (.chr 18 (.rg 123 123))
                                                      (.put 19 1)
                                                      (.ite (.chr 18 (.rg 125 125)) (.put 19 1) (.put 19 0))))))))))))))))))))))))) ;;
        (.ite (.flag 19) ((.advc 18) ;; (.tok 16) ;; (.ret true)) (.val true)))
       (.val true)) ;;
     (.val false))

/-- `run` (examples/oak-j/src/lexer/mod.rs:40-76). -/
def run_ : Code :=
  .scope 0
    (.loop 0 false .more
      ((.mark 1) ;;
       (.ite skipWhitespace .cont (.val true)) ;;
       (.ite skipComment .cont (.val true)) ;;
       (.ite lexStringLiteral .cont (.val true)) ;;
       (.ite lexNumberLiteral .cont (.val true)) ;;
       (.ite lexIdentifier .cont (.val true)) ;;
       (.ite lexOperators .cont (.val true)) ;;
       (.ite ((.look 20) ;; (.chr 20 (.rg 0 1114111))) ((.advc 20) ;; (.tok 1)) (.val true))))

end Oaks.HandLex.J
