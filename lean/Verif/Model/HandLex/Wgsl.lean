import Verif.Model.LexCode

/-
The lexer of the example `oak-wgsl` as a program of Model/LexCode.lean, function by function in the order of
the calls. Kinds of tokens and messages are left out.
-/
namespace Oaks.HandLex.Wgsl

open Oaks.Lc

/-- `skip_whitespace` (examples/oak-wgsl/src/lexer/mod.rs:20-39). -/
def skipWhitespace : Code :=
  .scope 1
    ((.mark 1) ;;
     (.loop 2 true ((.look 3) ;; (.chr 3 (.rg 0 1114111)))
       (.ite (.ite (.chr 3 (.rg 32 32)) (.val true) (.chr 3 (.rg 9 9))) (.advc 3) .brk)) ;;
     (.ite (.moved 1) ((.tok 1) ;; (.val true)) (.val false)))

/-- `lex_newline` (examples/oak-wgsl/src/lexer/mod.rs:42-61). -/
def lexNewline : Code :=
  .scope 4
    ((.mark 4) ;;
     (.ite ((.look 7) ;; (.chr 7 (.rg 10 10)))
       ((.adv 1) ;; (.tok 4) ;; (.val true))
       (.ite ((.look 5) ;; (.chr 5 (.rg 13 13)))
         ((.adv 1) ;; (.ite ((.look 6) ;; (.chr 6 (.rg 10 10))) (.adv 1) (.val true)) ;; (.tok 4) ;; (.val true))
         (.val false))))

/-- `lex_comment` (examples/oak-wgsl/src/lexer/mod.rs:64-120). -/
def lexComment : Code :=
  .scope 8
    ((.mark 8) ;;
     (.ite ((.look 9) ;; (.chr 9 (.rg 47 47)))
       (.ite ((.lookN 10 1) ;; (.chr 10 (.rg 47 47)))
         ((.adv 2) ;;
          (.loop 11 true ((.look 12) ;; (.chr 12 (.rg 0 1114111)))
            ((.ite (.ite (.chr 12 (.rg 10 10)) (.val true) (.chr 12 (.rg 13 13))) .brk (.val true)) ;; (.advc 12))) ;;
          (.tok 8) ;;
          (.ret true))
         (.val true))
       (.val true)) ;;
     (.ite ((.look 13) ;; (.chr 13 (.rg 47 47)))
       (.ite ((.lookN 14 1) ;; (.chr 14 (.rg 42 42)))
         ((.adv 2) ;;
          (.put 15 1) ;;
          (.loop 16 true (.ite (.ask 15 (· > 0)) .more (.val false))
            ((.ite ((.look 17) ;; (.chr 17 (.rg 47 47)))
               (.ite ((.lookN 18 1) ;; (.chr 18 (.rg 42 42)))
                 ((.adv 2) ;; (.comp 15 15 (· + 1)) ;; .cont)
                 (.val true))
               (.val true)) ;;
             (.ite ((.look 20) ;; (.chr 20 (.rg 42 42)))
               ((.adv 1) ;;
                (.ite ((.lookN 21 1) ;; (.chr 21 (.rg 47 47)))
                  ((.adv 1) ;; (.comp 15 15 (· - 1)))
                  (.val true)))
               (.ite ((.look 19) ;; (.chr 19 (.rg 0 1114111))) (.advc 19) .brk)))) ;;
          (.tok 8) ;;
          (.ret true))
         (.val true))
       (.val true)) ;;
     (.val false))

/-- `lex_string` (examples/oak-wgsl/src/lexer/mod.rs:123-154). -/
def lexString : Code :=
  .scope 22
    ((.mark 22) ;;
     (.ite ((.look 23) ;; (.chr 23 (.rg 34 34)))
       ((.adv 1) ;;
        (.loop 24 true ((.look 25) ;; (.chr 25 (.rg 0 1114111)))
          (.ite (.chr 25 (.rg 34 34))
            ((.adv 1) ;; (.tok 22) ;; (.ret true))
            (.ite (.chr 25 (.rg 92 92))
              ((.adv 1) ;; (.ite ((.look 26) ;; (.chr 26 (.rg 0 1114111))) (.advc 26) (.val true)))
              (.ite (.ite (.chr 25 (.rg 10 10)) (.val true) (.chr 25 (.rg 13 13))) .brk (.advc 25))))) ;;
        (.tok 22) ;;
        (.ret true))
       (.val true)) ;;
     (.val false))

/-- `lex_number` (examples/oak-wgsl/src/lexer/mod.rs:157-270). -/
def lexNumber : Code :=
  .scope 27
    ((.mark 27) ;;
     (.ite ((.look 28) ;; (.chr 28 (.rg 0 1114111)))
       (.ite (.chr 28 (.rg 48 57))
         ((.ite (.ite (.chr 28 (.rg 48 48)) ((.lookN 29 1) ;; (.chr 29 (.rg 120 120))) (.val false))
            ((.adv 2) ;;
             (.put 30 0) ;;
             (.loop 31 true ((.look 32) ;; (.chr 32 (.rg 0 1114111)))
               (.ite (.chr 32 (.or (.or (.rg 48 57) (.rg 65 70)) (.rg 97 102))) ((.adv 1) ;; (.put 30 1)) .brk)) ;;
             (.ite (.flag 30)
               ((.ite ((.look 34) ;; (.chr 34 (.rg 117 117)))
                  (.adv 1)
                  (.ite ((.look 33) ;; (.chr 33 (.rg 105 105))) (.adv 1) (.val true))) ;;
                (.tok 27) ;;
                (.ret true))
               (.val true)))
            (.val true)) ;;
          (.loop 35 true ((.look 36) ;; (.chr 36 (.rg 0 1114111))) (.ite (.chr 36 (.rg 48 57)) (.adv 1) .brk)) ;;
          (.put 37 0) ;;
          (.ite ((.look 38) ;; (.chr 38 (.rg 46 46)))
            (.ite ((.lookN 39 1) ;; (.chr 39 (.rg 0 1114111)))
              (.ite (.chr 39 (.rg 48 57))
                ((.adv 1) ;;
                 (.put 37 1) ;;
                 (.loop 40 true ((.look 41) ;; (.chr 41 (.rg 0 1114111))) (.ite (.chr 41 (.rg 48 57)) (.adv 1) .brk)))
                (.val true))
              (.val true))
            (.val true)) ;;
          (.ite ((.look 42) ;; (.chr 42 (.or (.rg 101 101) (.rg 69 69))))
            ((.mark 43) ;;
             (.adv 1) ;;
             (.put 37 1) ;;
             (.ite ((.look 44) ;; (.chr 44 (.or (.rg 43 43) (.rg 45 45)))) (.adv 1) (.val true)) ;;
             (.put 45 0) ;;
             (.loop 46 true ((.look 47) ;; (.chr 47 (.rg 0 1114111)))
               (.ite (.chr 47 (.rg 48 57)) ((.adv 1) ;; (.put 45 1)) .brk)) ;;
             (.ite (.ite (.flag 45) (.val false) (.val true)) ((.goto 43) ;; (.put 37 0)) (.val true)))
            (.val true)) ;;
          (.ite (.flag 37)
            ((.ite ((.look 50) ;; (.chr 50 (.rg 102 102))) (.adv 1) (.val true)) ;; (.tok 27))
            ((.ite ((.look 49) ;; (.chr 49 (.rg 117 117)))
               (.adv 1)
               (.ite ((.look 48) ;; (.chr 48 (.rg 105 105))) (.adv 1) (.val true))) ;;
             (.tok 27))) ;;
          (.ret true))
         (.val true))
       (.val true)) ;;
     (.val false))

/-- `lex_ident_or_keyword` (examples/oak-wgsl/src/lexer/mod.rs:273-352). -/
def lexIdentOrKeyword : Code :=
  .scope 51
    ((.mark 51) ;;
     (.ite ((.look 52) ;; (.chr 52 (.rg 0 1114111)))
       (.ite (.ite (.chr 52 (.or (.rg 65 90) (.rg 97 122))) (.val true) (.chr 52 (.rg 95 95)))
         ((.advc 52) ;;
          (.loop 53 true ((.look 54) ;; (.chr 54 (.rg 0 1114111)))
            (.ite (.ite (.chr 54 (.or (.or (.rg 48 57) (.rg 65 90)) (.rg 97 122))) (.val true) (.chr 54 (.rg 95 95)))
              (.advc 54)
              .brk)) ;;
          (.mark 55) ;;
          (.tok 51) ;;
          (.ret true))
         (.val true))
       (.val true)) ;;
     (.val false))

/-- `lex_punctuation` (examples/oak-wgsl/src/lexer/mod.rs:355-541). -/
def lexPunctuation : Code :=
  .scope 56
    ((.mark 56) ;;
     (.ite ((.look 57) ;; (.chr 57 (.rg 0 1114111)))
       ((.ite (.ite (.chr 57 (.rg 60 60))
            (.ite ((.lookN 77 1) ;; (.chr 77 (.rg 60 60))) ((.lookN 78 2) ;; (.chr 78 (.rg 61 61))) (.val false))
            (.val false))
          (.adv 3)
          (.ite (.ite (.chr 57 (.rg 62 62))
              (.ite ((.lookN 75 1) ;; (.chr 75 (.rg 62 62))) ((.lookN 76 2) ;; (.chr 76 (.rg 61 61))) (.val false))
              (.val false))
            (.adv 3)
            (.ite (.ite (.chr 57 (.rg 43 43)) ((.lookN 74 1) ;; (.chr 74 (.rg 61 61))) (.val false))
              (.adv 2)
              (.ite (.ite (.chr 57 (.rg 45 45)) ((.lookN 73 1) ;; (.chr 73 (.rg 61 61))) (.val false))
                (.adv 2)
                (.ite (.ite (.chr 57 (.rg 42 42)) ((.lookN 72 1) ;; (.chr 72 (.rg 61 61))) (.val false))
                  (.adv 2)
                  (.ite (.ite (.chr 57 (.rg 47 47)) ((.lookN 71 1) ;; (.chr 71 (.rg 61 61))) (.val false))
                    (.adv 2)
                    (.ite (.ite (.chr 57 (.rg 37 37)) ((.lookN 70 1) ;; (.chr 70 (.rg 61 61))) (.val false))
                      (.adv 2)
                      (.ite (.ite (.chr 57 (.rg 38 38)) ((.lookN 69 1) ;; (.chr 69 (.rg 61 61))) (.val false))
                        (.adv 2)
                        (.ite (.ite (.chr 57 (.rg 124 124)) ((.lookN 68 1) ;; (.chr 68 (.rg 61 61))) (.val false))
                          (.adv 2)
                          (.ite (.ite (.chr 57 (.rg 94 94)) ((.lookN 67 1) ;; (.chr 67 (.rg 61 61))) (.val false))
                            (.adv 2)
                            (.ite (.ite (.chr 57 (.rg 61 61)) ((.lookN 66 1) ;; (.chr 66 (.rg 61 61))) (.val false))
                              (.adv 2)
                              (.ite (.ite (.chr 57 (.rg 33 33)) ((.lookN 65 1) ;; (.chr 65 (.rg 61 61))) (.val false))
                                (.adv 2)
                                (.ite (.ite (.chr 57 (.rg 60 60)) ((.lookN 64 1) ;; (.chr 64 (.rg 61 61))) (.val false))
                                  (.adv 2)
                                  (.ite (.ite (.chr 57 (.rg 62 62)) ((.lookN 63 1) ;; (.chr 63 (.rg 61 61))) (.val false))
                                    (.adv 2)
                                    (.ite (.ite (.chr 57 (.rg 60 60))
                                        ((.lookN 62 1) ;; (.chr 62 (.rg 60 60)))
                                        (.val false))
                                      (.adv 2)
                                      (.ite (.ite (.chr 57 (.rg 62 62))
                                          ((.lookN 61 1) ;; (.chr 61 (.rg 62 62)))
                                          (.val false))
                                        (.adv 2)
                                        (.ite (.ite (.chr 57 (.rg 38 38))
                                            ((.lookN 60 1) ;; (.chr 60 (.rg 38 38)))
                                            (.val false))
                                          (.adv 2)
                                          (.ite (.ite (.chr 57 (.rg 124 124))
                                              ((.lookN 59 1) ;; (.chr 59 (.rg 124 124)))
                                              (.val false))
                                            (.adv 2)
                                            (.ite (.ite (.chr 57 (.rg 45 45))
                                                ((.lookN 58 1) ;; (.chr 58 (.rg 62 62)))
                                                (.val false))
                                              (.adv 2)
                                              (.ite (.chr 57 (.rg 43 43))
                                                (.adv 1)
                                                (.ite (.chr 57 (.rg 45 45))
                                                  (.adv 1)
                                                  (.ite (.chr 57 (.rg 42 42))
                                                    (.adv 1)
                                                    (.ite (.chr 57 (.rg 47 47))
                                                      (.adv 1)
                                                      (.ite (.chr 57 (.rg 37 37))
                                                        (.adv 1)
                                                        (.ite (.chr 57 (.rg 61 61))
                                                          (.adv 1)
                                                          (.ite (.chr 57 (.rg 60 60))
                                                            (.adv 1)
                                                            (.ite (.chr 57 (.rg 62 62))
                                                              (.adv 1)
                                                              (.ite (.chr 57 (.rg 33 33))
                                                                (.adv 1)
                                                                (.ite (.chr 57 (.rg 38 38))
                                                                  (.adv 1)
                                                                  (.ite (.chr 57 (.rg 124 124))
                                                                    (.adv 1)
                                                                    (.ite (.chr 57 (.rg 94 94))
                                                                      (.adv 1)
                                                                      (.ite (.chr 57 (.rg 126 126))
                                                                        (.adv 1)
                                                                        (.ite (.chr 57 (.rg 40 40))
                                                                          (.adv 1)
                                                                          (.ite (.chr 57 (.rg 41 41))
                                                                            (.adv 1)
                                                                            (.ite (.chr 57 (.rg 123 123))
                                                                              (.adv 1)
                                                                              (.ite (.chr 57 (.rg 125 125))
                                                                                (.adv 1)
                                                                                (.ite (.chr 57 (.rg 91 91))
                                                                                  (.adv 1)
                                                                                  (.ite (.chr 57 (.rg 93 93))
                                                                                    (.adv 1)
                                                                                    (.ite (.chr 57 (.rg 44 44))
                                                                                      (.adv 1)
                                                                                      (.ite (.chr 57 (.rg 59 59))
                                                                                        (.adv 1)
                                                                                        (.ite (.chr 57 (.rg 58 58))
                                                                                          (.adv 1)
                                                                                          (.ite (.chr 57 (.rg 46 46))
                                                                                            (.adv 1)
                                                                                            (.ite (.chr 57 (.rg 64 64))
                                                                                              (.adv 1)
                                                                                              (.ret false)))))))))))))))))))))))))))))))))))))))))))) ;;
        (.tok 56) ;;
        (.val true))
       (.val false)))

/-- `lex_text` (examples/oak-wgsl/src/lexer/mod.rs:544-555). -/
def lexText : Code :=
  .scope 79
    ((.mark 79) ;;
     (.ite ((.look 80) ;; (.chr 80 (.rg 0 1114111))) ((.advc 80) ;; (.tok 79) ;; (.val true)) (.val false)))

/-- `run` (examples/oak-wgsl/src/lexer/mod.rs:557-599). -/
def run_ : Code :=
  .scope 0
    (.loop 0 false .more
      ((.ite skipWhitespace .cont (.val true)) ;;
       (.ite lexNewline .cont (.val true)) ;;
       (.ite lexComment .cont (.val true)) ;;
       (.ite lexString .cont (.val true)) ;;
       (.ite lexNumber .cont (.val true)) ;;
       (.ite lexIdentOrKeyword .cont (.val true)) ;;
       (.ite lexPunctuation .cont (.val true)) ;;
       (.ite lexText .cont (.val true)) ;;
       (.mark 81) ;;
       (.ite ((.look 82) ;; (.chr 82 (.rg 0 1114111))) ((.advc 82) ;; (.tok 81)) (.val true))))

end Oaks.HandLex.Wgsl
