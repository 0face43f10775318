import Verif.Model.LexCode

/-
The lexer of the example `oak-nix` as a program of Model/LexCode.lean, function by function in the order of
the calls. Kinds of tokens and messages are left out.
-/
namespace Oaks.HandLex.Nix

open Oaks.Lc

/-- `skip_whitespace` (examples/oak-nix/src/lexer/mod.rs:73-92). -/
def skipWhitespace : Code :=
  .scope 1
    ((.mark 1) ;;
     (.loop 2 true ((.look 3) ;; (.chr 3 (.rg 0 1114111)))
       (.ite (.ite (.chr 3 (.rg 32 32)) (.val true) (.chr 3 (.rg 9 9))) (.advc 3) .brk)) ;;
     (.ite (.moved 1) ((.tok 1) ;; (.val true)) (.val false)))

/-- `lex_newline` (examples/oak-nix/src/lexer/mod.rs:95-114). -/
def lexNewline : Code :=
  .scope 4
    ((.mark 4) ;;
     (.ite ((.look 7) ;; (.chr 7 (.rg 10 10)))
       ((.adv 1) ;; (.tok 4) ;; (.val true))
       (.ite ((.look 5) ;; (.chr 5 (.rg 13 13)))
         ((.adv 1) ;; (.ite ((.look 6) ;; (.chr 6 (.rg 10 10))) (.adv 1) (.val true)) ;; (.tok 4) ;; (.val true))
         (.val false))))

/-- `lex_comment` (examples/oak-nix/src/lexer/mod.rs:117-137). -/
def lexComment : Code :=
  .scope 8
    ((.mark 8) ;;
     (.ite ((.look 9) ;; (.chr 9 (.rg 35 35)))
       ((.adv 1) ;;
        (.loop 10 true ((.look 11) ;; (.chr 11 (.rg 0 1114111)))
          ((.ite (.ite (.chr 11 (.rg 10 10)) (.val true) (.chr 11 (.rg 13 13))) .brk (.val true)) ;; (.advc 11))) ;;
        (.tok 8) ;;
        (.val true))
       (.val false)))

/-- `lex_string` (examples/oak-nix/src/lexer/mod.rs:140-168). -/
def lexString : Code :=
  .scope 12
    ((.mark 12) ;;
     (.ite ((.look 13) ;; (.chr 13 (.rg 34 34)))
       ((.adv 1) ;;
        (.loop 14 true ((.look 15) ;; (.chr 15 (.rg 0 1114111)))
          (.ite (.chr 15 (.rg 34 34))
            ((.adv 1) ;; .brk)
            (.ite (.chr 15 (.rg 92 92))
              ((.adv 1) ;; (.ite ((.look 16) ;; (.chr 16 (.rg 0 1114111))) (.adv 1) (.val true)))
              (.advc 15)))) ;;
        (.tok 12) ;;
        (.val true))
       (.val false)))

/-- `lex_number` (examples/oak-nix/src/lexer/mod.rs:171-190). -/
def lexNumber : Code :=
  .scope 17
    ((.mark 17) ;;
     (.ite ((.look 18) ;; (.chr 18 (.rg 0 1114111)))
       (.ite (.chr 18 (.rg 48 57))
         ((.adv 1) ;;
          (.loop 19 true ((.look 20) ;; (.chr 20 (.rg 0 1114111)))
            (.ite (.ite (.chr 20 (.rg 48 57)) (.val true) (.chr 20 (.rg 46 46))) (.adv 1) .brk)) ;;
          (.tok 17) ;;
          (.ret true))
         (.val true))
       (.val true)) ;;
     (.val false))

/-- `lex_identifier` (examples/oak-nix/src/lexer/mod.rs:193-234). -/
def lexIdentifier : Code :=
  .scope 21
    ((.mark 21) ;;
     (.ite ((.look 22) ;; (.chr 22 (.rg 0 1114111)))
       (.ite (.ite (.chr 22 .alpha) (.val true) (.chr 22 (.rg 95 95)))
         ((.advc 22) ;;
          (.loop 23 true ((.look 24) ;; (.chr 24 (.rg 0 1114111)))
            (.ite (.ite (.ite (.ite (.chr 24 .alnum) (.val true) (.chr 24 (.rg 95 95))) (.val true) (.chr 24 (.rg 45 45)))
                (.val true)
                (.chr 24 (.rg 39 39)))
              (.advc 24)
              .brk)) ;;
          (.val true) ;;
          (.val true) ;;
          (.tok 21) ;;
          (.val true))
         (.val false))
       (.val false)))

/-- `lex_operator` (examples/oak-nix/src/lexer/mod.rs:237-405). -/
def lexOperator : Code :=
  .scope 25
    ((.mark 25) ;;
     (.ite ((.look 26) ;; (.chr 26 (.rg 0 1114111)))
       ((.ite (.chr 26 (.rg 43 43))
          ((.adv 1) ;; (.ite ((.look 35) ;; (.chr 35 (.rg 43 43))) (.adv 1) (.val true)))
          (.ite (.chr 26 (.rg 45 45))
            ((.adv 1) ;; (.ite ((.look 34) ;; (.chr 34 (.rg 62 62))) (.adv 1) (.val true)))
            (.ite (.chr 26 (.rg 42 42))
              (.adv 1)
              (.ite (.chr 26 (.rg 47 47))
                ((.adv 1) ;; (.ite ((.look 33) ;; (.chr 33 (.rg 47 47))) (.adv 1) (.val true)))
                (.ite (.chr 26 (.rg 37 37))
                  (.adv 1)
                  (.ite (.chr 26 (.rg 61 61))
                    ((.adv 1) ;; (.ite ((.look 32) ;; (.chr 32 (.rg 61 61))) (.adv 1) (.val true)))
                    (.ite (.chr 26 (.rg 33 33))
                      ((.adv 1) ;; (.ite ((.look 31) ;; (.chr 31 (.rg 61 61))) (.adv 1) (.ret false)))
                      (.ite (.chr 26 (.rg 60 60))
                        ((.adv 1) ;; (.ite ((.look 30) ;; (.chr 30 (.rg 61 61))) (.adv 1) (.val true)))
                        (.ite (.chr 26 (.rg 62 62))
                          ((.adv 1) ;; (.ite ((.look 29) ;; (.chr 29 (.rg 61 61))) (.adv 1) (.val true)))
                          (.ite (.chr 26 (.rg 38 38))
                            ((.adv 1) ;; (.ite ((.look 28) ;; (.chr 28 (.rg 38 38))) (.adv 1) (.ret false)))
                            (.ite (.chr 26 (.rg 124 124))
                              ((.adv 1) ;; (.ite ((.look 27) ;; (.chr 27 (.rg 124 124))) (.adv 1) (.ret false)))
                              (.ite (.chr 26 (.rg 63 63))
                                (.adv 1)
                                (.ite (.chr 26 (.rg 40 40))
                                  (.adv 1)
                                  (.ite (.chr 26 (.rg 41 41))
                                    (.adv 1)
                                    (.ite (.chr 26 (.rg 123 123))
                                      (.adv 1)
                                      (.ite (.chr 26 (.rg 125 125))
                                        (.adv 1)
                                        (.ite (.chr 26 (.rg 91 91))
                                          (.adv 1)
                                          (.ite (.chr 26 (.rg 93 93))
                                            (.adv 1)
                                            (.ite (.chr 26 (.rg 59 59))
                                              (.adv 1)
                                              (.ite (.chr 26 (.rg 58 58))
                                                (.adv 1)
                                                (.ite (.chr 26 (.rg 44 44))
                                                  (.adv 1)
                                                  (.ite (.chr 26 (.rg 46 46))
                                                    (.adv 1)
                                                    (.ite (.chr 26 (.rg 64 64))
                                                      (.adv 1)
                                                      (.ite (.chr 26 (.rg 36 36))
                                                        (.adv 1)
                                                        (.ite (.chr 26 (.rg 35 35)) (.adv 1) (.ret false)))))))))))))))))))))))))) ;;
        (.tok 25) ;;
        (.val true))
       (.val false)))

/-- `run` (examples/oak-nix/src/lexer/mod.rs:25-57). -/
def run_ : Code :=
  .scope 0
    (.loop 0 false .more
      ((.ite skipWhitespace .cont (.val true)) ;;
       (.ite lexNewline .cont (.val true)) ;;
       (.ite lexComment .cont (.val true)) ;;
       (.ite lexString .cont (.val true)) ;;
       (.ite lexNumber .cont (.val true)) ;;
       (.ite lexIdentifier .cont (.val true)) ;;
       (.ite lexOperator .cont (.val true)) ;;
       (.mark 36) ;;
       (.ite ((.look 37) ;; (.chr 37 (.rg 0 1114111))) ((.advc 37) ;; (.tok 36)) (.val true))))

end Oaks.HandLex.Nix
