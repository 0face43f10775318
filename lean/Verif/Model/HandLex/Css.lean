import Verif.Model.LexCode

/-
The lexer of the example `oak-css` as a program of Model/LexCode.lean, function by function in the order of
the calls. Kinds of tokens and messages are left out.
-/
namespace Oaks.HandLex.Css

open Oaks.Lc

/-- `skip_whitespace` (examples/oak-css/src/lexer/mod.rs:22-36). -/
def skipWhitespace : Code :=
  .scope 2
    ((.mark 2) ;;
     (.loop 3 true ((.look 4) ;; (.chr 4 (.rg 0 1114111)))
       (.ite (.ite (.chr 4 (.rg 32 32)) (.val true) (.chr 4 (.rg 9 9))) (.advc 4) .brk)) ;;
     (.ite (.moved 2) ((.tok 2) ;; (.val true)) (.val false)))

/-- `lex_newline` (examples/oak-css/src/lexer/mod.rs:39-58). -/
def lexNewline : Code :=
  .scope 5
    ((.mark 5) ;;
     (.ite ((.look 8) ;; (.chr 8 (.rg 10 10)))
       ((.adv 1) ;; (.tok 5) ;; (.val true))
       (.ite ((.look 6) ;; (.chr 6 (.rg 13 13)))
         ((.adv 1) ;; (.ite ((.look 7) ;; (.chr 7 (.rg 10 10))) (.adv 1) (.val true)) ;; (.tok 5) ;; (.val true))
         (.val false))))

/-- `lex_comment` (examples/oak-css/src/lexer/mod.rs:61-86). -/
def lexComment : Code :=
  .scope 9
    ((.mark 9) ;;
     (.ite ((.look 10) ;; (.chr 10 (.rg 47 47)))
       (.ite ((.lookN 11 1) ;; (.chr 11 (.rg 42 42)))
         ((.adv 2) ;;
          (.loop 12 true ((.look 13) ;; (.chr 13 (.rg 0 1114111)))
            ((.ite (.ite (.chr 13 (.rg 42 42)) ((.lookN 14 1) ;; (.chr 14 (.rg 47 47))) (.val false))
               ((.adv 2) ;; .brk)
               (.val true)) ;;
             (.advc 13))) ;;
          (.tok 9) ;;
          (.val true))
         (.val false))
       (.val false)))

/-- `lex_string` (examples/oak-css/src/lexer/mod.rs:89-122). -/
def lexString : Code :=
  .scope 15
    ((.mark 15) ;;
     (.ite ((.look 16) ;; (.chr 16 (.rg 0 1114111)))
       (.ite (.ite (.chr 16 (.rg 34 34)) (.val true) (.chr 16 (.rg 39 39)))
         ((.adv 1) ;;
          (.loop 17 true ((.look 18) ;; (.chr 18 (.rg 0 1114111)))
            (.ite (.same 18 16)
              ((.adv 1) ;; .brk)
              (.ite (.chr 18 (.rg 92 92))
                ((.adv 1) ;; (.ite ((.look 19) ;; (.chr 19 (.rg 0 1114111))) (.adv 1) (.val true)))
                (.advc 18)))) ;;
          (.tok 15) ;;
          (.val true))
         (.val false))
       (.val false)))

/-- `lex_url` (examples/oak-css/src/lexer/mod.rs:125-187). -/
def lexUrl : Code :=
  .scope 20
    ((.mark 20) ;;
     (.ite ((.look 21) ;; (.chr 21 (.rg 117 117)))
       (.ite (.ite (.ite ((.lookN 22 1) ;; (.chr 22 (.rg 114 114))) ((.lookN 23 2) ;; (.chr 23 (.rg 108 108))) (.val false))
           ((.lookN 24 3) ;; (.chr 24 (.rg 40 40)))
           (.val false))
         ((.adv 4) ;;
          (.loop 25 true ((.look 26) ;; (.chr 26 (.rg 0 1114111))) (.ite (.chr 26 .white) (.advc 26) .brk)) ;;
          (.ite ((.look 27) ;; (.chr 27 (.rg 0 1114111)))
            (.ite (.ite (.chr 27 (.rg 34 34)) (.val true) (.chr 27 (.rg 39 39)))
              ((.adv 1) ;;
               (.loop 30 true ((.look 31) ;; (.chr 31 (.rg 0 1114111)))
                 (.ite (.same 31 27)
                   ((.adv 1) ;; .brk)
                   (.ite (.chr 31 (.rg 92 92))
                     ((.adv 1) ;; (.ite ((.look 32) ;; (.chr 32 (.rg 0 1114111))) (.adv 1) (.val true)))
                     (.advc 31)))))
              (.loop 28 true ((.look 29) ;; (.chr 29 (.rg 0 1114111)))
                ((.ite (.ite (.chr 29 (.rg 41 41)) (.val true) (.chr 29 .white)) .brk (.val true)) ;; (.advc 29))))
            (.val true)) ;;
          (.loop 33 true ((.look 34) ;; (.chr 34 (.rg 0 1114111))) (.ite (.chr 34 .white) (.advc 34) .brk)) ;;
          (.ite ((.look 35) ;; (.chr 35 (.rg 41 41))) (.adv 1) (.val true)) ;;
          (.tok 20) ;;
          (.val true))
         (.val false))
       (.val false)))

/-- `lex_color` (examples/oak-css/src/lexer/mod.rs:190-222). -/
def lexColor : Code :=
  .scope 36
    ((.mark 36) ;;
     (.ite ((.look 37) ;; (.chr 37 (.rg 35 35)))
       ((.adv 1) ;;
        (.put 38 0) ;;
        (.loop 39 true ((.look 40) ;; (.chr 40 (.rg 0 1114111)))
          (.ite (.chr 40 (.or (.or (.rg 48 57) (.rg 65 70)) (.rg 97 102)))
            ((.adv 1) ;; (.comp 38 38 (· + 1)))
            .brk)) ;;
        (.ite (.ite (.ite (.ite (.ask 38 (· == 3)) (.val true) (.ask 38 (· == 4)))
              (.val true)
              (.ask 38 (· == 6)))
            (.val true)
            (.ask 38 (· == 8)))
          ((.tok 36) ;; (.val true))
          ((.tokLen 36 1) ;; ((.goto 36) ;; (.adv 1)) ;; (.val true))))
       (.val false)))

/-- `lex_number` (examples/oak-css/src/lexer/mod.rs:225-282). -/
def lexNumber : Code :=
  .scope 41
    ((.mark 41) ;;
     (.put 42 0) ;;
     (.ite ((.look 43) ;; (.chr 43 (.rg 0 1114111)))
       (.ite (.ite (.chr 43 (.rg 43 43)) (.val true) (.chr 43 (.rg 45 45))) (.adv 1) (.val true))
       (.val true)) ;;
     (.loop 44 true ((.look 45) ;; (.chr 45 (.rg 0 1114111)))
       (.ite (.chr 45 (.rg 48 57)) ((.adv 1) ;; (.put 42 1)) .brk)) ;;
     (.ite ((.look 46) ;; (.chr 46 (.rg 46 46)))
       (.ite ((.lookN 47 1) ;; (.chr 47 (.rg 0 1114111)))
         (.ite (.chr 47 (.rg 48 57))
           ((.adv 1) ;;
            (.loop 48 true ((.look 49) ;; (.chr 49 (.rg 0 1114111)))
              (.ite (.chr 49 (.rg 48 57)) ((.adv 1) ;; (.put 42 1)) .brk)))
           (.val true))
         (.val true))
       (.val true)) ;;
     (.ite (.flag 42)
       ((.mark 50) ;;
        (.loop 51 true ((.look 52) ;; (.chr 52 (.rg 0 1114111)))
          (.ite (.ite (.chr 52 .alpha) (.val true) (.chr 52 (.rg 37 37))) (.advc 52) .brk)) ;;
        (.ite (.moved 50) (.tok 41) (.tok 41)) ;;
        (.val true))
       ((.goto 41) ;; (.val false))))

/-- `lex_at_rule` (examples/oak-css/src/lexer/mod.rs:307-338). -/
def lexAtRule : Code :=
  .scope 53
    ((.mark 53) ;;
     (.ite ((.look 54) ;; (.chr 54 (.rg 64 64)))
       ((.adv 1) ;;
        (.mark 55) ;;
        (.loop 56 true ((.look 57) ;; (.chr 57 (.rg 0 1114111)))
          (.ite (.ite (.chr 57 .alpha) (.val true) (.chr 57 (.rg 45 45))) (.advc 57) .brk)) ;;
        (.val true) ;;
        (.val true) ;;
        (.tok 53) ;;
        (.val true))
       (.val false)))

/-- `lex_identifier` (examples/oak-css/src/lexer/mod.rs:285-304). -/
def lexIdentifier : Code :=
  .scope 58
    ((.mark 58) ;;
     (.ite ((.look 59) ;; (.chr 59 (.rg 0 1114111)))
       (.ite (.ite (.ite (.chr 59 .alpha) (.val true) (.chr 59 (.rg 95 95))) (.val true) (.chr 59 (.rg 45 45)))
         ((.loop 60 true ((.look 61) ;; (.chr 61 (.rg 0 1114111)))
            (.ite (.ite (.ite (.chr 61 .alnum) (.val true) (.chr 61 (.rg 95 95))) (.val true) (.chr 61 (.rg 45 45)))
              (.advc 61)
              .brk)) ;;
          (.tok 58) ;;
          (.val true))
         (.val false))
       (.val false)))

/-- `lex_delimiter` (examples/oak-css/src/lexer/mod.rs:341-364). -/
def lexDelimiter : Code :=
  .scope 62
    ((.mark 62) ;;
     (.ite ((.look 63) ;; (.chr 63 (.rg 0 1114111)))
       ((.ite (.chr 63 (.rg 40 40))
          (.val true)
          (.ite (.chr 63 (.rg 41 41))
            (.val true)
            (.ite (.chr 63 (.rg 123 123))
              (.val true)
              (.ite (.chr 63 (.rg 125 125))
                (.val true)
                (.ite (.chr 63 (.rg 91 91))
                  (.val true)
                  (.ite (.chr 63 (.rg 93 93))
                    (.val true)
                    (.ite (.chr 63 (.rg 44 44)) (.val true) (.ite (.chr 63 (.rg 59 59)) (.val true) (.ret false))))))))) ;;
        (.adv 1) ;;
        (.tok 62) ;;
        (.val true))
       (.val false)))

/-- `lex_operator` (examples/oak-css/src/lexer/mod.rs:367-395). -/
def lexOperator : Code :=
  .scope 64
    ((.mark 64) ;;
     (.ite ((.look 65) ;; (.chr 65 (.rg 0 1114111)))
       ((.ite (.chr 65 (.rg 58 58))
          (.val true)
          (.ite (.chr 65 (.rg 46 46))
            (.val true)
            (.ite (.chr 65 (.rg 35 35))
              (.val true)
              (.ite (.chr 65 (.rg 43 43))
                (.val true)
                (.ite (.chr 65 (.rg 45 45))
                  (.val true)
                  (.ite (.chr 65 (.rg 42 42))
                    (.val true)
                    (.ite (.chr 65 (.rg 47 47))
                      (.val true)
                      (.ite (.chr 65 (.rg 61 61))
                        (.val true)
                        (.ite (.chr 65 (.rg 126 126))
                          (.val true)
                          (.ite (.chr 65 (.rg 124 124))
                            (.val true)
                            (.ite (.chr 65 (.rg 94 94))
                              (.val true)
                              (.ite (.chr 65 (.rg 36 36))
                                (.val true)
                                (.ite (.chr 65 (.rg 62 62)) (.val true) (.ret false)))))))))))))) ;;
        (.adv 1) ;;
        (.tok 64) ;;
        (.val true))
       (.val false)))

/-- `run` (examples/oak-css/src/lexer/mod.rs:398-460). -/
def run_ : Code :=
  .scope 0
    (.loop 0 false .more
      ((.mark 1) ;;
       (.ite skipWhitespace .cont (.val true)) ;;
       (.ite lexNewline .cont (.val true)) ;;
       (.ite lexComment .cont (.val true)) ;;
       (.ite lexString .cont (.val true)) ;;
       (.ite lexUrl .cont (.val true)) ;;
       (.ite lexColor .cont (.val true)) ;;
       (.ite lexNumber .cont (.val true)) ;;
       (.ite lexAtRule .cont (.val true)) ;;
       (.ite lexIdentifier .cont (.val true)) ;;
       (.ite lexDelimiter .cont (.val true)) ;;
       (.ite lexOperator .cont (.val true)) ;;
       (.mark 66) ;;
       (.ite ((.look 67) ;; (.chr 67 (.rg 0 1114111))) ((.advc 67) ;; (.tok 66)) .brk) ;;
       (.guard 1)))

end Oaks.HandLex.Css
