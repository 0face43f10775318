import Verif.Model.LexCode

/-
The lexer of the example `oak-purescript` as a program of Model/LexCode.lean, function by function in the order of
the calls. Kinds of tokens and messages are left out.
-/
namespace Oaks.HandLex.Purescript

open Oaks.Lc

/-- `skip_whitespace` (examples/oak-purescript/src/lexer/mod.rs:84-98). -/
def skipWhitespace : Code :=
  .scope 2
    ((.mark 2) ;;
     (.loop 3 true ((.look 4) ;; (.chr 4 (.rg 0 1114111)))
       (.ite (.ite (.chr 4 (.rg 32 32)) (.val true) (.chr 4 (.rg 9 9))) (.advc 4) .brk)) ;;
     (.ite (.moved 2) ((.tok 2) ;; (.val true)) (.val false)))

/-- `lex_newline` (examples/oak-purescript/src/lexer/mod.rs:101-120). -/
def lexNewline : Code :=
  .scope 5
    ((.mark 5) ;;
     (.ite ((.look 8) ;; (.chr 8 (.rg 10 10)))
       ((.adv 1) ;; (.tok 5) ;; (.val true))
       (.ite ((.look 6) ;; (.chr 6 (.rg 13 13)))
         ((.adv 1) ;; (.ite ((.look 7) ;; (.chr 7 (.rg 10 10))) (.adv 1) (.val true)) ;; (.tok 5) ;; (.val true))
         (.val false))))

/-- `lex_comment` (examples/oak-purescript/src/lexer/mod.rs:123-184). -/
def lexComment : Code :=
  .scope 9
    ((.mark 9) ;;
     (.ite ((.look 17) ;; (.chr 17 (.rg 45 45)))
       ((.adv 1) ;;
        (.ite ((.look 18) ;; (.chr 18 (.rg 45 45)))
          ((.adv 1) ;;
           (.loop 19 true ((.look 20) ;; (.chr 20 (.rg 0 1114111)))
             ((.ite (.ite (.chr 20 (.rg 10 10)) (.val true) (.chr 20 (.rg 13 13))) .brk (.val true)) ;; (.advc 20))) ;;
           (.tok 9) ;;
           (.val true))
          ((.goto 9) ;; (.val false))))
       (.ite ((.look 10) ;; (.chr 10 (.rg 123 123)))
         ((.adv 1) ;;
          (.ite ((.look 11) ;; (.chr 11 (.rg 45 45)))
            ((.adv 1) ;;
             (.put 12 1) ;;
             (.loop 13 true ((.look 14) ;; (.chr 14 (.rg 0 1114111)))
               (.ite (.chr 14 (.rg 123 123))
                 ((.adv 1) ;;
                  (.ite ((.look 16) ;; (.chr 16 (.rg 45 45)))
                    ((.comp 12 12 (· + 1)) ;; (.adv 1))
                    (.val true)))
                 (.ite (.chr 14 (.rg 45 45))
                   ((.adv 1) ;;
                    (.ite ((.look 15) ;; (.chr 15 (.rg 125 125)))
                      ((.comp 12 12 (· - 1)) ;;
                       (.adv 1) ;;
                       (.ite (.ask 12 (· == 0)) .brk (.val true)))
                      (.val true)))
                   (.advc 14)))) ;;
             (.tok 9) ;;
             (.val true))
            ((.goto 9) ;; (.val false))))
         (.val false))))

/-- `lex_identifier_or_keyword` (examples/oak-purescript/src/lexer/mod.rs:187-244). -/
def lexIdentifierOrKeyword : Code :=
  .scope 21
    ((.mark 21) ;;
     (.ite ((.look 22) ;; (.chr 22 (.rg 0 1114111)))
       (.ite (.ite (.chr 22 (.or (.rg 65 90) (.rg 97 122))) (.val true) (.chr 22 (.rg 95 95)))
         ((.advc 22) ;;
          (.loop 23 true ((.look 24) ;; (.chr 24 (.rg 0 1114111)))
            (.ite (.ite (.ite (.chr 24 (.or (.or (.rg 48 57) (.rg 65 90)) (.rg 97 122))) (.val true) (.chr 24 (.rg 95 95)))
                (.val true)
                (.chr 24 (.rg 39 39)))
              (.advc 24)
              .brk)) ;;
          (.val true) ;;
          (.val true) ;;
          (.tok 21) ;;
          (.val true))
         (.val false))
       (.val false)))

/-- `lex_number_literal` (examples/oak-purescript/src/lexer/mod.rs:247-310). -/
def lexNumberLiteral : Code :=
  .scope 25
    ((.mark 25) ;;
     (.ite ((.look 26) ;; (.chr 26 (.rg 0 1114111)))
       (.ite (.chr 26 (.rg 48 57))
         ((.adv 1) ;;
          (.ite (.chr 26 (.rg 48 48))
            (.ite ((.look 31) ;; (.chr 31 (.or (.rg 120 120) (.rg 88 88))))
              ((.adv 1) ;;
               (.loop 32 true ((.look 33) ;; (.chr 33 (.rg 0 1114111)))
                 (.ite (.chr 33 (.or (.or (.rg 48 57) (.rg 65 70)) (.rg 97 102))) (.adv 1) .brk)))
              (.loop 29 true ((.look 30) ;; (.chr 30 (.rg 0 1114111))) (.ite (.chr 30 (.rg 48 57)) (.adv 1) .brk)))
            (.loop 27 true ((.look 28) ;; (.chr 28 (.rg 0 1114111))) (.ite (.chr 28 (.rg 48 57)) (.adv 1) .brk))) ;;
          (.ite ((.look 34) ;; (.chr 34 (.rg 46 46)))
            ((.adv 1) ;;
             (.loop 35 true ((.look 36) ;; (.chr 36 (.rg 0 1114111))) (.ite (.chr 36 (.rg 48 57)) (.adv 1) .brk)))
            (.val true)) ;;
          (.ite ((.look 37) ;; (.chr 37 (.or (.rg 101 101) (.rg 69 69))))
            ((.adv 1) ;;
             (.ite ((.look 38) ;; (.chr 38 (.or (.rg 43 43) (.rg 45 45)))) (.adv 1) (.val true)) ;;
             (.loop 39 true ((.look 40) ;; (.chr 40 (.rg 0 1114111))) (.ite (.chr 40 (.rg 48 57)) (.adv 1) .brk)))
            (.val true)) ;;
          (.tok 25) ;;
          (.val true))
         (.val false))
       (.val false)))

/-- `lex_string_literal` (examples/oak-purescript/src/lexer/mod.rs:313-344). -/
def lexStringLiteral : Code :=
  .scope 41
    ((.mark 41) ;;
     (.ite ((.look 42) ;; (.chr 42 (.rg 34 34)))
       ((.adv 1) ;;
        (.loop 43 true ((.look 44) ;; (.chr 44 (.rg 0 1114111)))
          (.ite (.chr 44 (.rg 34 34))
            ((.adv 1) ;; .brk)
            (.ite (.chr 44 (.rg 92 92))
              ((.adv 1) ;; (.ite ((.look 45) ;; (.chr 45 (.rg 0 1114111))) (.adv 1) (.val true)))
              (.ite (.ite (.chr 44 (.rg 10 10)) (.val true) (.chr 44 (.rg 13 13))) .brk (.advc 44))))) ;;
        (.tok 41) ;;
        (.val true))
       (.val false)))

/-- `lex_char_literal` (examples/oak-purescript/src/lexer/mod.rs:347-378). -/
def lexCharLiteral : Code :=
  .scope 46
    ((.mark 46) ;;
     (.ite ((.look 47) ;; (.chr 47 (.rg 39 39)))
       ((.adv 1) ;;
        (.ite ((.look 48) ;; (.chr 48 (.rg 0 1114111)))
          (.ite (.chr 48 (.rg 92 92))
            ((.adv 1) ;; (.ite ((.look 49) ;; (.chr 49 (.rg 0 1114111))) (.adv 1) (.val true)))
            (.ite (.ite (.chr 48 (.rg 39 39)) (.val false) (.val true)) (.advc 48) (.val true)))
          (.val true)) ;;
        (.ite ((.look 50) ;; (.chr 50 (.rg 39 39)))
          ((.adv 1) ;; (.tok 46) ;; (.val true))
          ((.goto 46) ;; (.val false))))
       (.val false)))

/-- `lex_operator` (examples/oak-purescript/src/lexer/mod.rs:381-495). -/
def lexOperator : Code :=
  .scope 51
    ((.mark 51) ;;
     (.ite ((.look 52) ;; (.chr 52 (.rg 0 1114111)))
       ((.ite (.chr 52 (.rg 43 43))
          (.adv 1)
          (.ite (.chr 52 (.rg 45 45))
            ((.adv 1) ;; (.ite ((.look 60) ;; (.chr 60 (.rg 62 62))) (.adv 1) (.val true)))
            (.ite (.chr 52 (.rg 42 42))
              ((.adv 1) ;; (.ite ((.look 59) ;; (.chr 59 (.rg 42 42))) (.adv 1) (.val true)))
              (.ite (.chr 52 (.rg 47 47))
                ((.adv 1) ;; (.ite ((.look 58) ;; (.chr 58 (.rg 61 61))) (.adv 1) (.val true)))
                (.ite (.chr 52 (.rg 37 37))
                  (.adv 1)
                  (.ite (.chr 52 (.rg 61 61))
                    ((.adv 1) ;;
                     (.look 57) ;;
                     (.ite (.chr 57 (.rg 61 61)) (.adv 1) (.ite (.chr 57 (.rg 62 62)) (.adv 1) (.val true))))
                    (.ite (.chr 52 (.rg 60 60))
                      ((.adv 1) ;;
                       (.look 56) ;;
                       (.ite (.chr 56 (.rg 61 61)) (.adv 1) (.ite (.chr 56 (.rg 45 45)) (.adv 1) (.val true))))
                      (.ite (.chr 52 (.rg 62 62))
                        ((.adv 1) ;; (.ite ((.look 55) ;; (.chr 55 (.rg 61 61))) (.adv 1) (.val true)))
                        (.ite (.chr 52 (.rg 38 38))
                          ((.adv 1) ;; (.ite ((.look 54) ;; (.chr 54 (.rg 38 38))) (.adv 1) (.ret false)))
                          (.ite (.chr 52 (.rg 124 124))
                            ((.adv 1) ;; (.ite ((.look 53) ;; (.chr 53 (.rg 124 124))) (.adv 1) (.val true)))
                            (.ite (.chr 52 (.rg 92 92)) (.adv 1) (.ret false)))))))))))) ;;
        (.tok 51) ;;
        (.val true))
       (.val false)))

/-- `lex_delimiter` (examples/oak-purescript/src/lexer/mod.rs:498-538). -/
def lexDelimiter : Code :=
  .scope 61
    ((.mark 61) ;;
     (.ite ((.look 62) ;; (.chr 62 (.rg 0 1114111)))
       ((.ite (.chr 62 (.rg 40 40))
          (.val true)
          (.ite (.chr 62 (.rg 41 41))
            (.val true)
            (.ite (.chr 62 (.rg 91 91))
              (.val true)
              (.ite (.chr 62 (.rg 93 93))
                (.val true)
                (.ite (.chr 62 (.rg 123 123))
                  (.val true)
                  (.ite (.chr 62 (.rg 125 125))
                    (.val true)
                    (.ite (.chr 62 (.rg 44 44))
                      (.val true)
                      (.ite (.chr 62 (.rg 59 59))
                        (.val true)
                        (.ite (.chr 62 (.rg 46 46))
                          (.val true)
                          (.ite (.chr 62 (.rg 58 58))
                            ((.adv 1) ;;
                             (.ite ((.look 63) ;; (.chr 63 (.rg 58 58)))
                               ((.adv 1) ;; (.tok 61) ;; (.ret true))
                               ((.tok 61) ;; (.ret true))))
                            (.ite (.chr 62 (.rg 63 63))
                              (.val true)
                              (.ite (.chr 62 (.rg 95 95))
                                (.val true)
                                (.ite (.chr 62 (.rg 64 64))
                                  (.val true)
                                  (.ite (.chr 62 (.rg 96 96)) (.val true) (.ret false))))))))))))))) ;;
        (.advc 62) ;;
        (.tok 61) ;;
        (.val true))
       (.val false)))

/-- `run` (examples/oak-purescript/src/lexer/mod.rs:31-81). -/
def run_ : Code :=
  .scope 0
    (.loop 0 false .more
      ((.mark 1) ;;
       (.ite skipWhitespace .cont (.val true)) ;;
       (.ite lexNewline .cont (.val true)) ;;
       (.ite lexComment .cont (.val true)) ;;
       (.ite lexIdentifierOrKeyword .cont (.val true)) ;;
       (.ite lexNumberLiteral .cont (.val true)) ;;
       (.ite lexStringLiteral .cont (.val true)) ;;
       (.ite lexCharLiteral .cont (.val true)) ;;
       (.ite lexOperator .cont (.val true)) ;;
       (.ite lexDelimiter .cont (.val true)) ;;
       (.mark 64) ;;
       (.ite ((.look 65) ;; (.chr 65 (.rg 0 1114111))) ((.advc 65) ;; (.tok 64)) (.val true)) ;;
       (.guard 1)))

end Oaks.HandLex.Purescript
