import Verif.Model.LexCode

/-
The lexer of the example `oak-cpp` as a program of Model/LexCode.lean, function by function in the order of
the calls. Kinds of tokens and messages are left out.
-/
namespace Oaks.HandLex.Cpp

open Oaks.Lc

/-- `skip_whitespace` (examples/oak-cpp/src/lexer/mod.rs:25-39). -/
def skipWhitespace : Code :=
  .scope 1
    ((.mark 1) ;;
     (.loop 2 true ((.look 3) ;; (.chr 3 (.rg 0 1114111)))
       (.ite (.ite (.chr 3 (.rg 32 32)) (.val true) (.chr 3 (.rg 9 9))) (.advc 3) .brk)) ;;
     (.ite (.moved 1) ((.tok 1) ;; (.val true)) (.val false)))

/-- `lex_newline` (examples/oak-cpp/src/lexer/mod.rs:42-61). -/
def lexNewline : Code :=
  .scope 4
    ((.mark 4) ;;
     (.ite ((.look 7) ;; (.chr 7 (.rg 10 10)))
       ((.adv 1) ;; (.tok 4) ;; (.val true))
       (.ite ((.look 5) ;; (.chr 5 (.rg 13 13)))
         ((.adv 1) ;; (.ite ((.look 6) ;; (.chr 6 (.rg 10 10))) (.adv 1) (.val true)) ;; (.tok 4) ;; (.val true))
         (.val false))))

/-- `lex_comment` (examples/oak-cpp/src/lexer/mod.rs:64-100). -/
def lexComment : Code :=
  .scope 8
    ((.mark 8) ;;
     (.ite ((.look 9) ;; (.chr 9 (.rg 47 47)))
       (.ite ((.lookN 14 1) ;; (.chr 14 (.rg 47 47)))
         ((.adv 2) ;;
          (.loop 15 true ((.look 16) ;; (.chr 16 (.rg 0 1114111)))
            ((.ite (.ite (.chr 16 (.rg 10 10)) (.val true) (.chr 16 (.rg 13 13))) .brk (.val true)) ;; (.advc 16))) ;;
          (.tok 8) ;;
          (.val true))
         (.ite ((.lookN 10 1) ;; (.chr 10 (.rg 42 42)))
           ((.adv 2) ;;
            (.loop 11 true ((.look 12) ;; (.chr 12 (.rg 0 1114111)))
              ((.ite (.ite (.chr 12 (.rg 42 42)) ((.lookN 13 1) ;; (.chr 13 (.rg 47 47))) (.val false))
                 ((.adv 2) ;; .brk)
                 (.val true)) ;;
               (.advc 12))) ;;
            (.tok 8) ;;
            (.val true))
           (.val false)))
       (.val false)))

/-- `lex_string` (examples/oak-cpp/src/lexer/mod.rs:103-141). -/
def lexString : Code :=
  .scope 17
    ((.mark 17) ;;
     (.ite ((.look 18) ;; (.chr 18 (.rg 34 34)))
       ((.adv 1) ;;
        (.put 19 0) ;;
        (.loop 20 true ((.look 21) ;; (.chr 21 (.rg 0 1114111)))
          ((.ite (.flag 19) ((.put 19 0) ;; (.advc 21) ;; .cont) (.val true)) ;;
           (.ite (.chr 21 (.rg 92 92)) ((.put 19 1) ;; (.adv 1) ;; .cont) (.val true)) ;;
           (.ite (.chr 21 (.rg 34 34)) ((.adv 1) ;; .brk) (.val true)) ;;
           (.ite (.ite (.chr 21 (.rg 10 10)) (.val true) (.chr 21 (.rg 13 13))) .brk (.val true)) ;;
           (.advc 21))) ;;
        (.tok 17) ;;
        (.val true))
       (.val false)))

/-- `lex_character` (examples/oak-cpp/src/lexer/mod.rs:144-182). -/
def lexCharacter : Code :=
  .scope 22
    ((.mark 22) ;;
     (.ite ((.look 23) ;; (.chr 23 (.rg 39 39)))
       ((.adv 1) ;;
        (.put 24 0) ;;
        (.loop 25 true ((.look 26) ;; (.chr 26 (.rg 0 1114111)))
          ((.ite (.flag 24) ((.put 24 0) ;; (.advc 26) ;; .cont) (.val true)) ;;
           (.ite (.chr 26 (.rg 92 92)) ((.put 24 1) ;; (.adv 1) ;; .cont) (.val true)) ;;
           (.ite (.chr 26 (.rg 39 39)) ((.adv 1) ;; .brk) (.val true)) ;;
           (.ite (.ite (.chr 26 (.rg 10 10)) (.val true) (.chr 26 (.rg 13 13))) .brk (.val true)) ;;
           (.advc 26))) ;;
        (.tok 22) ;;
        (.val true))
       (.val false)))

/-- What `lex_number` does with a number (examples/oak-cpp/src/lexer/mod.rs:190-266). -/
def number : Code :=
    ((.put 30 0) ;;
     (.ite (.chr 28 (.rg 48 48))
       (.ite ((.lookN 33 1) ;; (.chr 33 (.rg 0 1114111)))
         (.ite (.ite (.chr 33 (.rg 120 120)) (.val true) (.chr 33 (.rg 88 88)))
           ((.adv 2) ;;
            (.loop 38 true ((.look 39) ;; (.chr 39 (.rg 0 1114111)))
              (.ite (.chr 39 (.or (.or (.rg 48 57) (.rg 65 70)) (.rg 97 102))) (.adv 1) .brk)))
           (.ite (.ite (.chr 33 (.rg 98 98)) (.val true) (.chr 33 (.rg 66 66)))
             ((.adv 2) ;;
              (.loop 36 true ((.look 37) ;; (.chr 37 (.rg 0 1114111)))
                (.ite (.ite (.chr 37 (.rg 48 48)) (.val true) (.chr 37 (.rg 49 49))) (.adv 1) .brk)))
             (.ite (.chr 33 (.rg 48 57))
               (.loop 34 true ((.look 35) ;; (.chr 35 (.rg 0 1114111)))
                 (.ite (.chr 35 (.rg 48 57)) (.adv 1) .brk))
               (.adv 1))))
         (.adv 1))
       (.loop 31 true ((.look 32) ;; (.chr 32 (.rg 0 1114111))) (.ite (.chr 32 (.rg 48 57)) (.adv 1) .brk))) ;;
     (.ite ((.look 40) ;; (.chr 40 (.rg 46 46)))
       (.ite ((.lookN 41 1) ;; (.chr 41 (.rg 0 1114111)))
         (.ite (.chr 41 (.rg 48 57))
           ((.put 30 1) ;;
            (.adv 1) ;;
            (.loop 42 true ((.look 43) ;; (.chr 43 (.rg 0 1114111))) (.ite (.chr 43 (.rg 48 57)) (.adv 1) .brk)))
           (.val true))
         (.val true))
       (.val true)) ;;
     (.ite ((.look 44) ;; (.chr 44 (.rg 0 1114111)))
       (.ite (.ite (.chr 44 (.rg 101 101)) (.val true) (.chr 44 (.rg 69 69)))
         ((.put 30 1) ;;
          (.adv 1) ;;
          (.ite ((.look 45) ;; (.chr 45 (.rg 0 1114111)))
            (.ite (.ite (.chr 45 (.rg 43 43)) (.val true) (.chr 45 (.rg 45 45))) (.adv 1) (.val true))
            (.val true)) ;;
          (.loop 46 true ((.look 47) ;; (.chr 47 (.rg 0 1114111))) (.ite (.chr 47 (.rg 48 57)) (.adv 1) .brk)))
         (.val true))
       (.val true)) ;;
     (.loop 48 true ((.look 49) ;; (.chr 49 (.rg 0 1114111)))
       (.ite (.chr 49 (.or (.rg 65 90) (.rg 97 122))) (.adv 1) .brk)) ;;
     (.val true) ;;
     (.tok 27) ;;
     (.val true))

/-- `lex_number` (examples/oak-cpp/src/lexer/mod.rs:185-275). The condition of line 189 has two cases; the number is
read in each of them. -/
def lexNumber : Code :=
  .scope 27
    ((.mark 27) ;;
     (.ite ((.look 28) ;; (.chr 28 (.rg 0 1114111)))
       (.ite (.chr 28 (.rg 48 57))
         number
         (.ite (.ite (.chr 28 (.rg 46 46)) ((.lookN 29 1) ;; (.chr 29 (.rg 48 57))) (.val false)) number (.val false)))
       (.val false)))

/-- `lex_keyword_or_identifier` (examples/oak-cpp/src/lexer/mod.rs:278-309). -/
def lexKeywordOrIdentifier : Code :=
  .scope 50
    ((.mark 50) ;;
     (.ite ((.look 51) ;; (.chr 51 (.rg 0 1114111)))
       (.ite (.ite (.chr 51 (.or (.rg 65 90) (.rg 97 122))) (.val true) (.chr 51 (.rg 95 95)))
         ((.loop 52 true ((.look 53) ;; (.chr 53 (.rg 0 1114111)))
            (.ite (.ite (.chr 53 (.or (.or (.rg 48 57) (.rg 65 90)) (.rg 97 122))) (.val true) (.chr 53 (.rg 95 95)))
              (.advc 53)
              .brk)) ;;
          (.val true) ;;
          (.val true) ;;
          (.tok 50) ;;
          (.val true))
         (.val false))
       (.val false)))

/-- `lex_preprocessor` (examples/oak-cpp/src/lexer/mod.rs:484-502). -/
def lexPreprocessor : Code :=
  .scope 54
    ((.mark 54) ;;
     (.ite ((.look 55) ;; (.chr 55 (.rg 35 35)))
       ((.loop 56 true ((.look 57) ;; (.chr 57 (.rg 0 1114111)))
          ((.ite (.ite (.chr 57 (.rg 10 10)) (.val true) (.chr 57 (.rg 13 13))) .brk (.val true)) ;; (.advc 57))) ;;
        (.tok 54) ;;
        (.val true))
       (.val false)))

/-- `lex_operator` (examples/oak-cpp/src/lexer/mod.rs:312-455). `state.advance(len)` is done where `len` is found. -/
def lexOperator : Code :=
  .scope 58
    ((.mark 58) ;;
     (.ite ((.look 59) ;; (.chr 59 (.rg 0 1114111)))
       ((.ite (.chr 59 (.rg 43 43))
          (.ite ((.lookN 83 1) ;; (.chr 83 (.rg 43 43)))
            (.adv 2)
            (.ite ((.lookN 82 1) ;; (.chr 82 (.rg 61 61))) (.adv 2) (.adv 1)))
          (.ite (.chr 59 (.rg 45 45))
            (.ite ((.lookN 81 1) ;; (.chr 81 (.rg 45 45)))
              (.adv 2)
              (.ite ((.lookN 80 1) ;; (.chr 80 (.rg 61 61)))
                (.adv 2)
                (.ite ((.lookN 79 1) ;; (.chr 79 (.rg 62 62))) (.adv 2) (.adv 1))))
            (.ite (.chr 59 (.rg 42 42))
              (.ite ((.lookN 78 1) ;; (.chr 78 (.rg 61 61))) (.adv 2) (.adv 1))
              (.ite (.chr 59 (.rg 47 47))
                (.ite ((.lookN 77 1) ;; (.chr 77 (.rg 61 61))) (.adv 2) (.adv 1))
                (.ite (.chr 59 (.rg 37 37))
                  (.ite ((.lookN 76 1) ;; (.chr 76 (.rg 61 61))) (.adv 2) (.adv 1))
                  (.ite (.chr 59 (.rg 61 61))
                    (.ite ((.lookN 75 1) ;; (.chr 75 (.rg 61 61))) (.adv 2) (.adv 1))
                    (.ite (.chr 59 (.rg 33 33))
                      (.ite ((.lookN 74 1) ;; (.chr 74 (.rg 61 61))) (.adv 2) (.adv 1))
                      (.ite (.chr 59 (.rg 60 60))
                        (.ite ((.lookN 72 1) ;; (.chr 72 (.rg 60 60)))
                          (.ite ((.lookN 73 2) ;; (.chr 73 (.rg 61 61))) (.adv 3) (.adv 2))
                          (.ite ((.lookN 71 1) ;; (.chr 71 (.rg 61 61))) (.adv 2) (.adv 1)))
                        (.ite (.chr 59 (.rg 62 62))
                          (.ite ((.lookN 69 1) ;; (.chr 69 (.rg 62 62)))
                            (.ite ((.lookN 70 2) ;; (.chr 70 (.rg 61 61))) (.adv 3) (.adv 2))
                            (.ite ((.lookN 68 1) ;; (.chr 68 (.rg 61 61))) (.adv 2) (.adv 1)))
                          (.ite (.chr 59 (.rg 38 38))
                            (.ite ((.lookN 67 1) ;; (.chr 67 (.rg 38 38)))
                              (.adv 2)
                              (.ite ((.lookN 66 1) ;; (.chr 66 (.rg 61 61))) (.adv 2) (.adv 1)))
                            (.ite (.chr 59 (.rg 124 124))
                              (.ite ((.lookN 65 1) ;; (.chr 65 (.rg 124 124)))
                                (.adv 2)
                                (.ite ((.lookN 64 1) ;; (.chr 64 (.rg 61 61))) (.adv 2) (.adv 1)))
                              (.ite (.chr 59 (.rg 94 94))
                                (.ite ((.lookN 63 1) ;; (.chr 63 (.rg 61 61))) (.adv 2) (.adv 1))
                                (.ite (.chr 59 (.rg 126 126))
                                  (.adv 1)
                                  (.ite (.chr 59 (.rg 63 63))
                                    (.adv 1)
                                    (.ite (.chr 59 (.rg 58 58))
                                      (.ite ((.lookN 62 1) ;; (.chr 62 (.rg 58 58))) (.adv 2) (.adv 1))
                                      (.ite (.chr 59 (.rg 46 46)) (.adv 1) (.ret false))))))))))))))))) ;;
        (.tok 58) ;;
        (.val true))
       (.val false)))

/-- `lex_delimiter` (examples/oak-cpp/src/lexer/mod.rs:458-481). -/
def lexDelimiter : Code :=
  .scope 84
    ((.mark 84) ;;
     (.ite ((.look 85) ;; (.chr 85 (.rg 0 1114111)))
       ((.ite (.chr 85 (.rg 40 40))
          (.val true)
          (.ite (.chr 85 (.rg 41 41))
            (.val true)
            (.ite (.chr 85 (.rg 91 91))
              (.val true)
              (.ite (.chr 85 (.rg 93 93))
                (.val true)
                (.ite (.chr 85 (.rg 123 123))
                  (.val true)
                  (.ite (.chr 85 (.rg 125 125))
                    (.val true)
                    (.ite (.chr 85 (.rg 44 44)) (.val true) (.ite (.chr 85 (.rg 59 59)) (.val true) (.ret false))))))))) ;;
        (.adv 1) ;;
        (.tok 84) ;;
        (.val true))
       (.val false)))

/-- `run` (examples/oak-cpp/src/lexer/mod.rs:516-567). -/
def run_ : Code :=
  .scope 0
    (.loop 0 false .more
      ((.ite skipWhitespace .cont (.val true)) ;;
       (.ite lexNewline .cont (.val true)) ;;
       (.ite lexComment .cont (.val true)) ;;
       (.ite lexString .cont (.val true)) ;;
       (.ite lexCharacter .cont (.val true)) ;;
       (.ite lexNumber .cont (.val true)) ;;
       (.ite lexKeywordOrIdentifier .cont (.val true)) ;;
       (.ite lexPreprocessor .cont (.val true)) ;;
       (.ite lexOperator .cont (.val true)) ;;
       (.ite lexDelimiter .cont (.val true)) ;;
       (.mark 86) ;;
       (.ite ((.look 87) ;; (.chr 87 (.rg 0 1114111))) ((.advc 87) ;; (.tok 86)) (.val true))))

end Oaks.HandLex.Cpp
