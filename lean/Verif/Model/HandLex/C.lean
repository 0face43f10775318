import Verif.Model.LexCode

/-
The lexer of the example `oak-c` as a program of Model/LexCode.lean, function by function in the order of
the calls. Kinds of tokens and messages are left out.
-/
namespace Oaks.HandLex.C

open Oaks.Lc

/-- `skip_whitespace` (examples/oak-c/src/lexer/mod.rs:87-108). `count > 0` is asked as: the position has moved. -/
def skipWhitespace : Code :=
  .scope 2
    ((.mark 2) ;;
     (.loop 4 true ((.look 5) ;; (.chr 5 (.rg 0 1114111)))
       (.ite (.ite (.ite (.chr 5 .white) (.ite (.chr 5 (.rg 10 10)) (.val false) (.val true)) (.val false))
           (.ite (.chr 5 (.rg 13 13)) (.val false) (.val true))
           (.val false))
         (.advc 5)
         .brk)) ;;
     (.ite (.moved 2) ((.tok 2) ;; (.val true)) (.val false)))

/-- `skip_comment` (examples/oak-c/src/lexer/mod.rs:110-134). -/
def skipComment : Code :=
  .scope 6
    ((.mark 6) ;;
     (.ite (.ite (.starts ['/', '/']) ((.adv 2) ;; (.val true)) (.val false))
       ((.loop 9 true ((.look 10) ;; (.chr 10 (.rg 0 1114111)))
          ((.ite (.ite (.chr 10 (.rg 10 10)) (.val true) (.chr 10 (.rg 13 13))) .brk (.val true)) ;; (.advc 10))) ;;
        (.tok 6) ;;
        (.ret true))
       (.ite (.ite (.starts ['/', '*']) ((.adv 2) ;; (.val true)) (.val false))
         ((.loop 7 true .more
            ((.ite (.ite (.starts ['*', '/']) ((.adv 2) ;; (.val true)) (.val false)) .brk (.val true)) ;;
             (.ite ((.look 8) ;; (.chr 8 (.rg 0 1114111))) (.advc 8) .brk))) ;;
          (.tok 6) ;;
          (.ret true))
         (.val true))) ;;
     (.val false))

/-- `lex_newline` (examples/oak-c/src/lexer/mod.rs:136-155). -/
def lexNewline : Code :=
  .scope 11
    ((.mark 11) ;;
     (.ite ((.look 12) ;; (.chr 12 (.rg 0 1114111)))
       (.ite (.chr 12 (.rg 10 10))
         ((.adv 1) ;; (.tok 11) ;; (.ret true))
         (.ite (.chr 12 (.rg 13 13))
           ((.adv 1) ;; (.ite ((.look 13) ;; (.chr 13 (.rg 10 10))) (.adv 1) (.val true)) ;; (.tok 11) ;; (.ret true))
           (.val true)))
       (.val true)) ;;
     (.val false))

/-- `lex_string` (examples/oak-c/src/lexer/mod.rs:157-181). -/
def lexString : Code :=
  .scope 14
    ((.mark 14) ;;
     (.ite ((.look 15) ;; (.chr 15 (.rg 34 34)))
       ((.adv 1) ;;
        (.loop 16 true ((.look 17) ;; (.chr 17 (.rg 0 1114111)))
          (.ite (.chr 17 (.rg 34 34))
            ((.adv 1) ;; .brk)
            (.ite (.chr 17 (.rg 92 92))
              ((.adv 1) ;; (.ite ((.look 18) ;; (.chr 18 (.rg 0 1114111))) (.advc 18) (.val true)))
              (.advc 17)))) ;;
        (.tok 14) ;;
        (.ret true))
       (.val true)) ;;
     (.val false))

/-- `lex_char` (examples/oak-c/src/lexer/mod.rs:183-207). -/
def lexChar : Code :=
  .scope 19
    ((.mark 19) ;;
     (.ite ((.look 20) ;; (.chr 20 (.rg 39 39)))
       ((.adv 1) ;;
        (.loop 21 true ((.look 22) ;; (.chr 22 (.rg 0 1114111)))
          (.ite (.chr 22 (.rg 39 39))
            ((.adv 1) ;; .brk)
            (.ite (.chr 22 (.rg 92 92))
              ((.adv 1) ;; (.ite ((.look 23) ;; (.chr 23 (.rg 0 1114111))) (.advc 23) (.val true)))
              (.advc 22)))) ;;
        (.tok 19) ;;
        (.ret true))
       (.val true)) ;;
     (.val false))

/-- `lex_number` (examples/oak-c/src/lexer/mod.rs:209-226). -/
def lexNumber : Code :=
  .scope 24
    ((.mark 24) ;;
     (.ite ((.look 25) ;; (.chr 25 (.rg 0 1114111)))
       (.ite (.chr 25 (.rg 48 57))
         ((.adv 1) ;;
          (.loop 26 true ((.look 27) ;; (.chr 27 (.rg 0 1114111)))
            (.ite (.ite (.ite (.ite (.ite (.ite (.chr 27 (.or (.or (.rg 48 57) (.rg 65 90)) (.rg 97 122)))
                        (.val true)
                        (.chr 27 (.rg 46 46)))
                      (.val true)
                      (.chr 27 (.rg 101 101)))
                    (.val true)
                    (.chr 27 (.rg 69 69)))
                  (.val true)
                  (.chr 27 (.rg 43 43)))
                (.val true)
                (.chr 27 (.rg 45 45)))
              (.advc 27)
              .brk)) ;;
          (.tok 24) ;;
          (.ret true))
         (.val true))
       (.val true)) ;;
     (.val false))

/-- `lex_keyword_or_identifier` (examples/oak-c/src/lexer/mod.rs:228-296). -/
def lexKeywordOrIdentifier : Code :=
  .scope 28
    ((.mark 28) ;;
     (.ite ((.look 29) ;; (.chr 29 (.rg 0 1114111)))
       (.ite (.ite (.chr 29 (.or (.rg 65 90) (.rg 97 122))) (.val true) (.chr 29 (.rg 95 95)))
         ((.advc 29) ;;
          (.loop 30 true ((.look 31) ;; (.chr 31 (.rg 0 1114111)))
            (.ite (.ite (.chr 31 (.or (.or (.rg 48 57) (.rg 65 90)) (.rg 97 122))) (.val true) (.chr 31 (.rg 95 95)))
              (.advc 31)
              .brk)) ;;
          (.tok 28) ;;
          (.ret true))
         (.val true))
       (.val true)) ;;
     (.val false))

/-- The token of an operator of two characters (examples/oak-c/src/lexer/mod.rs:317-319). -/
def operator2 : Code := (.adv 2) ;; (.tok 32) ;; (.ret true)

/-- `lex_operator_or_delimiter` (examples/oak-c/src/lexer/mod.rs:298-355). The tables of operators of two and three characters
(mod.rs:436-466) are gone through entry by entry, character by character; the characters after the first are
read anew for each entry; where a character is missing the lookup fails, as it does for the `None` and the empty text of lines
302 and 304. -/
def lexOperatorOrDelimiter : Code :=
  .scope 32
    ((.mark 32) ;;
     (.ite ((.look 33) ;; (.chr 33 (.rg 0 1114111)))
       ((.look 37) ;;
        (.lookN 38 1) ;;
        (.lookN 39 2) ;;
        (.ite (.ite (.chr 37 (.rg 60 60))
            (.ite ((.lookN 38 1) ;; (.chr 38 (.rg 60 60))) ((.lookN 39 2) ;; (.chr 39 (.rg 61 61))) (.val false))
            (.val false))
          ((.adv 3) ;; (.tok 32) ;; (.ret true))
          (.val true)) ;;
        (.ite (.ite (.chr 37 (.rg 62 62))
            (.ite ((.lookN 38 1) ;; (.chr 38 (.rg 62 62))) ((.lookN 39 2) ;; (.chr 39 (.rg 61 61))) (.val false))
            (.val false))
          ((.adv 3) ;; (.tok 32) ;; (.ret true))
          (.val true)) ;;
        (.look 40) ;;
        (.lookN 41 1) ;;
        (.ite (.ite (.chr 40 (.rg 43 43)) ((.lookN 41 1) ;; (.chr 41 (.rg 61 61))) (.val false)) operator2 (.val true)) ;;
        (.ite (.ite (.chr 40 (.rg 45 45)) ((.lookN 41 1) ;; (.chr 41 (.rg 61 61))) (.val false)) operator2 (.val true)) ;;
        (.ite (.ite (.chr 40 (.rg 42 42)) ((.lookN 41 1) ;; (.chr 41 (.rg 61 61))) (.val false)) operator2 (.val true)) ;;
        (.ite (.ite (.chr 40 (.rg 47 47)) ((.lookN 41 1) ;; (.chr 41 (.rg 61 61))) (.val false)) operator2 (.val true)) ;;
        (.ite (.ite (.chr 40 (.rg 37 37)) ((.lookN 41 1) ;; (.chr 41 (.rg 61 61))) (.val false)) operator2 (.val true)) ;;
        (.ite (.ite (.chr 40 (.rg 61 61)) ((.lookN 41 1) ;; (.chr 41 (.rg 61 61))) (.val false)) operator2 (.val true)) ;;
        (.ite (.ite (.chr 40 (.rg 33 33)) ((.lookN 41 1) ;; (.chr 41 (.rg 61 61))) (.val false)) operator2 (.val true)) ;;
        (.ite (.ite (.chr 40 (.rg 60 60)) ((.lookN 41 1) ;; (.chr 41 (.rg 61 61))) (.val false)) operator2 (.val true)) ;;
        (.ite (.ite (.chr 40 (.rg 62 62)) ((.lookN 41 1) ;; (.chr 41 (.rg 61 61))) (.val false)) operator2 (.val true)) ;;
        (.ite (.ite (.chr 40 (.rg 38 38)) ((.lookN 41 1) ;; (.chr 41 (.rg 38 38))) (.val false)) operator2 (.val true)) ;;
        (.ite (.ite (.chr 40 (.rg 124 124)) ((.lookN 41 1) ;; (.chr 41 (.rg 124 124))) (.val false)) operator2 (.val true)) ;;
        (.ite (.ite (.chr 40 (.rg 60 60)) ((.lookN 41 1) ;; (.chr 41 (.rg 60 60))) (.val false)) operator2 (.val true)) ;;
        (.ite (.ite (.chr 40 (.rg 62 62)) ((.lookN 41 1) ;; (.chr 41 (.rg 62 62))) (.val false)) operator2 (.val true)) ;;
        (.ite (.ite (.chr 40 (.rg 38 38)) ((.lookN 41 1) ;; (.chr 41 (.rg 61 61))) (.val false)) operator2 (.val true)) ;;
        (.ite (.ite (.chr 40 (.rg 124 124)) ((.lookN 41 1) ;; (.chr 41 (.rg 61 61))) (.val false)) operator2 (.val true)) ;;
        (.ite (.ite (.chr 40 (.rg 94 94)) ((.lookN 41 1) ;; (.chr 41 (.rg 61 61))) (.val false)) operator2 (.val true)) ;;
        (.ite (.ite (.chr 40 (.rg 43 43)) ((.lookN 41 1) ;; (.chr 41 (.rg 43 43))) (.val false)) operator2 (.val true)) ;;
        (.ite (.ite (.chr 40 (.rg 45 45)) ((.lookN 41 1) ;; (.chr 41 (.rg 45 45))) (.val false)) operator2 (.val true)) ;;
        (.ite (.ite (.chr 40 (.rg 45 45)) ((.lookN 41 1) ;; (.chr 41 (.rg 62 62))) (.val false)) operator2 (.val true)) ;;
        (.ite (.chr 33 (.rg 40 40))
          (.val true)
          (.ite (.chr 33 (.rg 41 41))
            (.val true)
            (.ite (.chr 33 (.rg 91 91))
              (.val true)
              (.ite (.chr 33 (.rg 93 93))
                (.val true)
                (.ite (.chr 33 (.rg 123 123))
                  (.val true)
                  (.ite (.chr 33 (.rg 125 125))
                    (.val true)
                    (.ite (.chr 33 (.rg 44 44))
                      (.val true)
                      (.ite (.chr 33 (.rg 59 59))
                        (.val true)
                        (.ite (.chr 33 (.rg 58 58))
                          (.val true)
                          (.ite (.chr 33 (.rg 46 46))
                            (.val true)
                            (.ite (.chr 33 (.rg 63 63))
                              (.val true)
                              (.ite (.chr 33 (.rg 43 43))
                                (.val true)
                                (.ite (.chr 33 (.rg 45 45))
                                  (.val true)
                                  (.ite (.chr 33 (.rg 42 42))
                                    (.val true)
                                    (.ite (.chr 33 (.rg 47 47))
                                      (.val true)
                                      (.ite (.chr 33 (.rg 37 37))
                                        (.val true)
                                        (.ite (.chr 33 (.rg 61 61))
                                          (.val true)
                                          (.ite (.chr 33 (.rg 60 60))
                                            (.val true)
                                            (.ite (.chr 33 (.rg 62 62))
                                              (.val true)
                                              (.ite (.chr 33 (.rg 33 33))
                                                (.val true)
                                                (.ite (.chr 33 (.rg 38 38))
                                                  (.val true)
                                                  (.ite (.chr 33 (.rg 124 124))
                                                    (.val true)
                                                    (.ite (.chr 33 (.rg 94 94))
                                                      (.val true)
                                                      (.ite (.chr 33 (.rg 126 126)) (.val true) (.ret false))))))))))))))))))))))))) ;;
        (.adv 1) ;;
        (.tok 32) ;;
        (.ret true))
       (.val true)) ;;
     (.val false))

/-- `lex_preprocessor` (examples/oak-c/src/lexer/mod.rs:357-371). -/
def lexPreprocessor : Code :=
  .scope 42
    ((.mark 42) ;;
     (.ite (.ite (.starts ['#']) ((.adv 1) ;; (.val true)) (.val false))
       ((.loop 43 true ((.look 44) ;; (.chr 44 (.rg 0 1114111)))
          ((.ite (.ite (.chr 44 (.rg 10 10)) (.val true) (.chr 44 (.rg 13 13))) .brk (.val true)) ;; (.advc 44))) ;;
        (.tok 42) ;;
        (.ret true))
       (.val true)) ;;
     (.val false))

/-- `lex_text` (examples/oak-c/src/lexer/mod.rs:373-384). -/
def lexText : Code :=
  .scope 47
    ((.mark 47) ;;
     (.ite ((.look 48) ;; (.chr 48 (.rg 0 1114111)))
       (.ite (.ite (.ite (.ite (.chr 48 .white) (.val false) (.val true))
             (.ite (.chr 48 (.or (.or (.rg 48 57) (.rg 65 90)) (.rg 97 122))) (.val false) (.val true))
             (.val false))
           (.ite (.chr 48 (.or (.or (.or (.or (.or (.or (.or (.or (.or (.or (.or (.or (.or (.or (.or (.or (.or (.or (.or (.or (.or (.or (.or (.or (.or (.or (.or (.rg 40 40) (.rg 41 41)) (.rg 91 91)) (.rg 93 93)) (.rg 123 123)) (.rg 125 125)) (.rg 44 44)) (.rg 46 46)) (.rg 59 59)) (.rg 58 58)) (.rg 63 63)) (.rg 43 43)) (.rg 45 45)) (.rg 42 42)) (.rg 47 47)) (.rg 37 37)) (.rg 61 61)) (.rg 60 60)) (.rg 62 62)) (.rg 33 33)) (.rg 38 38)) (.rg 124 124)) (.rg 94 94)) (.rg 126 126)) (.rg 35 35)) (.rg 34 34)) (.rg 39 39)) (.rg 95 95)))
             (.val false)
             (.val true))
           (.val false))
         ((.advc 48) ;; (.tok 47) ;; (.ret true))
         (.val true))
       (.val true)) ;;
     (.val false))

/-- `run` (examples/oak-c/src/lexer/mod.rs:41-84). -/
def run_ : Code :=
  .scope 0
    (.loop 0 false .more
      ((.mark 1) ;;
       (.ite skipWhitespace .cont (.val true)) ;;
       (.ite skipComment .cont (.val true)) ;;
       (.ite lexNewline .cont (.val true)) ;;
       (.ite lexString .cont (.val true)) ;;
       (.ite lexChar .cont (.val true)) ;;
       (.ite lexNumber .cont (.val true)) ;;
       (.ite lexKeywordOrIdentifier .cont (.val true)) ;;
       (.ite lexOperatorOrDelimiter .cont (.val true)) ;;
       (.ite lexPreprocessor .cont (.val true)) ;;
       (.ite lexText
         .cont
         ((.mark 45) ;; (.ite ((.look 46) ;; (.chr 46 (.rg 0 1114111))) ((.advc 46) ;; (.tok 45)) (.val true)))) ;;
       (.guard 1)))

end Oaks.HandLex.C
