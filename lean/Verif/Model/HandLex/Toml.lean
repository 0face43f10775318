import Verif.Model.LexCode

/-
The lexer of the example `oak-toml` as a program of Model/LexCode.lean, function by function in the order of
the calls. Kinds of tokens and messages are left out.
-/
namespace Oaks.HandLex.Toml

open Oaks.Lc

/-- `skip_whitespace` (examples/oak-toml/src/lexer/mod.rs:76-95). -/
def skipWhitespace : Code :=
  .scope 58
    ((.mark 58) ;;
     (.loop 59 true ((.look 60) ;; (.chr 60 (.rg 0 1114111)))
       (.ite (.ite (.ite (.ite (.chr 60 (.rg 32 32)) (.val true) (.chr 60 (.rg 9 9))) (.val true) (.chr 60 (.rg 10 10)))
           (.val true)
           (.chr 60 (.rg 13 13)))
         (.adv 1)
         .brk)) ;;
     (.ite (.moved 58) ((.tok 58) ;; (.val true)) (.val false)))

/-- `skip_comment` (examples/oak-toml/src/lexer/mod.rs:98-117). -/
def skipComment : Code :=
  .scope 54
    (.ite ((.look 54) ;; (.chr 54 (.rg 35 35)))
      ((.mark 55) ;;
       (.adv 1) ;;
       (.loop 56 true ((.look 57) ;; (.chr 57 (.rg 0 1114111)))
         ((.ite (.ite (.chr 57 (.rg 10 10)) (.val true) (.chr 57 (.rg 13 13))) .brk (.val true)) ;; (.advc 57))) ;;
       (.tok 55) ;;
       (.val true))
      (.val false))

/-- `lex_string` (examples/oak-toml/src/lexer/mod.rs:120-166). -/
def lexString : Code :=
  .scope 44
    ((.look 44) ;;
     (.ite (.chr 44 (.rg 34 34))
       ((.mark 49) ;;
        (.adv 1) ;;
        (.loop 50 true ((.look 51) ;; (.chr 51 (.rg 0 1114111)))
          ((.ite (.chr 51 (.rg 34 34)) ((.adv 1) ;; .brk) (.val true)) ;;
           (.ite (.chr 51 (.rg 92 92))
             ((.adv 1) ;; (.ite ((.look 52) ;; (.chr 52 (.rg 0 1114111))) (.adv 1) (.val true)))
             (.adv 1)))) ;;
        (.mark 53) ;;
        (.tokTo 49 53) ;;
        (.val true))
       (.ite (.chr 44 (.rg 39 39))
         ((.mark 45) ;;
          (.adv 1) ;;
          (.loop 46 true ((.look 47) ;; (.chr 47 (.rg 0 1114111)))
            ((.ite (.chr 47 (.rg 39 39)) ((.adv 1) ;; .brk) (.val true)) ;; (.adv 1))) ;;
          (.mark 48) ;;
          (.tokTo 45 48) ;;
          (.val true))
         (.val false))))

/-- `lex_number` (examples/oak-toml/src/lexer/mod.rs:169-200). -/
def lexNumber : Code :=
  .scope 33
    ((.ite (.ite ((.look 33) ;; (.chr 33 (.or (.or (.rg 48 57) (.rg 45 45)) (.rg 43 43)))) (.val false) (.val true))
       (.ret false)
       (.val true)) ;;
     (.mark 34) ;;
     (.ite ((.look 36) ;; (.ite (.chr 36 (.or (.rg 45 45) (.rg 43 43))) (.val true) (.val false)))
       (.adv 1)
       (.val true)) ;;
     (.loop 37 true ((.look 38) ;; (.chr 38 (.rg 48 57))) (.adv 1)) ;;
     (.put 39 0) ;;
     (.ite ((.look 40) ;; (.chr 40 (.rg 46 46)))
       ((.put 39 1) ;; (.adv 1) ;; (.loop 41 true ((.look 42) ;; (.chr 42 (.rg 48 57))) (.adv 1)))
       (.val true)) ;;
     (.mark 43) ;;
     (.val true) ;;
     (.tokTo 34 43) ;;
     (.val true))

/-- `lex_punctuation` (examples/oak-toml/src/lexer/mod.rs:203-265). -/
def lexPunctuation : Code :=
  .scope 20
    ((.mark 20) ;;
     ((.look 21) ;;
      (.ite (.chr 21 (.rg 91 91))
        ((.adv 1) ;;
         (.ite ((.look 31) ;; (.chr 31 (.rg 91 91)))
           ((.adv 1) ;; (.mark 32) ;; (.tokTo 20 32))
           ((.mark 30) ;; (.tokTo 20 30))) ;;
         (.val true))
        (.ite (.chr 21 (.rg 93 93))
          ((.adv 1) ;;
           (.ite ((.look 28) ;; (.chr 28 (.rg 93 93)))
             ((.adv 1) ;; (.mark 29) ;; (.tokTo 20 29))
             ((.mark 27) ;; (.tokTo 20 27))) ;;
           (.val true))
          (.ite (.chr 21 (.rg 123 123))
            ((.adv 1) ;; (.mark 26) ;; (.tokTo 20 26) ;; (.val true))
            (.ite (.chr 21 (.rg 125 125))
              ((.adv 1) ;; (.mark 25) ;; (.tokTo 20 25) ;; (.val true))
              (.ite (.chr 21 (.rg 44 44))
                ((.adv 1) ;; (.mark 24) ;; (.tokTo 20 24) ;; (.val true))
                (.ite (.chr 21 (.rg 46 46))
                  ((.adv 1) ;; (.mark 23) ;; (.tokTo 20 23) ;; (.val true))
                  (.ite (.chr 21 (.rg 61 61)) ((.adv 1) ;; (.mark 22) ;; (.tokTo 20 22) ;; (.val true)) (.val false))))))))))

/-- `lex_identifier` (examples/oak-toml/src/lexer/mod.rs:268-290). -/
def lexIdentifier : Code :=
  .scope 15
    ((.ite (.ite ((.look 15) ;; (.chr 15 (.or (.or (.rg 65 90) (.rg 97 122)) (.rg 95 95)))) (.val false) (.val true))
       (.ret false)
       (.val true)) ;;
     (.mark 16) ;;
     (.loop 17 true ((.look 18) ;; (.chr 18 (.or (.or (.or (.or (.rg 48 57) (.rg 65 90)) (.rg 97 122)) (.rg 95 95)) (.rg 45 45))))
       (.adv 1)) ;;
     (.mark 19) ;;
     (.val true) ;;
     (.val true) ;;
     (.tokTo 16 19) ;;
     (.val true))

/-- `lex_punctuation` (examples/oak-toml/src/lexer/mod.rs:203-265). -/
def lexPunctuation2 : Code :=
  .scope 2
    ((.mark 2) ;;
     ((.look 3) ;;
      (.ite (.chr 3 (.rg 91 91))
        ((.adv 1) ;;
         (.ite ((.look 13) ;; (.chr 13 (.rg 91 91)))
           ((.adv 1) ;; (.mark 14) ;; (.tokTo 2 14))
           ((.mark 12) ;; (.tokTo 2 12))) ;;
         (.val true))
        (.ite (.chr 3 (.rg 93 93))
          ((.adv 1) ;;
           (.ite ((.look 10) ;; (.chr 10 (.rg 93 93)))
             ((.adv 1) ;; (.mark 11) ;; (.tokTo 2 11))
             ((.mark 9) ;; (.tokTo 2 9))) ;;
           (.val true))
          (.ite (.chr 3 (.rg 123 123))
            ((.adv 1) ;; (.mark 8) ;; (.tokTo 2 8) ;; (.val true))
            (.ite (.chr 3 (.rg 125 125))
              ((.adv 1) ;; (.mark 7) ;; (.tokTo 2 7) ;; (.val true))
              (.ite (.chr 3 (.rg 44 44))
                ((.adv 1) ;; (.mark 6) ;; (.tokTo 2 6) ;; (.val true))
                (.ite (.chr 3 (.rg 46 46))
                  ((.adv 1) ;; (.mark 5) ;; (.tokTo 2 5) ;; (.val true))
                  (.ite (.chr 3 (.rg 61 61)) ((.adv 1) ;; (.mark 4) ;; (.tokTo 2 4) ;; (.val true)) (.val false))))))))))

/-- `run` (examples/oak-toml/src/lexer/mod.rs:36-73). -/
def run_ : Code :=
  .scope 0
    (.loop 0 false .more
      (.ite ((.look 1) ;; (.chr 1 (.rg 0 1114111)))
        (.ite (.chr 1 (.or (.or (.or (.rg 32 32) (.rg 9 9)) (.rg 10 10)) (.rg 13 13)))
          skipWhitespace
          (.ite (.chr 1 (.rg 35 35))
            skipComment
            (.ite (.chr 1 (.or (.rg 34 34) (.rg 39 39)))
              lexString
              (.ite (.chr 1 (.or (.or (.rg 48 57) (.rg 43 43)) (.rg 45 45)))
                lexNumber
                (.ite (.chr 1 (.or (.or (.or (.or (.or (.or (.rg 91 91) (.rg 93 93)) (.rg 123 123)) (.rg 125 125)) (.rg 44 44)) (.rg 46 46)) (.rg 61 61)))
                  lexPunctuation
                  (.ite (.chr 1 (.or (.or (.rg 97 122) (.rg 65 90)) (.rg 95 95)))
                    lexIdentifier
                    ((.ite lexPunctuation2 .cont (.val true)) ;; (.adv 1))))))))
        .brk))

end Oaks.HandLex.Toml
