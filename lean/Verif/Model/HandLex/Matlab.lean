import Verif.Model.LexCode

/-
The lexer of the example `oak-matlab` as a program of Model/LexCode.lean, function by function in the order of
the calls. Kinds of tokens and messages are left out.
-/
namespace Oaks.HandLex.Matlab

open Oaks.Lc

/-- `skip_whitespace` (examples/oak-matlab/src/lexer/mod.rs:82-99). -/
def skipWhitespace : Code :=
  .scope 2
    ((.mark 2) ;;
     (.loop 3 true ((.look 4) ;; (.chr 4 (.rg 0 1114111)))
       (.ite (.ite (.chr 4 (.rg 32 32)) (.val true) (.chr 4 (.rg 9 9))) (.advc 4) .brk)) ;;
     (.ite (.moved 2) ((.tok 2) ;; (.val true)) (.val false)))

/-- `lex_newline` (examples/oak-matlab/src/lexer/mod.rs:101-110). -/
def lexNewline : Code :=
  .scope 5
    ((.mark 5) ;;
     (.ite (.ite (.ite (.ite (.starts ['\n']) ((.adv 1) ;; (.val true)) (.val false))
           (.val true)
           (.ite (.starts ['\r', '\n']) ((.adv 2) ;; (.val true)) (.val false)))
         (.val true)
         (.ite (.starts ['\r']) ((.adv 1) ;; (.val true)) (.val false)))
       ((.tok 5) ;; (.val true))
       (.val false)))

/-- `lex_comment` (examples/oak-matlab/src/lexer/mod.rs:217-244). -/
def lexComment : Code :=
  .scope 6
    ((.mark 6) ;;
     (.ite (.ite (.starts ['%']) ((.adv 1) ;; (.val true)) (.val false))
       ((.ite (.ite (.starts ['{']) ((.adv 1) ;; (.val true)) (.val false))
          ((.put 7 1) ;;
           (.loop 8 true (.ite (.ask 7 (· > 0)) .more (.val false))
             (.ite (.starts ['%', '{'])
               ((.comp 7 7 (· + 1)) ;; (.adv 2))
               (.ite (.starts ['%', '}'])
                 ((.comp 7 7 (· - 1)) ;; (.adv 2))
                 (.ite ((.look 9) ;; (.chr 9 (.rg 0 1114111))) (.advc 9) (.val true))))) ;;
           (.tok 6))
          ((.take (.and (.not (.rg 10 10)) (.not (.rg 13 13)))) ;; (.tok 6))) ;;
        (.ret true))
       (.val true)) ;;
     (.val false))

/-- the block of an `if … || …` of `lex_string` (examples/oak-matlab/src/lexer/mod.rs:185-215). -/
def lexStringBlock : Code :=
  ((.adv 1) ;;
   (.loop 12 true ((.look 13) ;; (.chr 13 (.rg 0 1114111)))
     (.ite (.same 13 11)
       ((.adv 1) ;; (.ite ((.look 15) ;; (.same 15 11)) ((.adv 1) ;; .cont) (.val true)) ;; .brk)
       (.ite (.chr 13 (.rg 92 92))
         ((.adv 1) ;; (.ite ((.look 14) ;; (.chr 14 (.rg 0 1114111))) (.advc 14) (.val true)))
         (.advc 13)))) ;;
   (.tok 10) ;;
   (.ret true))

/-- `lex_string` (examples/oak-matlab/src/lexer/mod.rs:185-215). -/
def lexString : Code :=
  .scope 10
    ((.mark 10) ;;
     (.ite ((.look 11) ;; (.chr 11 (.rg 0 1114111)))
       (.ite (.chr 11 (.rg 39 39)) lexStringBlock (.ite (.chr 11 (.rg 34 34)) lexStringBlock (.val true)))
       (.val true)) ;;
     (.val false))

/-- the block of an `if … || …` of `lex_number` (examples/oak-matlab/src/lexer/mod.rs:152-183). -/
def lexNumberBlock2 : Code :=
  ((.ite ((.look 19) ;; (.chr 19 (.rg 0 1114111)))
     (.ite (.ite (.chr 19 (.rg 43 43)) (.val true) (.chr 19 (.rg 45 45))) (.adv 1) (.val true))
     (.val true)) ;;
   (.take (.rg 48 57)))

/-- the block of an `if … || …` of `lex_number` (examples/oak-matlab/src/lexer/mod.rs:152-183). -/
def lexNumberBlock : Code :=
  ((.ite (.chr 17 (.rg 46 46)) (.adv 1) (.val true)) ;;
   (.take (.rg 48 57)) ;;
   (.ite (.ite (.ite (.chr 17 (.rg 46 46)) (.val false) (.val true))
       (.ite (.starts ['.']) ((.adv 1) ;; (.val true)) (.val false))
       (.val false))
     (.take (.rg 48 57))
     (.val true)) ;;
   (.ite (.ite (.starts ['e']) ((.adv 1) ;; (.val true)) (.val false))
     lexNumberBlock2
     (.ite (.ite (.starts ['E']) ((.adv 1) ;; (.val true)) (.val false)) lexNumberBlock2 (.val true))) ;;
   (.ite (.ite (.ite (.starts ['i']) ((.adv 1) ;; (.val true)) (.val false))
       (.val true)
       (.ite (.starts ['j']) ((.adv 1) ;; (.val true)) (.val false)))
     (.val true)
     (.val true)) ;;
   (.tok 16) ;;
   (.ret true))

/-- `lex_number` (examples/oak-matlab/src/lexer/mod.rs:152-183). -/
def lexNumber : Code :=
  .scope 16
    ((.mark 16) ;;
     (.ite ((.look 17) ;; (.chr 17 (.rg 0 1114111)))
       (.ite (.chr 17 (.rg 48 57))
         lexNumberBlock
         (.ite (.ite (.chr 17 (.rg 46 46)) ((.lookN 18 1) ;; (.chr 18 (.rg 48 57))) (.val false))
           lexNumberBlock
           (.val true)))
       (.val true)) ;;
     (.val false))

/-- the block of an `if … || …` of `lex_identifier` (examples/oak-matlab/src/lexer/mod.rs:112-150). -/
def lexIdentifierBlock : Code :=
  ((.advc 21) ;;
   (.take (.or (.or (.or (.rg 48 57) (.rg 65 90)) (.rg 97 122)) (.rg 95 95))) ;;
   (.tok 20) ;;
   (.ret true))

/-- `lex_identifier` (examples/oak-matlab/src/lexer/mod.rs:112-150). -/
def lexIdentifier : Code :=
  .scope 20
    ((.mark 20) ;;
     (.ite ((.look 21) ;; (.chr 21 (.rg 0 1114111)))
       (.ite (.chr 21 (.or (.rg 65 90) (.rg 97 122)))
         lexIdentifierBlock
         (.ite (.chr 21 (.rg 95 95)) lexIdentifierBlock (.val true)))
       (.val true)) ;;
     (.val false))

/-- `lex_operator` (examples/oak-matlab/src/lexer/mod.rs:246-266). -/
def lexOperator : Code :=
  .scope 22
    ((.mark 22) ;;
     (.val true) ;;
     ((.ite (.ite (.starts ['.', '*']) ((.adv 2) ;; (.val true)) (.val false)) ((.tok 22) ;; (.ret true)) (.val true)) ;;
      (.ite (.ite (.starts ['.', '/']) ((.adv 2) ;; (.val true)) (.val false)) ((.tok 22) ;; (.ret true)) (.val true)) ;;
      (.ite (.ite (.starts ['.', '^']) ((.adv 2) ;; (.val true)) (.val false)) ((.tok 22) ;; (.ret true)) (.val true)) ;;
      (.ite (.ite (.starts ['.', '\\']) ((.adv 2) ;; (.val true)) (.val false))
        ((.tok 22) ;; (.ret true))
        (.val true)) ;;
      (.ite (.ite (.starts ['=', '=']) ((.adv 2) ;; (.val true)) (.val false)) ((.tok 22) ;; (.ret true)) (.val true)) ;;
      (.ite (.ite (.starts ['~', '=']) ((.adv 2) ;; (.val true)) (.val false)) ((.tok 22) ;; (.ret true)) (.val true)) ;;
      (.ite (.ite (.starts ['<', '=']) ((.adv 2) ;; (.val true)) (.val false)) ((.tok 22) ;; (.ret true)) (.val true)) ;;
      (.ite (.ite (.starts ['>', '=']) ((.adv 2) ;; (.val true)) (.val false)) ((.tok 22) ;; (.ret true)) (.val true)) ;;
      (.ite (.ite (.starts ['&', '&']) ((.adv 2) ;; (.val true)) (.val false)) ((.tok 22) ;; (.ret true)) (.val true)) ;;
      (.ite (.ite (.starts ['|', '|']) ((.adv 2) ;; (.val true)) (.val false)) ((.tok 22) ;; (.ret true)) (.val true)) ;;
      (.ite (.ite (.starts ['+', '+']) ((.adv 2) ;; (.val true)) (.val false)) ((.tok 22) ;; (.ret true)) (.val true)) ;;
      (.ite (.ite (.starts ['-', '-']) ((.adv 2) ;; (.val true)) (.val false)) ((.tok 22) ;; (.ret true)) (.val true)) ;;
      (.ite (.ite (.starts ['.', '\'']) ((.adv 2) ;; (.val true)) (.val false))
        ((.tok 22) ;; (.ret true))
        (.val true))) ;;
     (.ite ((.look 24) ;; (.chr 24 (.rg 0 1114111)))
       ((.ite (.chr 24 (.or (.or (.or (.or (.or (.or (.or (.or (.or (.or (.or (.or (.rg 43 43) (.rg 45 45)) (.rg 42 42)) (.rg 47 47)) (.rg 92 92)) (.rg 94 94)) (.rg 60 60)) (.rg 62 62)) (.rg 61 61)) (.rg 126 126)) (.rg 38 38)) (.rg 124 124)) (.rg 39 39)))
          (.val true)
          (.ret false)) ;;
        (.adv 1) ;;
        (.tok 22) ;;
        (.ret true))
       (.val true)) ;;
     (.val false))

/-- `lex_delimiter` (examples/oak-matlab/src/lexer/mod.rs:268-282). -/
def lexDelimiter : Code :=
  .scope 25
    ((.mark 25) ;;
     (.ite ((.look 26) ;; (.chr 26 (.rg 0 1114111)))
       ((.ite (.chr 26 (.or (.or (.or (.or (.or (.or (.or (.or (.or (.or (.or (.rg 40 40) (.rg 41 41)) (.rg 91 91)) (.rg 93 93)) (.rg 123 123)) (.rg 125 125)) (.rg 59 59)) (.rg 44 44)) (.rg 58 58)) (.rg 63 63)) (.rg 64 64)) (.rg 46 46)))
          (.val true)
          (.ret false)) ;;
        (.adv 1) ;;
        (.tok 25) ;;
        (.val true))
       (.val false)))

/-- `run` (examples/oak-matlab/src/lexer/mod.rs:34-80). -/
def run_ : Code :=
  .scope 0
    (.loop 0 false .more
      ((.mark 1) ;;
       (.ite skipWhitespace .cont (.val true)) ;;
       (.ite lexNewline .cont (.val true)) ;;
       (.ite lexComment .cont (.val true)) ;;
       (.ite lexString .cont (.val true)) ;;
       (.ite lexNumber .cont (.val true)) ;;
       (.ite lexIdentifier .cont (.val true)) ;;
       (.ite lexOperator .cont (.val true)) ;;
       (.ite lexDelimiter .cont (.val true)) ;;
       (.mark 27) ;;
       (.ite ((.look 28) ;; (.chr 28 (.rg 0 1114111))) ((.advc 28) ;; (.tok 27)) (.val true)) ;;
       (.guard 1)))

end Oaks.HandLex.Matlab
