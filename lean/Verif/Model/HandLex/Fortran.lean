import Verif.Model.LexCode

/-
The lexer of the example `oak-fortran` as a program of Model/LexCode.lean, function by function in the order of
the calls. Kinds of tokens and messages are left out.
-/
namespace Oaks.HandLex.Fortran

open Oaks.Lc

/-- `lex_newline` (examples/oak-fortran/src/lexer/mod.rs:77-95). -/
def lexNewline : Code :=
  .scope 2
    ((.mark 2) ;;
     (.ite ((.look 3) ;; (.chr 3 (.rg 0 1114111)))
       ((.ite (.chr 3 (.rg 10 10)) ((.adv 1) ;; (.tok 2) ;; (.ret true)) (.val true)) ;;
        (.ite (.chr 3 (.rg 13 13))
          ((.adv 1) ;; (.ite ((.look 4) ;; (.chr 4 (.rg 10 10))) (.adv 1) (.val true)) ;; (.tok 2) ;; (.ret true))
          (.val true)))
       (.val true)) ;;
     (.val false))

/-- `skip_whitespace` (examples/oak-fortran/src/lexer/mod.rs:97-111). -/
def skipWhitespace : Code :=
  .scope 5
    ((.put 5 0) ;;
     (.loop 6 true ((.look 7) ;; (.chr 7 (.rg 0 1114111)))
       (.ite (.ite (.chr 7 (.rg 32 32)) (.val true) (.chr 7 (.rg 9 9))) ((.advc 7) ;; (.put 5 1)) .brk)) ;;
     (.flag 5))

/-- `skip_comment` (examples/oak-fortran/src/lexer/mod.rs:113-128). -/
def skipComment : Code :=
  .scope 8
    ((.ite ((.look 8) ;; (.chr 8 (.rg 0 1114111)))
       (.ite (.chr 8 (.rg 33 33))
         ((.loop 9 true ((.look 10) ;; (.chr 10 (.rg 0 1114111)))
            ((.ite (.ite (.chr 10 (.rg 10 10)) (.val true) (.chr 10 (.rg 13 13))) .brk (.val true)) ;; (.advc 10))) ;;
          (.ret true))
         (.val true))
       (.val true)) ;;
     (.val false))

/-- `lex_string_literal` (examples/oak-fortran/src/lexer/mod.rs:130-152). -/
def lexStringLiteral : Code :=
  .scope 11
    ((.mark 11) ;;
     (.ite (.ite ((.look 12) ;; (.chr 12 (.rg 34 34))) (.val false) (.val true)) (.ret false) (.val true)) ;;
     (.adv 1) ;;
     (.loop 13 true ((.look 14) ;; (.chr 14 (.rg 0 1114111)))
       ((.ite (.chr 14 (.rg 34 34)) ((.adv 1) ;; .brk) (.val true)) ;;
        (.ite (.ite (.chr 14 (.rg 10 10)) (.val true) (.chr 14 (.rg 13 13))) .brk (.val true)) ;;
        (.advc 14))) ;;
     (.tok 11) ;;
     (.val true))

/-- `lex_char_literal` (examples/oak-fortran/src/lexer/mod.rs:154-177). -/
def lexCharLiteral : Code :=
  .scope 15
    ((.mark 15) ;;
     (.ite (.ite ((.look 16) ;; (.chr 16 (.rg 39 39))) (.val false) (.val true)) (.ret false) (.val true)) ;;
     (.adv 1) ;;
     (.ite ((.look 17) ;; (.chr 17 (.rg 0 1114111)))
       (.ite (.ite (.ite (.ite (.chr 17 (.rg 39 39)) (.val false) (.val true))
             (.ite (.chr 17 (.rg 10 10)) (.val false) (.val true))
             (.val false))
           (.ite (.chr 17 (.rg 13 13)) (.val false) (.val true))
           (.val false))
         (.advc 17)
         (.val true))
       (.val true)) ;;
     (.ite ((.look 18) ;; (.chr 18 (.rg 39 39))) (.adv 1) (.val true)) ;;
     (.tok 15) ;;
     (.val true))

/-- `lex_number_literal` (examples/oak-fortran/src/lexer/mod.rs:179-228). -/
def lexNumberLiteral : Code :=
  .scope 19
    ((.mark 19) ;;
     (.ite ((.look 20) ;; (.chr 20 (.rg 0 1114111))) (.val true) (.ret false)) ;;
     (.ite (.ite (.chr 20 (.rg 48 57)) (.val false) (.val true)) (.ret false) (.val true)) ;;
     (.adv 1) ;;
     (.loop 21 true ((.look 22) ;; (.chr 22 (.rg 0 1114111)))
       (.ite (.ite (.chr 22 (.rg 48 57)) (.val true) (.chr 22 (.rg 95 95))) (.adv 1) .brk)) ;;
     (.ite ((.look 23) ;; (.chr 23 (.rg 46 46)))
       ((.lookN 24 1) ;;
        (.ite (.chr 24 (.rg 48 57))
          ((.adv 1) ;;
           (.loop 25 true ((.look 26) ;; (.chr 26 (.rg 0 1114111)))
             (.ite (.ite (.chr 26 (.rg 48 57)) (.val true) (.chr 26 (.rg 95 95))) (.adv 1) .brk)))
          (.val true)))
       (.val true)) ;;
     (.ite ((.look 27) ;; (.chr 27 (.rg 0 1114111)))
       (.ite (.ite (.ite (.ite (.chr 27 (.rg 101 101)) (.val true) (.chr 27 (.rg 69 69))) (.val true) (.chr 27 (.rg 100 100)))
           (.val true)
           (.chr 27 (.rg 68 68)))
         ((.lookN 28 1) ;;
          (.ite (.ite (.ite (.chr 28 (.rg 43 43)) (.val true) (.chr 28 (.rg 45 45))) (.val true) (.chr 28 (.rg 48 57)))
            ((.adv 1) ;;
             (.ite ((.look 29) ;; (.chr 29 (.rg 0 1114111)))
               (.ite (.ite (.chr 29 (.rg 43 43)) (.val true) (.chr 29 (.rg 45 45))) (.adv 1) (.val true))
               (.val true)) ;;
             (.loop 30 true ((.look 31) ;; (.chr 31 (.rg 0 1114111)))
               (.ite (.ite (.chr 31 (.rg 48 57)) (.val true) (.chr 31 (.rg 95 95))) (.adv 1) .brk)))
            (.val true)))
         (.val true))
       (.val true)) ;;
     (.mark 32) ;;
     (.tokTo 19 32) ;;
     (.val true))

/-- `lex_identifier_or_keyword` (examples/oak-fortran/src/lexer/mod.rs:230-310). -/
def lexIdentifierOrKeyword : Code :=
  .scope 33
    ((.mark 33) ;;
     (.ite ((.look 34) ;; (.chr 34 (.rg 0 1114111))) (.val true) (.ret false)) ;;
     (.ite (.ite (.ite (.chr 34 (.or (.rg 65 90) (.rg 97 122))) (.val false) (.val true))
         (.ite (.chr 34 (.rg 95 95)) (.val false) (.val true))
         (.val false))
       (.ret false)
       (.val true)) ;;
     (.adv 1) ;;
     (.loop 35 true ((.look 36) ;; (.chr 36 (.rg 0 1114111)))
       (.ite (.ite (.chr 36 (.or (.or (.rg 48 57) (.rg 65 90)) (.rg 97 122))) (.val true) (.chr 36 (.rg 95 95)))
         (.adv 1)
         .brk)) ;;
     (.mark 37) ;;
     (.val true) ;;
     (.val true) ;;
     (.tokTo 33 37) ;;
     (.val true))

/-- `lex_operator_or_single_char` (examples/oak-fortran/src/lexer/mod.rs:312-423). -/
def lexOperatorOrSingleChar : Code :=
  .scope 38
    ((.mark 38) ;;
     (.ite ((.look 39) ;; (.chr 39 (.rg 0 1114111))) (.val true) (.ret false)) ;;
     (.ite (.chr 39 (.rg 10 10))
       ((.adv 1) ;; (.tok 38))
       (.ite (.chr 39 (.rg 40 40))
         ((.adv 1) ;; (.tok 38))
         (.ite (.chr 39 (.rg 41 41))
           ((.adv 1) ;; (.tok 38))
           (.ite (.chr 39 (.rg 44 44))
             ((.adv 1) ;; (.tok 38))
             (.ite (.chr 39 (.rg 61 61))
               ((.adv 1) ;; (.ite ((.look 45) ;; (.chr 45 (.rg 61 61))) ((.adv 1) ;; (.tok 38)) (.tok 38)))
               (.ite (.chr 39 (.rg 43 43))
                 ((.adv 1) ;; (.tok 38))
                 (.ite (.chr 39 (.rg 45 45))
                   ((.adv 1) ;; (.tok 38))
                   (.ite (.chr 39 (.rg 42 42))
                     ((.adv 1) ;; (.ite ((.look 44) ;; (.chr 44 (.rg 42 42))) ((.adv 1) ;; (.tok 38)) (.tok 38)))
                     (.ite (.chr 39 (.rg 47 47))
                       ((.adv 1) ;; (.ite ((.look 43) ;; (.chr 43 (.rg 61 61))) ((.adv 1) ;; (.tok 38)) (.tok 38)))
                       (.ite (.chr 39 (.rg 60 60))
                         ((.adv 1) ;; (.ite ((.look 42) ;; (.chr 42 (.rg 61 61))) ((.adv 1) ;; (.tok 38)) (.tok 38)))
                         (.ite (.chr 39 (.rg 62 62))
                           ((.adv 1) ;;
                            (.ite ((.look 41) ;; (.chr 41 (.rg 61 61))) ((.adv 1) ;; (.tok 38)) (.tok 38)))
                           (.ite (.chr 39 (.rg 46 46))
                             ((.adv 1) ;; (.tok 38))
                             (.ite (.chr 39 (.rg 58 58))
                               ((.adv 1) ;;
                                (.ite ((.look 40) ;; (.chr 40 (.rg 58 58))) ((.adv 1) ;; (.tok 38)) (.tok 38)))
                               (.ite (.chr 39 (.rg 59 59))
                                 ((.adv 1) ;; (.tok 38))
                                 (.ite (.chr 39 (.rg 38 38))
                                   ((.adv 1) ;; (.tok 38))
                                   (.ite (.chr 39 (.rg 37 37)) ((.adv 1) ;; (.tok 38)) (.ret false))))))))))))))))) ;;
     (.val true))

/-- `run` (examples/oak-fortran/src/lexer/mod.rs:30-75). -/
def run_ : Code :=
  .scope 0
    (.loop 0 false .more
      ((.mark 1) ;;
       (.ite lexNewline .cont (.val true)) ;;
       (.ite skipWhitespace .cont (.val true)) ;;
       (.ite skipComment .cont (.val true)) ;;
       (.ite lexStringLiteral .cont (.val true)) ;;
       (.ite lexCharLiteral .cont (.val true)) ;;
       (.ite lexNumberLiteral .cont (.val true)) ;;
       (.ite lexIdentifierOrKeyword .cont (.val true)) ;;
       (.ite lexOperatorOrSingleChar .cont (.val true)) ;;
       (.ite ((.look 46) ;; (.chr 46 (.rg 0 1114111))) (.advc 46) (.val true)) ;;
       (.guard 1)))

end Oaks.HandLex.Fortran
