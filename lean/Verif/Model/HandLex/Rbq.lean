import Verif.Model.LexCode

/-
The lexer of the example `oak-rbq` as a program of Model/LexCode.lean, function by function in the order of
the calls. Kinds of tokens and messages are left out.
-/
namespace Oaks.HandLex.Rbq

open Oaks.Lc

/-- `lex_string` (examples/oak-rbq/src/lexer/mod.rs:73-84). -/
def lexString : Code :=
  .scope 9
    ((.mark 9) ;;
     (.adv 1) ;;
     (.loop 10 true .more
       ((.ite (.ite (.starts ['"']) ((.adv 1) ;; (.val true)) (.val false)) ((.tok 9) ;; (.ret true)) (.val true)) ;;
        (.ite (.ite (.starts ['\\']) ((.adv 1) ;; (.val true)) (.val false)) (.adv 1) (.adv 1)))) ;;
     (.tok 9))

/-- `lex_number` (examples/oak-rbq/src/lexer/mod.rs:86-93). -/
def lexNumber : Code :=
  .scope 8
    ((.mark 8) ;;
     (.take (.rg 48 57)) ;;
     (.ite (.ite (.starts ['.']) ((.adv 1) ;; (.val true)) (.val false)) (.take (.rg 48 57)) (.val true)) ;;
     (.tok 8))

/-- `lex_punctuation` (examples/oak-rbq/src/lexer/mod.rs:95-116). -/
def lexPunctuation : Code :=
  .scope 5
    ((.mark 5) ;; (.look 7) ;; (.adv 1) ;; (.tok 5))

/-- `lex_operator` (examples/oak-rbq/src/lexer/mod.rs:118-168). -/
def lexOperator : Code :=
  .scope 4
    ((.mark 4) ;;
     (.ite (.ite (.starts ['=', '=']) ((.adv 2) ;; (.val true)) (.val false))
       (.tok 4)
       (.ite (.ite (.starts ['!', '=']) ((.adv 2) ;; (.val true)) (.val false))
         (.tok 4)
         (.ite (.ite (.starts ['>', '=']) ((.adv 2) ;; (.val true)) (.val false))
           (.tok 4)
           (.ite (.ite (.starts ['<', '=']) ((.adv 2) ;; (.val true)) (.val false))
             (.tok 4)
             (.ite (.ite (.starts ['&', '&']) ((.adv 2) ;; (.val true)) (.val false))
               (.tok 4)
               (.ite (.ite (.starts ['|', '|']) ((.adv 2) ;; (.val true)) (.val false))
                 (.tok 4)
                 (.ite (.ite (.starts ['-', '>']) ((.adv 2) ;; (.val true)) (.val false))
                   (.tok 4)
                   (.ite (.ite (.starts ['=']) ((.adv 1) ;; (.val true)) (.val false))
                     (.tok 4)
                     (.ite (.ite (.starts ['!']) ((.adv 1) ;; (.val true)) (.val false))
                       (.tok 4)
                       (.ite (.ite (.starts ['>']) ((.adv 1) ;; (.val true)) (.val false))
                         (.tok 4)
                         (.ite (.ite (.starts ['<']) ((.adv 1) ;; (.val true)) (.val false))
                           (.tok 4)
                           (.ite (.ite (.starts ['+']) ((.adv 1) ;; (.val true)) (.val false))
                             (.tok 4)
                             (.ite (.ite (.starts ['-']) ((.adv 1) ;; (.val true)) (.val false))
                               (.tok 4)
                               (.ite (.ite (.starts ['*']) ((.adv 1) ;; (.val true)) (.val false))
                                 (.tok 4)
                                 (.ite (.ite (.starts ['/']) ((.adv 1) ;; (.val true)) (.val false))
                                   (.tok 4)
                                   (.ite (.ite (.starts ['&']) ((.adv 1) ;; (.val true)) (.val false))
                                     (.tok 4)
                                     (.val true))))))))))))))))))

/-- `lex_ident_or_keyword` (examples/oak-rbq/src/lexer/mod.rs:170-191). -/
def lexIdentOrKeyword : Code :=
  .scope 3
    ((.mark 3) ;; (.take (.or .alnum (.rg 95 95))) ;; (.tok 3))

/-- `run` (examples/oak-rbq/src/lexer/mod.rs:41-71). -/
def run_ : Code :=
  .scope 0
    (.loop 0 false .more
      ((.mark 1) ;;
       (.ite ((.look 2) ;; (.chr 2 (.rg 0 1114111))) (.val true) .brk) ;;
       (.ite (.chr 2 (.or (.or (.or (.rg 32 32) (.rg 9 9)) (.rg 10 10)) (.rg 13 13)))
         ((.mark 11) ;; (.take (.or (.or (.rg 9 10) (.rg 12 13)) (.rg 32 32))) ;; (.tok 11))
         (.ite (.chr 2 (.rg 35 35))
           (.comment ⟨['#'], [], [], false⟩)
           (.ite (.chr 2 (.rg 34 34))
             lexString
             (.ite (.chr 2 (.rg 48 57))
               lexNumber
               (.ite (.chr 2 (.or (.or (.or (.or (.or (.or (.or (.or (.or (.or (.or (.or (.rg 123 123) (.rg 125 125)) (.rg 91 91)) (.rg 93 93)) (.rg 40 40)) (.rg 41 41)) (.rg 58 58)) (.rg 59 59)) (.rg 44 44)) (.rg 46 46)) (.rg 63 63)) (.rg 64 64)) (.rg 36 36)))
                 lexPunctuation
                 (.ite (.chr 2 (.or (.or (.or (.or (.or (.or (.or (.or (.or (.rg 61 61) (.rg 33 33)) (.rg 62 62)) (.rg 60 60)) (.rg 38 38)) (.rg 124 124)) (.rg 43 43)) (.rg 45 45)) (.rg 42 42)) (.rg 47 47)))
                   lexOperator
                   (.ite (.ite (.chr 2 .alpha) (.val true) (.chr 2 (.rg 95 95)))
                     lexIdentOrKeyword
                     ((.advc 2) ;; (.tok 1))))))))) ;;
       (.guard 1)))

end Oaks.HandLex.Rbq
