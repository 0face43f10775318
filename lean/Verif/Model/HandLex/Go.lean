import Verif.Model.LexCode

/-
The lexer of the example `oak-go` as a program of Model/LexCode.lean, function by function in the order of
the calls. Kinds of tokens and messages are left out.
-/
namespace Oaks.HandLex.Go

open Oaks.Lc

/-- `skip_whitespace` (examples/oak-go/src/lexer/mod.rs:67-82). -/
def skipWhitespace : Code :=
  .scope 2
    ((.mark 2) ;;
     (.loop 3 true ((.look 4) ;; (.chr 4 (.rg 0 1114111))) (.ite (.chr 4 .white) (.advc 4) .brk)) ;;
     (.ite (.moved 2) ((.tok 2) ;; (.ret true)) (.val true)) ;;
     (.val false))

/-- `skip_comment` (examples/oak-go/src/lexer/mod.rs:84-107). -/
def skipComment : Code :=
  .scope 5
    ((.mark 5) ;;
     (.ite (.ite (.starts ['/', '/']) ((.adv 2) ;; (.val true)) (.val false))
       ((.loop 6 true ((.look 7) ;; (.chr 7 (.rg 0 1114111)))
          ((.ite (.chr 7 (.rg 10 10)) .brk (.val true)) ;; (.advc 7))) ;;
        (.tok 5) ;;
        (.ret true))
       (.val true)) ;;
     (.ite (.ite (.starts ['/', '*']) ((.adv 2) ;; (.val true)) (.val false))
       ((.loop 8 true ((.look 9) ;; (.chr 9 (.rg 0 1114111)))
          ((.ite (.ite (.starts ['*', '/']) ((.adv 2) ;; (.val true)) (.val false)) .brk (.val true)) ;; (.advc 9))) ;;
        (.tok 5) ;;
        (.ret true))
       (.val true)) ;;
     (.val false))

/-- `lex_identifier_or_keyword` (examples/oak-go/src/lexer/mod.rs:109-160). -/
def lexIdentifierOrKeyword : Code :=
  .scope 10
    ((.mark 10) ;;
     (.ite ((.look 11) ;; (.chr 11 (.rg 0 1114111)))
       (.ite (.ite (.chr 11 .alpha) (.val true) (.chr 11 (.rg 95 95)))
         ((.advc 11) ;;
          (.loop 12 true ((.look 13) ;; (.chr 13 (.rg 0 1114111)))
            (.ite (.ite (.chr 13 .alnum) (.val true) (.chr 13 (.rg 95 95))) (.advc 13) .brk)) ;;
          (.tok 10) ;;
          (.ret true))
         (.val true))
       (.val true)) ;;
     (.val false))

/-- `lex_literal` (examples/oak-go/src/lexer/mod.rs:162-242). -/
def lexLiteral : Code :=
  .scope 14
    ((.mark 14) ;;
     (.ite ((.look 15) ;; (.chr 15 (.rg 0 1114111)))
       ((.ite (.chr 15 (.rg 34 34))
          ((.advc 15) ;;
           (.loop 16 true ((.look 17) ;; (.chr 17 (.rg 0 1114111)))
             ((.ite (.chr 17 (.rg 34 34)) ((.advc 17) ;; .brk) (.val true)) ;;
              (.ite (.chr 17 (.rg 92 92))
                ((.advc 17) ;; (.ite ((.look 18) ;; (.chr 18 (.rg 0 1114111))) (.advc 18) (.val true)))
                (.advc 17)))) ;;
           (.tok 14) ;;
           (.ret true))
          (.val true)) ;;
        (.ite (.chr 15 (.rg 96 96))
          ((.advc 15) ;;
           (.loop 19 true ((.look 20) ;; (.chr 20 (.rg 0 1114111)))
             ((.ite (.chr 20 (.rg 96 96)) ((.advc 20) ;; .brk) (.val true)) ;; (.advc 20))) ;;
           (.tok 14) ;;
           (.ret true))
          (.val true)) ;;
        (.ite (.chr 15 (.rg 39 39))
          ((.advc 15) ;;
           (.loop 21 true ((.look 22) ;; (.chr 22 (.rg 0 1114111)))
             ((.ite (.chr 22 (.rg 39 39)) ((.advc 22) ;; .brk) (.val true)) ;;
              (.ite (.chr 22 (.rg 92 92))
                ((.advc 22) ;; (.ite ((.look 23) ;; (.chr 23 (.rg 0 1114111))) (.advc 23) (.val true)))
                (.advc 22)))) ;;
           (.tok 14) ;;
           (.ret true))
          (.val true)) ;;
        (.ite (.chr 15 (.rg 48 57))
          ((.advc 15) ;;
           (.put 24 0) ;;
           (.loop 25 true ((.look 26) ;; (.chr 26 (.rg 0 1114111)))
             (.ite (.chr 26 (.rg 48 57))
               (.advc 26)
               (.ite (.ite (.chr 26 (.rg 46 46)) (.ite (.flag 24) (.val false) (.val true)) (.val false))
                 ((.put 24 1) ;; (.advc 26))
                 .brk))) ;;
           (.tok 14) ;;
           (.ret true))
          (.val true)))
       (.val true)) ;;
     (.val false))

/-- `lex_operator_or_delimiter` (examples/oak-go/src/lexer/mod.rs:244-393). -/
def lexOperatorOrDelimiter : Code :=
  .scope 27
    ((.mark 27) ;;
     (.ite (.ite (.starts [':', '=']) ((.adv 2) ;; (.val true)) (.val false))
       (.val true)
       (.ite (.ite (.starts ['.', '.', '.']) ((.adv 3) ;; (.val true)) (.val false))
         (.val true)
         (.ite (.ite (.starts ['<', '<', '=']) ((.adv 3) ;; (.val true)) (.val false))
           (.val true)
           (.ite (.ite (.starts ['>', '>', '=']) ((.adv 3) ;; (.val true)) (.val false))
             (.val true)
             (.ite (.ite (.starts ['&', '^', '=']) ((.adv 3) ;; (.val true)) (.val false))
               (.val true)
               (.ite (.ite (.starts ['=', '=']) ((.adv 2) ;; (.val true)) (.val false))
                 (.val true)
                 (.ite (.ite (.starts ['!', '=']) ((.adv 2) ;; (.val true)) (.val false))
                   (.val true)
                   (.ite (.ite (.starts ['<', '=']) ((.adv 2) ;; (.val true)) (.val false))
                     (.val true)
                     (.ite (.ite (.starts ['>', '=']) ((.adv 2) ;; (.val true)) (.val false))
                       (.val true)
                       (.ite (.ite (.starts ['&', '&']) ((.adv 2) ;; (.val true)) (.val false))
                         (.val true)
                         (.ite (.ite (.starts ['|', '|']) ((.adv 2) ;; (.val true)) (.val false))
                           (.val true)
                           (.ite (.ite (.starts ['<', '<']) ((.adv 2) ;; (.val true)) (.val false))
                             (.val true)
                             (.ite (.ite (.starts ['>', '>']) ((.adv 2) ;; (.val true)) (.val false))
                               (.val true)
                               (.ite (.ite (.starts ['&', '^']) ((.adv 2) ;; (.val true)) (.val false))
                                 (.val true)
                                 (.ite (.ite (.starts ['+', '+']) ((.adv 2) ;; (.val true)) (.val false))
                                   (.val true)
                                   (.ite (.ite (.starts ['-', '-']) ((.adv 2) ;; (.val true)) (.val false))
                                     (.val true)
                                     (.ite (.ite (.starts ['+', '=']) ((.adv 2) ;; (.val true)) (.val false))
                                       (.val true)
                                       (.ite (.ite (.starts ['-', '=']) ((.adv 2) ;; (.val true)) (.val false))
                                         (.val true)
                                         (.ite (.ite (.starts ['*', '=']) ((.adv 2) ;; (.val true)) (.val false))
                                           (.val true)
                                           (.ite (.ite (.starts ['/', '=']) ((.adv 2) ;; (.val true)) (.val false))
                                             (.val true)
                                             (.ite (.ite (.starts ['%', '=']) ((.adv 2) ;; (.val true)) (.val false))
                                               (.val true)
                                               (.ite (.ite (.starts ['&', '=']) ((.adv 2) ;; (.val true)) (.val false))
                                                 (.val true)
                                                 (.ite (.ite (.starts ['|', '=']) ((.adv 2) ;; (.val true)) (.val false))
                                                   (.val true)
                                                   (.ite (.ite (.starts ['^', '='])
                                                       ((.adv 2) ;; (.val true))
                                                       (.val false))
                                                     (.val true)
                                                     (.ite (.ite (.starts ['<', '-'])
                                                         ((.adv 2) ;; (.val true))
                                                         (.val false))
                                                       (.val true)
                                                       (.ite (.ite (.starts ['{']) ((.adv 1) ;; (.val true)) (.val false))
                                                         (.val true)
                                                         (.ite (.ite (.starts ['}'])
                                                             ((.adv 1) ;; (.val true))
                                                             (.val false))
                                                           (.val true)
                                                           (.ite (.ite (.starts ['('])
                                                               ((.adv 1) ;; (.val true))
                                                               (.val false))
                                                             (.val true)
                                                             (.ite (.ite (.starts [')'])
                                                                 ((.adv 1) ;; (.val true))
                                                                 (.val false))
                                                               (.val true)
                                                               (.ite (.ite (.starts ['['])
                                                                   ((.adv 1) ;; (.val true))
                                                                   (.val false))
                                                                 (.val true)
                                                                 (.ite (.ite (.starts [']'])
                                                                     ((.adv 1) ;; (.val true))
                                                                     (.val false))
                                                                   (.val true)
                                                                   (.ite (.ite (.starts ['.'])
                                                                       ((.adv 1) ;; (.val true))
                                                                       (.val false))
                                                                     (.val true)
                                                                     (.ite (.ite (.starts [','])
                                                                         ((.adv 1) ;; (.val true))
                                                                         (.val false))
                                                                       (.val true)
                                                                       (.ite (.ite (.starts [';'])
                                                                           ((.adv 1) ;; (.val true))
                                                                           (.val false))
                                                                         (.val true)
                                                                         (.ite (.ite (.starts [':'])
                                                                             ((.adv 1) ;; (.val true))
                                                                             (.val false))
                                                                           (.val true)
                                                                           (.ite (.ite (.starts ['+'])
                                                                               ((.adv 1) ;; (.val true))
                                                                               (.val false))
                                                                             (.val true)
                                                                             (.ite (.ite (.starts ['-'])
                                                                                 ((.adv 1) ;; (.val true))
                                                                                 (.val false))
                                                                               (.val true)
                                                                               (.ite (.ite (.starts ['*'])
                                                                                   ((.adv 1) ;; (.val true))
                                                                                   (.val false))
                                                                                 (.val true)
                                                                                 (.ite (.ite (.starts ['/'])
                                                                                     ((.adv 1) ;; (.val true))
                                                                                     (.val false))
                                                                                   (.val true)
                                                                                   (.ite (.ite (.starts ['%'])
                                                                                       ((.adv 1) ;; (.val true))
                                                                                       (.val false))
                                                                                     (.val true)
                                                                                     (.ite (.ite (.starts ['&'])
                                                                                         ((.adv 1) ;; (.val true))
                                                                                         (.val false))
                                                                                       (.val true)
                                                                                       (.ite (.ite (.starts ['|'])
                                                                                           ((.adv 1) ;; (.val true))
                                                                                           (.val false))
                                                                                         (.val true)
                                                                                         (.ite (.ite (.starts ['^'])
                                                                                             ((.adv 1) ;; (.val true))
                                                                                             (.val false))
                                                                                           (.val true)
                                                                                           (.ite (.ite (.starts ['!'])
                                                                                               ((.adv 1) ;;
                                                                                                (.val true))
                                                                                               (.val false))
                                                                                             (.val true)
                                                                                             (.ite (.ite (.starts ['<'])
                                                                                                 ((.adv 1) ;;
                                                                                                  (.val true))
                                                                                                 (.val false))
                                                                                               (.val true)
                                                                                               (.ite (.ite (.starts ['>'])
                                                                                                   ((.adv 1) ;;
                                                                                                    (.val true))
                                                                                                   (.val false))
                                                                                                 (.val true)
                                                                                                 (.ite (.ite (.starts ['='])
                                                                                                     ((.adv 1) ;;
                                                                                                      (.val true))
                                                                                                     (.val false))
                                                                                                   (.val true)
                                                                                                   (.ret false)))))))))))))))))))))))))))))))))))))))))))))))) ;;
     (.tok 27) ;;
     (.val true))

/-- `run` (examples/oak-go/src/lexer/mod.rs:30-65). -/
def run_ : Code :=
  .scope 0
    (.loop 0 false .more
      ((.mark 1) ;;
       (.ite skipWhitespace .cont (.val true)) ;;
       (.ite skipComment .cont (.val true)) ;;
       (.ite lexIdentifierOrKeyword .cont (.val true)) ;;
       (.ite lexLiteral .cont (.val true)) ;;
       (.ite lexOperatorOrDelimiter .cont (.val true)) ;;
       (.mark 28) ;;
       (.ite ((.look 29) ;; (.chr 29 (.rg 0 1114111))) ((.advc 29) ;; (.tok 28)) (.val true)) ;;
       (.guard 1)))

end Oaks.HandLex.Go
