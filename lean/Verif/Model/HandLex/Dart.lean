import Verif.Model.LexCode

/-
The lexer of the example `oak-dart` as a program of Model/LexCode.lean, function by function in the order of
the calls. Kinds of tokens and messages are left out.
-/
namespace Oaks.HandLex.Dart

open Oaks.Lc

/-- `skip_whitespace` (examples/oak-dart/src/lexer/mod.rs:67-82). -/
def skipWhitespace : Code :=
  .scope 2
    ((.mark 2) ;;
     (.loop 3 true ((.look 4) ;; (.chr 4 (.rg 0 1114111)))
       (.ite (.chr 4 .white) ((.look 5) ;; (.ite (.chr 5 (.rg 0 1114111)) (.advc 5) (.val true))) .brk)) ;;
     (.ite (.moved 2) ((.tok 2) ;; (.ret true)) (.val true)) ;;
     (.val false))

/-- `skip_comment` (examples/oak-dart/src/lexer/mod.rs:84-117). -/
def skipComment : Code :=
  .scope 6
    ((.mark 6) ;;
     (.ite (.ite (.starts ['/', '/', '/']) ((.adv 3) ;; (.val true)) (.val false))
       ((.loop 7 true ((.look 8) ;; (.chr 8 (.rg 0 1114111)))
          ((.ite (.chr 8 (.rg 10 10)) .brk (.val true)) ;;
           (.look 9) ;;
           (.ite (.chr 9 (.rg 0 1114111)) (.advc 9) (.val true)))) ;;
        (.tok 6) ;;
        (.ret true))
       (.val true)) ;;
     (.ite (.ite (.starts ['/', '/']) ((.adv 2) ;; (.val true)) (.val false))
       ((.loop 10 true ((.look 11) ;; (.chr 11 (.rg 0 1114111)))
          ((.ite (.chr 11 (.rg 10 10)) .brk (.val true)) ;;
           (.look 12) ;;
           (.ite (.chr 12 (.rg 0 1114111)) (.advc 12) (.val true)))) ;;
        (.tok 6) ;;
        (.ret true))
       (.val true)) ;;
     (.ite (.ite (.starts ['/', '*']) ((.adv 2) ;; (.val true)) (.val false))
       ((.loop 13 true ((.look 14) ;; (.chr 14 (.rg 0 1114111)))
          ((.ite (.ite (.starts ['*', '/']) ((.adv 2) ;; (.val true)) (.val false)) .brk (.val true)) ;;
           (.look 15) ;;
           (.ite (.chr 15 (.rg 0 1114111)) (.advc 15) (.val true)))) ;;
        (.tok 6) ;;
        (.ret true))
       (.val true)) ;;
     (.val false))

/-- `lex_identifier_or_keyword` (examples/oak-dart/src/lexer/mod.rs:119-206). -/
def lexIdentifierOrKeyword : Code :=
  .scope 16
    ((.mark 16) ;;
     (.ite ((.look 17) ;; (.chr 17 (.rg 0 1114111)))
       (.ite (.ite (.ite (.chr 17 (.or (.rg 65 90) (.rg 97 122))) (.val true) (.chr 17 (.rg 95 95)))
           (.val true)
           (.chr 17 (.rg 36 36)))
         ((.look 18) ;;
          (.ite (.chr 18 (.rg 0 1114111)) (.advc 18) (.val true)) ;;
          (.loop 19 true ((.look 20) ;; (.chr 20 (.rg 0 1114111)))
            (.ite (.ite (.ite (.chr 20 (.or (.or (.rg 48 57) (.rg 65 90)) (.rg 97 122))) (.val true) (.chr 20 (.rg 95 95)))
                (.val true)
                (.chr 20 (.rg 36 36)))
              ((.look 21) ;; (.ite (.chr 21 (.rg 0 1114111)) (.advc 21) (.val true)))
              .brk)) ;;
          (.mark 22) ;;
          (.tokTo 16 22) ;;
          (.ret true))
         (.val true))
       (.val true)) ;;
     (.val false))

/-- `lex_literal` (examples/oak-dart/src/lexer/mod.rs:208-251). -/
def lexLiteral : Code :=
  .scope 23
    ((.mark 23) ;;
     (.ite ((.look 24) ;; (.chr 24 (.rg 0 1114111)))
       ((.ite (.chr 24 (.rg 48 57))
          ((.look 25) ;;
           (.ite (.chr 25 (.rg 0 1114111)) (.advc 25) (.val true)) ;;
           (.put 26 0) ;;
           (.loop 27 true ((.look 28) ;; (.chr 28 (.rg 0 1114111)))
             (.ite (.chr 28 (.rg 48 57))
               ((.look 30) ;; (.ite (.chr 30 (.rg 0 1114111)) (.advc 30) (.val true)))
               (.ite (.ite (.chr 28 (.rg 46 46)) (.ite (.flag 26) (.val false) (.val true)) (.val false))
                 ((.put 26 1) ;; (.look 29) ;; (.ite (.chr 29 (.rg 0 1114111)) (.advc 29) (.val true)))
                 .brk))) ;;
           (.tok 23) ;;
           (.ret true))
          (.val true)) ;;
        (.ite (.ite (.chr 24 (.rg 39 39)) (.val true) (.chr 24 (.rg 34 34)))
          ((.copy 31 24) ;;
           (.look 32) ;;
           (.ite (.chr 32 (.rg 0 1114111)) (.advc 32) (.val true)) ;;
           (.loop 33 true ((.look 34) ;; (.chr 34 (.rg 0 1114111)))
             ((.ite (.same 34 31)
                ((.look 35) ;; (.ite (.chr 35 (.rg 0 1114111)) (.advc 35) (.val true)) ;; .brk)
                (.val true)) ;;
              (.ite (.chr 34 (.rg 92 92))
                ((.look 37) ;;
                 (.ite (.chr 37 (.rg 0 1114111)) (.advc 37) (.val true)) ;;
                 (.look 38) ;;
                 (.ite (.chr 38 (.rg 0 1114111)) (.advc 38) (.val true)))
                ((.look 36) ;; (.ite (.chr 36 (.rg 0 1114111)) (.advc 36) (.val true)))))) ;;
           (.tok 23) ;;
           (.ret true))
          (.val true)))
       (.val true)) ;;
     (.val false))

/-- `lex_operator_or_delimiter` (examples/oak-dart/src/lexer/mod.rs:253-384). -/
def lexOperatorOrDelimiter : Code :=
  .scope 39
    ((.mark 39) ;;
     (.ite (.ite (.starts ['.', '.', '.']) ((.adv 3) ;; (.val true)) (.val false))
       (.put 40 1)
       (.ite (.ite (.starts ['.', '.']) ((.adv 2) ;; (.val true)) (.val false))
         (.put 40 1)
         (.ite (.ite (.starts ['?', '?', '=']) ((.adv 3) ;; (.val true)) (.val false))
           (.put 40 1)
           (.ite (.ite (.starts ['?', '?']) ((.adv 2) ;; (.val true)) (.val false))
             (.put 40 1)
             (.ite (.ite (.starts ['?', '.']) ((.adv 2) ;; (.val true)) (.val false))
               (.put 40 1)
               (.ite (.ite (.starts ['~', '/', '/']) ((.adv 3) ;; (.val true)) (.val false))
                 (.put 40 0)
                 (.ite (.ite (.starts ['~', '/', '=']) ((.adv 3) ;; (.val true)) (.val false))
                   (.put 40 1)
                   (.ite (.ite (.starts ['~', '/']) ((.adv 2) ;; (.val true)) (.val false))
                     (.put 40 1)
                     (.ite (.ite (.starts ['<', '<', '=']) ((.adv 3) ;; (.val true)) (.val false))
                       (.put 40 1)
                       (.ite (.ite (.starts ['<', '<']) ((.adv 2) ;; (.val true)) (.val false))
                         (.put 40 1)
                         (.ite (.ite (.starts ['>', '>', '=']) ((.adv 3) ;; (.val true)) (.val false))
                           (.put 40 1)
                           (.ite (.ite (.starts ['>', '>']) ((.adv 2) ;; (.val true)) (.val false))
                             (.put 40 1)
                             (.ite (.ite (.starts ['=', '=']) ((.adv 2) ;; (.val true)) (.val false))
                               (.put 40 1)
                               (.ite (.ite (.starts ['!', '=']) ((.adv 2) ;; (.val true)) (.val false))
                                 (.put 40 1)
                                 (.ite (.ite (.starts ['<', '=']) ((.adv 2) ;; (.val true)) (.val false))
                                   (.put 40 1)
                                   (.ite (.ite (.starts ['>', '=']) ((.adv 2) ;; (.val true)) (.val false))
                                     (.put 40 1)
                                     (.ite (.ite (.starts ['&', '&']) ((.adv 2) ;; (.val true)) (.val false))
                                       (.put 40 1)
                                       (.ite (.ite (.starts ['|', '|']) ((.adv 2) ;; (.val true)) (.val false))
                                         (.put 40 1)
                                         (.ite (.ite (.starts ['+', '+']) ((.adv 2) ;; (.val true)) (.val false))
                                           (.put 40 1)
                                           (.ite (.ite (.starts ['-', '-']) ((.adv 2) ;; (.val true)) (.val false))
                                             (.put 40 1)
                                             (.ite (.ite (.starts ['+', '=']) ((.adv 2) ;; (.val true)) (.val false))
                                               (.put 40 1)
                                               (.ite (.ite (.starts ['-', '=']) ((.adv 2) ;; (.val true)) (.val false))
                                                 (.put 40 1)
                                                 (.ite (.ite (.starts ['*', '=']) ((.adv 2) ;; (.val true)) (.val false))
                                                   (.put 40 1)
                                                   (.ite (.ite (.starts ['/', '='])
                                                       ((.adv 2) ;; (.val true))
                                                       (.val false))
                                                     (.put 40 1)
                                                     (.ite (.ite (.starts ['%', '='])
                                                         ((.adv 2) ;; (.val true))
                                                         (.val false))
                                                       (.put 40 1)
                                                       (.ite (.ite (.starts ['&', '='])
                                                           ((.adv 2) ;; (.val true))
                                                           (.val false))
                                                         (.put 40 1)
                                                         (.ite (.ite (.starts ['|', '='])
                                                             ((.adv 2) ;; (.val true))
                                                             (.val false))
                                                           (.put 40 1)
                                                           (.ite (.ite (.starts ['^', '='])
                                                               ((.adv 2) ;; (.val true))
                                                               (.val false))
                                                             (.put 40 1)
                                                             (.ite (.ite (.starts ['=', '>'])
                                                                 ((.adv 2) ;; (.val true))
                                                                 (.val false))
                                                               (.put 40 1)
                                                               ((.look 41) ;;
                                                                (.ite (.chr 41 (.rg 43 43))
                                                                  (.put 40 1)
                                                                  (.ite (.chr 41 (.rg 45 45))
                                                                    (.put 40 1)
                                                                    (.ite (.chr 41 (.rg 42 42))
                                                                      (.put 40 1)
                                                                      (.ite (.chr 41 (.rg 47 47))
                                                                        (.put 40 1)
                                                                        (.ite (.chr 41 (.rg 37 37))
                                                                          (.put 40 1)
                                                                          (.ite (.chr 41 (.rg 61 61))
                                                                            (.put 40 1)
                                                                            (.ite (.chr 41 (.rg 60 60))
                                                                              (.put 40 1)
                                                                              (.ite (.chr 41 (.rg 62 62))
                                                                                (.put 40 1)
                                                                                (.ite (.chr 41 (.rg 38 38))
                                                                                  (.put 40 1)
                                                                                  (.ite (.chr 41 (.rg 124 124))
                                                                                    (.put 40 1)
                                                                                    (.ite (.chr 41 (.rg 94 94))
                                                                                      (.put 40 1)
                                                                                      (.ite (.chr 41 (.rg 126 126))
                                                                                        (.put 40 1)
                                                                                        (.ite (.chr 41 (.rg 33 33))
                                                                                          (.put 40 1)
                                                                                          (.ite (.chr 41 (.rg 63 63))
                                                                                            (.put 40 1)
                                                                                            (.ite (.chr 41 (.rg 46 46))
                                                                                              (.put 40 1)
                                                                                              (.ite (.chr 41 (.rg 40 40))
                                                                                                (.put 40 1)
                                                                                                (.ite (.chr 41 (.rg 41 41))
                                                                                                  (.put 40 1)
                                                                                                  (.ite (.chr 41 (.rg 91 91))
                                                                                                    (.put 40 1)
                                                                                                    (.ite (.chr 41 (.rg 93 93))
                                                                                                      (.put 40 1)
                                                                                                      (.ite (.chr 41 (.rg 123 123))
                                                                                                        (.put 40 1)
                                                                                                        (.ite (.chr 41 (.rg 125 125))
                                                                                                          (.put 40 1)
                                                                                                          (.ite (.chr 41 (.rg 59 59))
                                                                                                            (.put 40 1)
                                                                                                            (.ite (.chr 41 (.rg 44 44))
                                                                                                              (.put 40 1)
                                                                                                              (.ite (.chr 41 (.rg 58 58))
                                                                                                                (.put 40 1)
                                                                                                                (.ite (.chr 41 (.rg 64 64))
                                                                                                                  (.put 40 1)
                                                                                                                  (.ite (.chr 41 (.rg 35 35))
                                                                                                                    (.put 40 1)
                                                                                                                    (.put 40 0))))))))))))))))))))))))))))))))))))))))))))))))))))))))) ;;
     (.ite (.flag 40)
       ((.ite (.ite (.moved 39) (.val false) (.val true))
          ((.look 42) ;; (.ite (.chr 42 (.rg 0 1114111)) (.advc 42) (.val true)))
          (.val true)) ;;
        (.tok 39) ;;
        (.ret true))
       (.val true)) ;;
     (.val false))

/-- `run` (examples/oak-dart/src/lexer/mod.rs:31-65). -/
def run_ : Code :=
  .scope 0
    (.loop 0 false .more
      ((.mark 1) ;;
       (.ite skipWhitespace .cont (.val true)) ;;
       (.ite skipComment .cont (.val true)) ;;
       (.ite lexIdentifierOrKeyword .cont (.val true)) ;;
       (.ite lexLiteral .cont (.val true)) ;;
       (.ite lexOperatorOrDelimiter .cont (.val true)) ;;
       (.mark 43) ;;
       (.ite (.ite ((.look 44) ;; (.chr 44 (.rg 0 1114111))) ((.advc 44) ;; (.val true)) (.val false))
         (.tok 43)
         (.val true)) ;;
       (.guard 1)))

end Oaks.HandLex.Dart
