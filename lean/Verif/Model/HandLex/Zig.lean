import Verif.Model.LexCode

/-
The lexer of the example `oak-zig` as a program of Model/LexCode.lean, function by function in the order of
the calls. Kinds of tokens and messages are left out.
-/
namespace Oaks.HandLex.Zig

open Oaks.Lc

/-- `skip_whitespace` (examples/oak-zig/src/lexer/mod.rs:90-92). -/
def skipWhitespace : Code :=
  .scope 2
    (.space true)

/-- `skip_comment` (examples/oak-zig/src/lexer/mod.rs:95-125). -/
def skipComment : Code :=
  .scope 2
    ((.mark 2) ;;
     (.val true) ;;
     (.ite (.restStarts ['/', '/'])
       ((.adv 2) ;;
        (.ite ((.look 4) ;; (.chr 4 (.rg 47 47))) ((.adv 1) ;; (.put 3 1)) (.put 3 0)) ;;
        (.loop 5 true ((.look 6) ;; (.chr 6 (.rg 0 1114111)))
          ((.ite (.ite (.chr 6 (.rg 10 10)) (.val true) (.chr 6 (.rg 13 13))) .brk (.val true)) ;; (.advc 6))) ;;
        (.tok 2) ;;
        (.ret true))
       (.val true)) ;;
     (.val false))

/-- `lex_string_literal` (examples/oak-zig/src/lexer/mod.rs:128-191). -/
def lexStringLiteral : Code :=
  .scope 7
    ((.mark 7) ;;
     (.ite (.restStarts ['\\', '\\'])
       ((.adv 2) ;;
        (.loop 8 true ((.look 9) ;; (.chr 9 (.rg 0 1114111)))
          ((.ite (.chr 9 (.rg 10 10)) ((.adv 1) ;; .brk) (.val true)) ;; (.advc 9))) ;;
        (.loop 10 true .more
          ((.mark 11) ;;
           (.ite (.ite (.restStarts ['\\', '\\']) (.val false) (.val true)) .brk (.val true)) ;;
           (.adv 2) ;;
           (.loop 12 true ((.look 13) ;; (.chr 13 (.rg 0 1114111)))
             ((.ite (.chr 13 (.rg 10 10)) ((.adv 1) ;; .brk) (.val true)) ;; (.advc 13))))) ;;
        (.tok 7) ;;
        (.ret true))
       (.val true)) ;;
     (.ite ((.look 14) ;; (.chr 14 (.rg 34 34)))
       ((.adv 1) ;;
        (.loop 15 true ((.look 16) ;; (.chr 16 (.rg 0 1114111)))
          ((.ite (.chr 16 (.rg 34 34)) ((.adv 1) ;; .brk) (.val true)) ;;
           (.ite (.chr 16 (.rg 92 92))
             ((.adv 1) ;; (.ite ((.look 17) ;; (.chr 17 (.rg 0 1114111))) (.advc 17) (.val true)) ;; .cont)
             (.val true)) ;;
           (.advc 16))) ;;
        (.tok 7) ;;
        (.ret true))
       (.val true)) ;;
     (.val false))

/-- `lex_char_literal` (examples/oak-zig/src/lexer/mod.rs:194-216). -/
def lexCharLiteral : Code :=
  .scope 18
    ((.mark 18) ;;
     (.ite ((.look 19) ;; (.chr 19 (.rg 39 39)))
       ((.adv 1) ;;
        (.loop 20 true ((.look 21) ;; (.chr 21 (.rg 0 1114111)))
          ((.ite (.chr 21 (.rg 39 39)) ((.adv 1) ;; .brk) (.val true)) ;;
           (.ite (.chr 21 (.rg 92 92))
             ((.adv 1) ;; (.ite ((.look 22) ;; (.chr 22 (.rg 0 1114111))) (.advc 22) (.val true)) ;; .cont)
             (.val true)) ;;
           (.advc 21))) ;;
        (.tok 18) ;;
        (.ret true))
       (.val true)) ;;
     (.val false))

/-- `lex_number_literal` (examples/oak-zig/src/lexer/mod.rs:219-284). -/
def lexNumberLiteral : Code :=
  .scope 23
    ((.mark 23) ;;
     (.look 24) ;;
     (.put 25 0) ;;
     (.ite (.chr 24 (.rg 0 1114111))
       (.ite (.chr 24 (.rg 48 57))
         ((.adv 1) ;;
          (.ite (.chr 24 (.rg 48 48))
            (.ite ((.look 26) ;; (.chr 26 (.rg 0 1114111)))
              (.ite (.chr 26 (.or (.rg 120 120) (.rg 88 88)))
                ((.adv 1) ;; (.take (.or (.or (.or (.rg 48 57) (.rg 65 70)) (.rg 97 102)) (.rg 95 95))))
                (.ite (.chr 26 (.or (.rg 98 98) (.rg 66 66)))
                  ((.adv 1) ;; (.take (.or (.or (.rg 48 48) (.rg 49 49)) (.rg 95 95))))
                  (.ite (.chr 26 (.or (.rg 111 111) (.rg 79 79)))
                    ((.adv 1) ;; (.take (.or (.rg 48 55) (.rg 95 95))))
                    (.take (.or (.rg 48 57) (.rg 95 95))))))
              (.val true))
            (.take (.or (.rg 48 57) (.rg 95 95)))) ;;
          (.ite ((.look 27) ;; (.chr 27 (.rg 46 46)))
            (.ite ((.look 28) ;; (.chr 28 (.rg 0 1114111)))
              (.ite (.chr 28 (.rg 48 57))
                ((.put 25 1) ;; (.adv 1) ;; (.take (.or (.rg 48 57) (.rg 95 95))))
                (.val true))
              (.val true))
            (.val true)) ;;
          (.ite ((.look 29) ;; (.chr 29 (.rg 0 1114111)))
            (.ite (.ite (.ite (.ite (.chr 29 (.rg 101 101)) (.val true) (.chr 29 (.rg 69 69)))
                  (.val true)
                  (.chr 29 (.rg 112 112)))
                (.val true)
                (.chr 29 (.rg 80 80)))
              ((.put 25 1) ;;
               (.adv 1) ;;
               (.ite ((.look 30) ;; (.chr 30 (.rg 0 1114111)))
                 (.ite (.ite (.chr 30 (.rg 43 43)) (.val true) (.chr 30 (.rg 45 45))) (.adv 1) (.val true))
                 (.val true)) ;;
               (.take (.or (.rg 48 57) (.rg 95 95))))
              (.val true))
            (.val true)) ;;
          (.tok 23) ;;
          (.ret true))
         (.val true))
       (.val true)) ;;
     (.val false))

/-- `lex_identifier_or_keyword` (examples/oak-zig/src/lexer/mod.rs:287-302). -/
def lexIdentifierOrKeyword : Code :=
  .scope 31
    ((.mark 31) ;;
     (.ite ((.look 32) ;; (.chr 32 (.rg 0 1114111)))
       (.ite (.ite (.chr 32 (.or (.rg 65 90) (.rg 97 122))) (.val true) (.chr 32 (.rg 95 95)))
         ((.advc 32) ;;
          (.take (.or (.or (.or (.rg 48 57) (.rg 65 90)) (.rg 97 122)) (.rg 95 95))) ;;
          (.mark 33) ;;
          (.tok 31) ;;
          (.ret true))
         (.val true))
       (.val true)) ;;
     (.val false))

/-- `lex_builtin` (examples/oak-zig/src/lexer/mod.rs:412-426). -/
def lexBuiltin : Code :=
  .scope 34
    ((.mark 34) ;;
     (.ite ((.look 35) ;; (.chr 35 (.rg 8623 8623)))
       ((.adv 1) ;;
        (.ite ((.look 36) ;; (.chr 36 (.rg 0 1114111)))
          (.ite (.ite (.chr 36 (.or (.rg 65 90) (.rg 97 122))) (.val true) (.chr 36 (.rg 95 95)))
            ((.advc 36) ;;
             (.take (.or (.or (.or (.rg 48 57) (.rg 65 90)) (.rg 97 122)) (.rg 95 95))) ;;
             (.tok 34) ;;
             (.ret true))
            (.val true))
          (.val true)))
       (.val true)) ;;
     (.val false))

/-- `lex_operators` (examples/oak-zig/src/lexer/mod.rs:429-472). -/
def lexOperators : Code :=
  .scope 37
    ((.mark 37) ;;
     (.val true) ;;
     (.val true) ;;
     ((.ite (.restStarts ['<', '<', '=']) ((.adv 3) ;; (.tok 37) ;; (.ret true)) (.val true)) ;;
      (.ite (.restStarts ['>', '>', '=']) ((.adv 3) ;; (.tok 37) ;; (.ret true)) (.val true)) ;;
      (.ite (.restStarts ['.', '.', '.']) ((.adv 3) ;; (.tok 37) ;; (.ret true)) (.val true)) ;;
      (.ite (.restStarts ['=', '=']) ((.adv 2) ;; (.tok 37) ;; (.ret true)) (.val true)) ;;
      (.ite (.restStarts ['!', '=']) ((.adv 2) ;; (.tok 37) ;; (.ret true)) (.val true)) ;;
      (.ite (.restStarts ['<', '=']) ((.adv 2) ;; (.tok 37) ;; (.ret true)) (.val true)) ;;
      (.ite (.restStarts ['>', '=']) ((.adv 2) ;; (.tok 37) ;; (.ret true)) (.val true)) ;;
      (.ite (.restStarts ['&', '&']) ((.adv 2) ;; (.tok 37) ;; (.ret true)) (.val true)) ;;
      (.ite (.restStarts ['|', '|']) ((.adv 2) ;; (.tok 37) ;; (.ret true)) (.val true)) ;;
      (.ite (.restStarts ['+', '=']) ((.adv 2) ;; (.tok 37) ;; (.ret true)) (.val true)) ;;
      (.ite (.restStarts ['-', '=']) ((.adv 2) ;; (.tok 37) ;; (.ret true)) (.val true)) ;;
      (.ite (.restStarts ['*', '=']) ((.adv 2) ;; (.tok 37) ;; (.ret true)) (.val true)) ;;
      (.ite (.restStarts ['/', '=']) ((.adv 2) ;; (.tok 37) ;; (.ret true)) (.val true)) ;;
      (.ite (.restStarts ['%', '=']) ((.adv 2) ;; (.tok 37) ;; (.ret true)) (.val true)) ;;
      (.ite (.restStarts ['&', '=']) ((.adv 2) ;; (.tok 37) ;; (.ret true)) (.val true)) ;;
      (.ite (.restStarts ['|', '=']) ((.adv 2) ;; (.tok 37) ;; (.ret true)) (.val true)) ;;
      (.ite (.restStarts ['^', '=']) ((.adv 2) ;; (.tok 37) ;; (.ret true)) (.val true)) ;;
      (.ite (.restStarts ['+', '+']) ((.adv 2) ;; (.tok 37) ;; (.ret true)) (.val true)) ;;
      (.ite (.restStarts ['-', '-']) ((.adv 2) ;; (.tok 37) ;; (.ret true)) (.val true)) ;;
      (.ite (.restStarts ['*', '*']) ((.adv 2) ;; (.tok 37) ;; (.ret true)) (.val true)) ;;
      (.ite (.restStarts ['-', '>']) ((.adv 2) ;; (.tok 37) ;; (.ret true)) (.val true)) ;;
      (.ite (.restStarts ['=', '>']) ((.adv 2) ;; (.tok 37) ;; (.ret true)) (.val true)) ;;
      (.ite (.restStarts ['<', '<']) ((.adv 2) ;; (.tok 37) ;; (.ret true)) (.val true)) ;;
      (.ite (.restStarts ['>', '>']) ((.adv 2) ;; (.tok 37) ;; (.ret true)) (.val true)) ;;
      (.ite (.restStarts ['.', '?']) ((.adv 2) ;; (.tok 37) ;; (.ret true)) (.val true)) ;;
      (.ite (.restStarts ['.', '*']) ((.adv 2) ;; (.tok 37) ;; (.ret true)) (.val true))) ;;
     (.val false))

/-- `lex_single_char_tokens` (examples/oak-zig/src/lexer/mod.rs:475-510). -/
def lexSingleCharTokens : Code :=
  .scope 39
    ((.mark 39) ;;
     (.ite ((.look 40) ;; (.chr 40 (.rg 0 1114111)))
       ((.ite (.chr 40 (.rg 40 40))
          (.val true)
          (.ite (.chr 40 (.rg 41 41))
            (.val true)
            (.ite (.chr 40 (.rg 123 123))
              (.val true)
              (.ite (.chr 40 (.rg 125 125))
                (.val true)
                (.ite (.chr 40 (.rg 91 91))
                  (.val true)
                  (.ite (.chr 40 (.rg 93 93))
                    (.val true)
                    (.ite (.chr 40 (.rg 44 44))
                      (.val true)
                      (.ite (.chr 40 (.rg 46 46))
                        (.val true)
                        (.ite (.chr 40 (.rg 58 58))
                          (.val true)
                          (.ite (.chr 40 (.rg 59 59))
                            (.val true)
                            (.ite (.chr 40 (.rg 43 43))
                              (.val true)
                              (.ite (.chr 40 (.rg 45 45))
                                (.val true)
                                (.ite (.chr 40 (.rg 42 42))
                                  (.val true)
                                  (.ite (.chr 40 (.rg 47 47))
                                    (.val true)
                                    (.ite (.chr 40 (.rg 37 37))
                                      (.val true)
                                      (.ite (.chr 40 (.rg 38 38))
                                        (.val true)
                                        (.ite (.chr 40 (.rg 124 124))
                                          (.val true)
                                          (.ite (.chr 40 (.rg 94 94))
                                            (.val true)
                                            (.ite (.chr 40 (.rg 126 126))
                                              (.val true)
                                              (.ite (.chr 40 (.rg 33 33))
                                                (.val true)
                                                (.ite (.chr 40 (.rg 63 63))
                                                  (.val true)
                                                  (.ite (.chr 40 (.rg 60 60))
                                                    (.val true)
                                                    (.ite (.chr 40 (.rg 62 62))
                                                      (.val true)
                                                      (.ite (.chr 40 (.rg 61 61)) (.val true) (.ret false))))))))))))))))))))))))) ;;
        (.adv 1) ;;
        (.tok 39) ;;
        (.ret true))
       (.val true)) ;;
     (.val false))

/-- `run` (examples/oak-zig/src/lexer/mod.rs:36-87). -/
def run_ : Code :=
  .scope 0
    (.loop 0 false .more
      ((.mark 1) ;;
       (.ite skipWhitespace .cont (.val true)) ;;
       (.ite skipComment .cont (.val true)) ;;
       (.ite lexStringLiteral .cont (.val true)) ;;
       (.ite lexCharLiteral .cont (.val true)) ;;
       (.ite lexNumberLiteral .cont (.val true)) ;;
       (.ite lexIdentifierOrKeyword .cont (.val true)) ;;
       (.ite lexBuiltin .cont (.val true)) ;;
       (.ite lexOperators .cont (.val true)) ;;
       (.ite lexSingleCharTokens .cont (.val true)) ;;
       (.mark 41) ;;
       (.ite ((.look 42) ;; (.chr 42 (.rg 0 1114111))) ((.advc 42) ;; (.tok 41)) (.val true)) ;;
       (.guard 1)))

end Oaks.HandLex.Zig
