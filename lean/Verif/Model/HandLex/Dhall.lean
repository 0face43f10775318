import Verif.Model.LexCode

/-
The lexer of the example `oak-dhall` as a program of Model/LexCode.lean, function by function in the order of
the calls. Kinds of tokens and messages are left out.
-/
namespace Oaks.HandLex.Dhall

open Oaks.Lc

/-- `skip_whitespace` (examples/oak-dhall/src/lexer/mod.rs:71-73). -/
def skipWhitespace : Code :=
  .scope 2
    (.space true)

/-- `skip_comment` (examples/oak-dhall/src/lexer/mod.rs:75-77). -/
def skipComment : Code :=
  .scope 2
    (.comment ⟨['-', '-'], ['{', '-'], ['-', '}'], true⟩)

/-- `lex_string_literal` (examples/oak-dhall/src/lexer/mod.rs:79-81). -/
def lexStringLiteral : Code :=
  .scope 2
    (.quoted ⟨['"'], some '\\'⟩)

/-- `lex_number_literal` (examples/oak-dhall/src/lexer/mod.rs:83-101). -/
def lexNumberLiteral : Code :=
  .scope 2
    ((.mark 2) ;;
     (.ite ((.look 3) ;; (.chr 3 (.rg 0 1114111))) (.val true) (.ret false)) ;;
     (.ite (.ite (.chr 3 (.rg 48 57)) (.val false) (.val true)) (.ret false) (.val true)) ;;
     (.adv 1) ;;
     (.loop 4 true ((.look 5) ;; (.chr 5 (.rg 0 1114111))) (.ite (.chr 5 (.rg 48 57)) (.adv 1) .brk)) ;;
     (.tok 2) ;;
     (.val true))

/-- `lex_identifier_or_keyword` (examples/oak-dhall/src/lexer/mod.rs:103-151). -/
def lexIdentifierOrKeyword : Code :=
  .scope 6
    ((.mark 6) ;;
     (.ite ((.look 7) ;; (.chr 7 (.rg 0 1114111))) (.val true) (.ret false)) ;;
     (.ite (.ite (.ite (.ite (.chr 7 .alpha) (.val false) (.val true))
           (.ite (.chr 7 (.rg 95 95)) (.val false) (.val true))
           (.val false))
         (.ite (.chr 7 (.rg 955 955)) (.val false) (.val true))
         (.val false))
       (.ret false)
       (.val true)) ;;
     (.adv 1) ;;
     (.loop 8 true ((.look 9) ;; (.chr 9 (.rg 0 1114111)))
       (.ite (.ite (.ite (.ite (.chr 9 .alnum) (.val true) (.chr 9 (.rg 95 95))) (.val true) (.chr 9 (.rg 45 45)))
           (.val true)
           (.chr 9 (.rg 47 47)))
         (.adv 1)
         .brk)) ;;
     (.mark 10) ;;
     (.val true) ;;
     (.val true) ;;
     (.tokTo 6 10) ;;
     (.val true))

/-- `lex_operators` (examples/oak-dhall/src/lexer/mod.rs:153-187). -/
def lexOperators : Code :=
  .scope 11
    ((.mark 11) ;;
     (.val true) ;;
     (.val true) ;;
     ((.ite (.restStarts ['-', '>']) ((.adv 2) ;; (.tok 11) ;; (.ret true)) (.val true)) ;;
      (.ite (.restStarts [(Char.ofNat 8594)]) ((.adv 3) ;; (.tok 11) ;; (.ret true)) (.val true)) ;;
      (.ite (.restStarts ['=', '>']) ((.adv 2) ;; (.tok 11) ;; (.ret true)) (.val true)) ;;
      (.ite (.restStarts ['=', '=']) ((.adv 2) ;; (.tok 11) ;; (.ret true)) (.val true)) ;;
      (.ite (.restStarts [(Char.ofNat 8801)]) ((.adv 3) ;; (.tok 11) ;; (.ret true)) (.val true)) ;;
      (.ite (.restStarts ['!', '=']) ((.adv 2) ;; (.tok 11) ;; (.ret true)) (.val true)) ;;
      (.ite (.restStarts ['&', '&']) ((.adv 2) ;; (.tok 11) ;; (.ret true)) (.val true)) ;;
      (.ite (.restStarts [(Char.ofNat 8743)]) ((.adv 3) ;; (.tok 11) ;; (.ret true)) (.val true)) ;;
      (.ite (.restStarts ['|', '|']) ((.adv 2) ;; (.tok 11) ;; (.ret true)) (.val true)) ;;
      (.ite (.restStarts [(Char.ofNat 8744)]) ((.adv 3) ;; (.tok 11) ;; (.ret true)) (.val true)) ;;
      (.ite (.restStarts ['+', '+']) ((.adv 2) ;; (.tok 11) ;; (.ret true)) (.val true)) ;;
      (.ite (.restStarts ['/', '/']) ((.adv 2) ;; (.tok 11) ;; (.ret true)) (.val true)) ;;
      (.ite (.restStarts [(Char.ofNat 11005)]) ((.adv 3) ;; (.tok 11) ;; (.ret true)) (.val true)) ;;
      (.ite (.restStarts ['/', '\\']) ((.adv 2) ;; (.tok 11) ;; (.ret true)) (.val true)) ;;
      (.ite (.restStarts [(Char.ofNat 10835)]) ((.adv 3) ;; (.tok 11) ;; (.ret true)) (.val true)) ;;
      (.ite (.restStarts ['/', '/', '\\']) ((.adv 3) ;; (.tok 11) ;; (.ret true)) (.val true)) ;;
      (.ite (.restStarts [(Char.ofNat 8704)]) ((.adv 3) ;; (.tok 11) ;; (.ret true)) (.val true)) ;;
      (.ite (.restStarts [(Char.ofNat 955)]) ((.adv 2) ;; (.tok 11) ;; (.ret true)) (.val true))) ;;
     (.val false))

/-- `lex_single_char_tokens` (examples/oak-dhall/src/lexer/mod.rs:189-224). -/
def lexSingleCharTokens : Code :=
  .scope 13
    ((.mark 13) ;;
     (.ite ((.look 14) ;; (.chr 14 (.rg 0 1114111))) (.val true) (.ret false)) ;;
     (.ite (.chr 14 (.rg 40 40))
       (.val true)
       (.ite (.chr 14 (.rg 41 41))
         (.val true)
         (.ite (.chr 14 (.rg 91 91))
           (.val true)
           (.ite (.chr 14 (.rg 93 93))
             (.val true)
             (.ite (.chr 14 (.rg 123 123))
               (.val true)
               (.ite (.chr 14 (.rg 125 125))
                 (.val true)
                 (.ite (.chr 14 (.rg 60 60))
                   (.val true)
                   (.ite (.chr 14 (.rg 62 62))
                     (.val true)
                     (.ite (.chr 14 (.rg 44 44))
                       (.val true)
                       (.ite (.chr 14 (.rg 46 46))
                         (.val true)
                         (.ite (.chr 14 (.rg 58 58))
                           (.val true)
                           (.ite (.chr 14 (.rg 59 59))
                             (.val true)
                             (.ite (.chr 14 (.rg 61 61))
                               (.val true)
                               (.ite (.chr 14 (.rg 64 64))
                                 (.val true)
                                 (.ite (.chr 14 (.rg 35 35))
                                   (.val true)
                                   (.ite (.chr 14 (.rg 63 63))
                                     (.val true)
                                     (.ite (.chr 14 (.rg 43 43))
                                       (.val true)
                                       (.ite (.chr 14 (.rg 42 42))
                                         (.val true)
                                         (.ite (.chr 14 (.rg 47 47))
                                           (.val true)
                                           (.ite (.chr 14 (.rg 124 124))
                                             (.val true)
                                             (.ite (.chr 14 (.rg 92 92)) (.val true) (.ret false)))))))))))))))))))))) ;;
     (.adv 1) ;;
     (.tok 13) ;;
     (.val true))

/-- `run` (examples/oak-dhall/src/lexer/mod.rs:34-69). -/
def run_ : Code :=
  .scope 0
    (.loop 0 false .more
      ((.mark 1) ;;
       (.ite skipWhitespace .cont (.val true)) ;;
       (.ite skipComment .cont (.val true)) ;;
       (.ite lexStringLiteral .cont (.val true)) ;;
       (.ite lexNumberLiteral .cont (.val true)) ;;
       (.ite lexIdentifierOrKeyword .cont (.val true)) ;;
       (.ite lexOperators .cont (.val true)) ;;
       (.ite lexSingleCharTokens .cont (.val true)) ;;
       (.guard 1)))

end Oaks.HandLex.Dhall
