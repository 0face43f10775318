import Verif.Model.LexCode

/-
The lexer of the example `oak-org-mode` as a program of Model/LexCode.lean, function by function in the order of
the calls. Kinds of tokens and messages are left out.
-/
namespace Oaks.HandLex.OrgMode

open Oaks.Lc

/-- `skip_whitespace` (examples/oak-org-mode/src/lexer/mod.rs:29-31). -/
def skipWhitespace : Code :=
  .scope 4
    (.space false)

/-- `skip_comment` (examples/oak-org-mode/src/lexer/mod.rs:33-35). -/
def skipComment : Code :=
  .scope 4
    (.comment ⟨['#'], [], [], false⟩)

/-- `lex_string` (examples/oak-org-mode/src/lexer/mod.rs:37-39). -/
def lexString : Code :=
  .scope 4
    (.quoted ⟨['"'], some '\\'⟩)

/-- `lex_priority` (examples/oak-org-mode/src/lexer/mod.rs:72-94). -/
def lexPriority : Code :=
  .scope 4
    (.ite (.starts ['[', '#'])
      ((.mark 4) ;;
       (.adv 2) ;;
       (.ite ((.look 5) ;; (.chr 5 (.rg 0 1114111)))
         (.ite (.chr 5 .alpha)
           ((.advc 5) ;; (.ite ((.look 6) ;; (.chr 6 (.rg 93 93))) ((.adv 1) ;; (.tok 4) ;; (.ret true)) (.val true)))
           (.val true))
         (.val true)) ;;
       (.goto 4) ;;
       (.val false))
      (.val false))

/-- `lex_number_or_date` (examples/oak-org-mode/src/lexer/mod.rs:96-122). -/
def lexNumberOrDate : Code :=
  .scope 7
    ((.ite ((.look 7) ;; (.chr 7 (.rg 0 1114111)))
       (.ite (.chr 7 (.rg 48 57))
         ((.mark 8) ;;
          (.put 9 0) ;;
          (.loop 10 true ((.look 11) ;; (.chr 11 (.rg 0 1114111)))
            (.ite (.chr 11 (.rg 48 57)) (.adv 1) (.ite (.chr 11 (.rg 45 45)) ((.adv 1) ;; (.put 9 1)) .brk))) ;;
          (.tok 8) ;;
          (.ret true))
         (.val true))
       (.val true)) ;;
     (.val false))

/-- `lex_text_or_keyword` (examples/oak-org-mode/src/lexer/mod.rs:41-70). -/
def lexTextOrKeyword : Code :=
  .scope 12
    ((.ite ((.look 12) ;; (.chr 12 (.rg 0 1114111)))
       (.ite (.chr 12 .alpha)
         ((.mark 13) ;;
          (.loop 14 true ((.look 15) ;; (.chr 15 (.rg 0 1114111))) (.ite (.chr 15 .alnum) (.advc 15) .brk)) ;;
          (.mark 16) ;;
          (.tokTo 13 16) ;;
          (.ret true))
         (.val true))
       (.val true)) ;;
     (.val false))

/-- `lex_symbols` (examples/oak-org-mode/src/lexer/mod.rs:124-163). -/
def lexSymbols : Code :=
  .scope 17
    (.ite ((.look 17) ;; (.chr 17 (.rg 0 1114111)))
      ((.mark 18) ;;
       (.advc 17) ;;
       (.ite (.chr 17 (.rg 43 43))
         (.val true)
         (.ite (.chr 17 (.rg 45 45))
           (.val true)
           (.ite (.chr 17 (.rg 42 42))
             (.val true)
             (.ite (.chr 17 (.rg 35 35))
               (.val true)
               (.ite (.chr 17 (.rg 124 124))
                 (.val true)
                 (.ite (.chr 17 (.rg 58 58))
                   (.val true)
                   (.ite (.chr 17 (.rg 91 91))
                     (.val true)
                     (.ite (.chr 17 (.rg 93 93))
                       (.val true)
                       (.ite (.chr 17 (.rg 40 40))
                         (.val true)
                         (.ite (.chr 17 (.rg 41 41))
                           (.val true)
                           (.ite (.chr 17 (.rg 123 123))
                             (.val true)
                             (.ite (.chr 17 (.rg 125 125))
                               (.val true)
                               (.ite (.chr 17 (.rg 60 60))
                                 (.val true)
                                 (.ite (.chr 17 (.rg 62 62))
                                   (.val true)
                                   (.ite (.chr 17 (.rg 61 61))
                                     (.val true)
                                     (.ite (.chr 17 (.rg 95 95))
                                       (.val true)
                                       (.ite (.chr 17 (.rg 126 126))
                                         (.val true)
                                         (.ite (.chr 17 (.rg 47 47))
                                           (.val true)
                                           (.ite (.chr 17 (.rg 92 92))
                                             (.val true)
                                             (.ite (.chr 17 (.rg 10 10)) (.val true) ((.tok 18) ;; (.ret true)))))))))))))))))))))) ;;
       (.tok 18) ;;
       (.val true))
      (.val false))

/-- `run` (examples/oak-org-mode/src/lexer/mod.rs:165-225). -/
def run_ : Code :=
  .scope 0
    (.loop 0 false .more
      ((.mark 1) ;;
       (.ite ((.look 2) ;; (.chr 2 (.rg 10 10))) ((.mark 3) ;; (.adv 1) ;; (.tok 3) ;; .cont) (.val true)) ;;
       (.ite skipWhitespace .cont (.val true)) ;;
       (.ite skipComment .cont (.val true)) ;;
       (.ite lexString .cont (.val true)) ;;
       (.ite lexPriority .cont (.val true)) ;;
       (.ite lexNumberOrDate .cont (.val true)) ;;
       (.ite lexTextOrKeyword .cont (.val true)) ;;
       (.ite lexSymbols .cont (.val true)) ;;
       (.mark 19) ;;
       (.ite ((.look 20) ;; (.chr 20 (.rg 0 1114111))) ((.advc 20) ;; (.tok 19)) .brk) ;;
       (.guard 1)))

end Oaks.HandLex.OrgMode
