import Verif.Model.LexCode

/-
The lexer of the example `oak-django` as a program of Model/LexCode.lean, function by function in the order of
the calls. Kinds of tokens and messages are left out.
-/
namespace Oaks.HandLex.Django

open Oaks.Lc

/-- `skip_whitespace` (examples/oak-django/src/lexer/mod.rs:86-88). -/
def skipWhitespace : Code :=
  .scope 2
    (.space true)

/-- `skip_comment` (examples/oak-django/src/lexer/mod.rs:91-109). -/
def skipComment : Code :=
  .scope 2
    ((.ite (.restStarts ['{', '#'])
       ((.mark 2) ;;
        (.adv 2) ;;
        (.loop 3 true .more ((.ite (.restStarts ['#', '}']) ((.adv 2) ;; .brk) (.val true)) ;; (.adv 1))) ;;
        (.tok 2) ;;
        (.ret true))
       (.val true)) ;;
     (.val false))

/-- `lex_string` (examples/oak-django/src/lexer/mod.rs:112-114). -/
def lexString : Code :=
  .scope 4
    (.ite (.quoted ⟨['"'], some '\\'⟩) (.val true) (.quoted ⟨['\''], some '\\'⟩))

/-- `lex_string_manual` (examples/oak-django/src/lexer/mod.rs:260-296). -/
def lexStringManual : Code :=
  .scope 4
    ((.mark 4) ;;
     (.ite ((.look 5) ;; (.chr 5 (.rg 0 1114111)))
       (.ite (.ite (.chr 5 (.rg 34 34)) (.val true) (.chr 5 (.rg 39 39)))
         ((.adv 1) ;;
          (.loop 6 true ((.look 7) ;; (.chr 7 (.rg 0 1114111)))
            (.ite (.same 7 5)
              ((.adv 1) ;; (.tok 4) ;; (.ret true))
              (.ite (.chr 7 (.rg 92 92))
                ((.adv 1) ;; (.ite ((.look 8) ;; (.chr 8 (.rg 0 1114111))) (.adv 1) (.val true)))
                (.advc 7)))) ;;
          (.tok 4) ;;
          (.val true))
         (.val false))
       (.val false)))

/-- `lex_number` (examples/oak-django/src/lexer/mod.rs:202-256). -/
def lexNumber : Code :=
  .scope 9
    ((.mark 9) ;;
     (.ite ((.look 10) ;; (.chr 10 (.rg 0 1114111)))
       (.ite (.chr 10 (.rg 48 57))
         ((.advc 10) ;;
          (.loop 11 true ((.look 12) ;; (.chr 12 (.rg 0 1114111))) (.ite (.chr 12 (.rg 48 57)) (.advc 12) .brk)) ;;
          (.ite ((.look 13) ;; (.chr 13 (.rg 46 46)))
            ((.mark 14) ;;
             (.adv 1) ;;
             (.ite ((.look 15) ;; (.chr 15 (.rg 0 1114111)))
               (.ite (.chr 15 (.rg 48 57))
                 (.loop 16 true ((.look 17) ;; (.chr 17 (.rg 0 1114111)))
                   (.ite (.chr 17 (.rg 48 57)) (.advc 17) .brk))
                 (.goto 14))
               (.goto 14)))
            (.val true)) ;;
          (.tok 9) ;;
          (.val true))
         (.val false))
       (.val false)))

/-- `lex_identifier_or_keyword` (examples/oak-django/src/lexer/mod.rs:139-198). -/
def lexIdentifierOrKeyword : Code :=
  .scope 18
    ((.mark 18) ;;
     (.ite ((.look 19) ;; (.chr 19 (.rg 0 1114111)))
       (.ite (.ite (.chr 19 .alpha) (.val true) (.chr 19 (.rg 95 95)))
         ((.advc 19) ;;
          (.loop 20 true ((.look 21) ;; (.chr 21 (.rg 0 1114111)))
            (.ite (.ite (.chr 21 .alnum) (.val true) (.chr 21 (.rg 95 95))) (.advc 21) .brk)) ;;
          (.mark 22) ;;
          (.val true) ;;
          (.val true) ;;
          (.tok 18) ;;
          (.val true))
         (.val false))
       (.val false)))

/-- `lex_django_tags` (examples/oak-django/src/lexer/mod.rs:299-365). -/
def lexDjangoTags : Code :=
  .scope 23
    ((.mark 23) ;;
     (.ite ((.look 28) ;; (.chr 28 (.rg 123 123)))
       ((.adv 1) ;;
        (.ite ((.look 29) ;; (.chr 29 (.rg 0 1114111)))
          (.ite (.chr 29 (.rg 123 123))
            ((.adv 1) ;; (.tok 23) ;; (.val true))
            (.ite (.chr 29 (.rg 37 37))
              ((.adv 1) ;; (.tok 23) ;; (.val true))
              (.ite (.chr 29 (.rg 35 35)) ((.adv 1) ;; (.tok 23) ;; (.val true)) ((.goto 23) ;; (.val false)))))
          ((.goto 23) ;; (.val false))))
       (.ite ((.look 26) ;; (.chr 26 (.rg 37 37)))
         ((.adv 1) ;;
          (.ite ((.look 27) ;; (.chr 27 (.rg 125 125)))
            ((.adv 1) ;; (.tok 23) ;; (.val true))
            ((.goto 23) ;; (.val false))))
         (.ite ((.look 24) ;; (.chr 24 (.rg 125 125)))
           ((.adv 1) ;;
            (.ite ((.look 25) ;; (.chr 25 (.rg 125 125)))
              ((.adv 1) ;; (.tok 23) ;; (.val true))
              ((.goto 23) ;; (.val false))))
           (.val false)))))

/-- `lex_operator` (examples/oak-django/src/lexer/mod.rs:368-460). -/
def lexOperator : Code :=
  .scope 30
    ((.mark 30) ;;
     (.ite ((.look 31) ;; (.chr 31 (.rg 0 1114111)))
       ((.ite (.chr 31 (.rg 61 61))
          ((.adv 1) ;; (.ite ((.look 36) ;; (.chr 36 (.rg 61 61))) ((.adv 1) ;; (.put 32 1)) (.put 32 1)))
          (.ite (.chr 31 (.rg 33 33))
            ((.adv 1) ;; (.ite ((.look 35) ;; (.chr 35 (.rg 61 61))) ((.adv 1) ;; (.put 32 1)) (.put 32 0)))
            (.ite (.chr 31 (.rg 60 60))
              ((.adv 1) ;; (.ite ((.look 34) ;; (.chr 34 (.rg 61 61))) ((.adv 1) ;; (.put 32 1)) (.put 32 1)))
              (.ite (.chr 31 (.rg 62 62))
                ((.adv 1) ;; (.ite ((.look 33) ;; (.chr 33 (.rg 61 61))) ((.adv 1) ;; (.put 32 1)) (.put 32 1)))
                (.ite (.chr 31 (.rg 124 124))
                  ((.adv 1) ;; (.put 32 1))
                  (.ite (.chr 31 (.rg 58 58))
                    ((.adv 1) ;; (.put 32 1))
                    (.ite (.chr 31 (.rg 46 46))
                      ((.adv 1) ;; (.put 32 1))
                      (.ite (.chr 31 (.rg 44 44))
                        ((.adv 1) ;; (.put 32 1))
                        (.ite (.chr 31 (.rg 43 43))
                          ((.adv 1) ;; (.put 32 1))
                          (.ite (.chr 31 (.rg 45 45))
                            ((.adv 1) ;; (.put 32 1))
                            (.ite (.chr 31 (.rg 42 42))
                              ((.adv 1) ;; (.put 32 1))
                              (.ite (.chr 31 (.rg 47 47)) ((.adv 1) ;; (.put 32 1)) (.put 32 0))))))))))))) ;;
        (.ite (.flag 32) ((.tok 30) ;; (.val true)) ((.goto 30) ;; (.val false))))
       (.val false)))

/-- `lex_delimiter` (examples/oak-django/src/lexer/mod.rs:463-488). -/
def lexDelimiter : Code :=
  .scope 37
    ((.mark 37) ;;
     (.ite ((.look 38) ;; (.chr 38 (.rg 0 1114111)))
       ((.ite (.chr 38 (.rg 40 40))
          (.put 39 1)
          (.ite (.chr 38 (.rg 41 41))
            (.put 39 1)
            (.ite (.chr 38 (.rg 91 91))
              (.put 39 1)
              (.ite (.chr 38 (.rg 93 93)) (.put 39 1) (.ite (.chr 38 (.rg 59 59)) (.put 39 1) (.put 39 0)))))) ;;
        (.ite (.flag 39) ((.adv 1) ;; (.tok 37) ;; (.val true)) (.val false)))
       (.val false)))

/-- `lex_html_text` (examples/oak-django/src/lexer/mod.rs:491-516). -/
def lexHtmlText : Code :=
  .scope 40
    ((.mark 40) ;;
     (.loop 41 true ((.look 42) ;; (.chr 42 (.rg 0 1114111)))
       ((.ite (.chr 42 (.rg 123 123))
          ((.mark 43) ;;
           (.adv 1) ;;
           (.ite ((.look 44) ;; (.chr 44 (.rg 0 1114111)))
             (.ite (.ite (.ite (.chr 44 (.rg 123 123)) (.val true) (.chr 44 (.rg 37 37)))
                 (.val true)
                 (.chr 44 (.rg 35 35)))
               ((.goto 43) ;; .brk)
               (.val true))
             (.val true)))
          (.val true)) ;;
        (.advc 42))) ;;
     (.ite (.moved 40) ((.tok 40) ;; (.val true)) (.val false)))

/-- `run` (examples/oak-django/src/lexer/mod.rs:40-83). -/
def run_ : Code :=
  .scope 0
    (.loop 0 false .more
      ((.mark 1) ;;
       (.ite skipWhitespace .cont (.val true)) ;;
       (.ite skipComment .cont (.val true)) ;;
       (.ite (.ite lexString (.val true) lexStringManual) .cont (.val true)) ;;
       (.ite lexNumber .cont (.val true)) ;;
       (.ite lexIdentifierOrKeyword .cont (.val true)) ;;
       (.ite lexDjangoTags .cont (.val true)) ;;
       (.ite lexOperator .cont (.val true)) ;;
       (.ite lexDelimiter .cont (.val true)) ;;
       (.ite lexHtmlText .cont (.val true)) ;;
       (.guard 1)))

end Oaks.HandLex.Django
