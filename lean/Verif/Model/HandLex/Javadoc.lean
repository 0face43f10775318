import Verif.Model.LexCode

/-
The lexer of the example `oak-javadoc` as a program of Model/LexCode.lean, function by function in the order of
the calls. Kinds of tokens and messages are left out.
-/
namespace Oaks.HandLex.Javadoc

open Oaks.Lc

/-- `skip_whitespace` (examples/oak-javadoc/src/lexer/mod.rs:23-37). -/
def skipWhitespace : Code :=
  .scope 2
    ((.mark 2) ;;
     (.loop 3 true ((.look 4) ;; (.chr 4 (.rg 0 1114111)))
       (.ite (.ite (.chr 4 (.rg 32 32)) (.val true) (.chr 4 (.rg 9 9))) (.advc 4) .brk)) ;;
     (.ite (.moved 2) ((.tok 2) ;; (.val true)) (.val false)))

/-- `lex_newline` (examples/oak-javadoc/src/lexer/mod.rs:40-59). -/
def lexNewline : Code :=
  .scope 5
    ((.mark 5) ;;
     (.ite ((.look 8) ;; (.chr 8 (.rg 10 10)))
       ((.adv 1) ;; (.tok 5) ;; (.val true))
       (.ite ((.look 6) ;; (.chr 6 (.rg 13 13)))
         ((.adv 1) ;; (.ite ((.look 7) ;; (.chr 7 (.rg 10 10))) (.adv 1) (.val true)) ;; (.tok 5) ;; (.val true))
         (.val false))))

/-- `lex_comment_start` (examples/oak-javadoc/src/lexer/mod.rs:62-89). -/
def lexCommentStart : Code :=
  .scope 9
    ((.mark 9) ;;
     (.ite ((.look 10) ;; (.chr 10 (.rg 47 47)))
       ((.adv 1) ;;
        (.ite ((.look 11) ;; (.chr 11 (.rg 42 42)))
          ((.adv 1) ;;
           (.ite ((.look 12) ;; (.chr 12 (.rg 42 42)))
             ((.adv 1) ;; (.tok 9) ;; (.val true))
             ((.goto 9) ;; (.val false))))
          ((.goto 9) ;; (.val false))))
       (.val false)))

/-- `lex_comment_end` (examples/oak-javadoc/src/lexer/mod.rs:92-111). -/
def lexCommentEnd : Code :=
  .scope 13
    ((.mark 13) ;;
     (.ite ((.look 14) ;; (.chr 14 (.rg 42 42)))
       ((.adv 1) ;;
        (.ite ((.look 15) ;; (.chr 15 (.rg 47 47)))
          ((.adv 1) ;; (.tok 13) ;; (.val true))
          ((.goto 13) ;; (.val false))))
       (.val false)))

/-- `lex_tag` (examples/oak-javadoc/src/lexer/mod.rs:114-157). -/
def lexTag : Code :=
  .scope 16
    ((.mark 16) ;;
     (.ite ((.look 17) ;; (.chr 17 (.rg 64 64)))
       ((.adv 1) ;;
        (.val true) ;;
        (.loop 18 true ((.look 19) ;; (.chr 19 (.rg 0 1114111)))
          (.ite (.ite (.chr 19 .alpha) (.val true) (.chr 19 (.rg 95 95))) (.advc 19) .brk)) ;;
        (.val true) ;;
        (.tok 16) ;;
        (.val true))
       (.val false)))

/-- `lex_html_tag` (examples/oak-javadoc/src/lexer/mod.rs:160-227). -/
def lexHtmlTag : Code :=
  .scope 20
    ((.mark 20) ;;
     (.ite ((.look 21) ;; (.chr 21 (.rg 60 60)))
       ((.adv 1) ;;
        (.put 22 0) ;;
        (.ite ((.look 23) ;; (.chr 23 (.rg 47 47))) ((.put 22 1) ;; (.adv 1)) (.val true)) ;;
        (.val true) ;;
        (.loop 24 true ((.look 25) ;; (.chr 25 (.rg 0 1114111)))
          (.ite (.ite (.ite (.chr 25 .alpha) (.val true) (.chr 25 (.rg 48 57))) (.val true) (.chr 25 (.rg 45 45)))
            (.advc 25)
            .brk)) ;;
        (.loop 26 true ((.look 27) ;; (.chr 27 (.rg 0 1114111)))
          (.ite (.chr 27 (.rg 62 62))
            ((.adv 1) ;; .brk)
            (.ite (.chr 27 (.rg 60 60)) ((.goto 20) ;; (.ret false)) (.advc 27)))) ;;
        (.val true) ;;
        (.tok 20) ;;
        (.val true))
       (.val false)))

/-- `lex_asterisk` (examples/oak-javadoc/src/lexer/mod.rs:250-261). -/
def lexAsterisk : Code :=
  .scope 28
    ((.mark 28) ;; (.ite ((.look 29) ;; (.chr 29 (.rg 42 42))) ((.adv 1) ;; (.tok 28) ;; (.val true)) (.val false)))

/-- `lex_text` (examples/oak-javadoc/src/lexer/mod.rs:230-247). -/
def lexText : Code :=
  .scope 30
    ((.mark 30) ;;
     (.loop 31 true ((.look 32) ;; (.chr 32 (.rg 0 1114111)))
       ((.ite (.ite (.ite (.ite (.ite (.ite (.ite (.ite (.chr 32 (.rg 64 64)) (.val true) (.chr 32 (.rg 60 60)))
                      (.val true)
                      (.chr 32 (.rg 42 42)))
                    (.val true)
                    (.chr 32 (.rg 47 47)))
                  (.val true)
                  (.chr 32 (.rg 10 10)))
                (.val true)
                (.chr 32 (.rg 13 13)))
              (.val true)
              (.chr 32 (.rg 32 32)))
            (.val true)
            (.chr 32 (.rg 9 9)))
          .brk
          (.val true)) ;;
        (.advc 32))) ;;
     (.ite (.moved 30) ((.tok 30) ;; (.val true)) (.val false)))

/-- `run` (examples/oak-javadoc/src/lexer/mod.rs:277-326). -/
def run_ : Code :=
  .scope 0
    (.loop 0 false .more
      ((.mark 1) ;;
       (.ite skipWhitespace .cont (.val true)) ;;
       (.ite lexNewline .cont (.val true)) ;;
       (.ite lexCommentStart .cont (.val true)) ;;
       (.ite lexCommentEnd .cont (.val true)) ;;
       (.ite lexTag .cont (.val true)) ;;
       (.ite lexHtmlTag .cont (.val true)) ;;
       (.ite lexAsterisk .cont (.val true)) ;;
       (.ite lexText .cont (.val true)) ;;
       (.ite ((.look 33) ;; (.chr 33 (.rg 0 1114111))) ((.mark 34) ;; (.advc 33) ;; (.tok 34)) (.val true)) ;;
       (.guard 1)))

end Oaks.HandLex.Javadoc
