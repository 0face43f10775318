import Verif.Model.LexCode

/-
The lexer of the example `oak-ascii-doc` as a program of Model/LexCode.lean, function by function in the order of
the calls. Kinds of tokens and messages are left out.
-/
namespace Oaks.HandLex.AsciiDoc

open Oaks.Lc

/-- `skip_whitespace` (examples/oak-ascii-doc/src/lexer/mod.rs:96-98). -/
def skipWhitespace : Code :=
  .scope 2
    (.space true)

/-- `skip_comment` (examples/oak-ascii-doc/src/lexer/mod.rs:100-102). -/
def skipComment : Code :=
  .scope 2
    (.comment ⟨['/', '/'], [], [], false⟩)

/-- `lex_header` (examples/oak-ascii-doc/src/lexer/mod.rs:105-139). -/
def lexHeader : Code :=
  .scope 2
    ((.mark 2) ;;
     (.ite (.starts ['=', '=', '=', '=', '=', '=']) ((.adv 6) ;; (.tok 2) ;; (.ret true)) (.val true)) ;;
     (.ite (.starts ['=', '=', '=', '=', '=']) ((.adv 5) ;; (.tok 2) ;; (.ret true)) (.val true)) ;;
     (.ite (.starts ['=', '=', '=', '=']) ((.adv 4) ;; (.tok 2) ;; (.ret true)) (.val true)) ;;
     (.ite (.starts ['=', '=', '=']) ((.adv 3) ;; (.tok 2) ;; (.ret true)) (.val true)) ;;
     (.ite (.starts ['=', '=']) ((.adv 2) ;; (.tok 2) ;; (.ret true)) (.val true)) ;;
     (.ite (.starts ['=']) ((.adv 1) ;; (.tok 2) ;; (.ret true)) (.val true)) ;;
     (.val false))

/-- `lex_bold` (examples/oak-ascii-doc/src/lexer/mod.rs:142-151). -/
def lexBold : Code :=
  .scope 3
    ((.mark 3) ;; (.ite (.starts ['*', '*']) ((.adv 2) ;; (.tok 3) ;; (.ret true)) (.val true)) ;; (.val false))

/-- `lex_italic` (examples/oak-ascii-doc/src/lexer/mod.rs:154-165). -/
def lexItalic : Code :=
  .scope 4
    ((.mark 4) ;;
     (.ite ((.look 5) ;; (.chr 5 (.rg 0 1114111)))
       (.ite (.chr 5 (.rg 42 42)) ((.adv 1) ;; (.tok 4) ;; (.ret true)) (.val true))
       (.val true)) ;;
     (.val false))

/-- `lex_monospace` (examples/oak-ascii-doc/src/lexer/mod.rs:168-179). -/
def lexMonospace : Code :=
  .scope 6
    ((.mark 6) ;;
     (.ite ((.look 7) ;; (.chr 7 (.rg 0 1114111)))
       (.ite (.chr 7 (.rg 96 96)) ((.adv 1) ;; (.tok 6) ;; (.ret true)) (.val true))
       (.val true)) ;;
     (.val false))

/-- `lex_code_block` (examples/oak-ascii-doc/src/lexer/mod.rs:182-192). -/
def lexCodeBlock : Code :=
  .scope 8
    ((.mark 8) ;;
     (.val true) ;;
     (.ite (.restStarts ['-', '-', '-', '-']) ((.adv 4) ;; (.tok 8) ;; (.ret true)) (.val true)) ;;
     (.val false))

/-- `lex_link` (examples/oak-ascii-doc/src/lexer/mod.rs:195-205). -/
def lexLink : Code :=
  .scope 9
    ((.mark 9) ;;
     (.val true) ;;
     (.ite (.restStarts ['l', 'i', 'n', 'k', ':']) ((.adv 5) ;; (.tok 9) ;; (.ret true)) (.val true)) ;;
     (.val false))

/-- `lex_list_item` (examples/oak-ascii-doc/src/lexer/mod.rs:208-222). -/
def lexListItem : Code :=
  .scope 10
    ((.mark 10) ;;
     (.ite ((.look 11) ;; (.chr 11 (.rg 0 1114111)))
       (.ite (.chr 11 (.or (.or (.rg 42 42) (.rg 45 45)) (.rg 43 43)))
         ((.adv 1) ;; (.tok 10) ;; (.ret true))
         (.val true))
       (.val true)) ;;
     (.val false))

/-- `lex_delimiter` (examples/oak-ascii-doc/src/lexer/mod.rs:225-245). -/
def lexDelimiter : Code :=
  .scope 12
    ((.mark 12) ;;
     (.ite ((.look 13) ;; (.chr 13 (.rg 0 1114111)))
       ((.ite (.chr 13 (.rg 91 91))
          (.val true)
          (.ite (.chr 13 (.rg 93 93))
            (.val true)
            (.ite (.chr 13 (.rg 40 40))
              (.val true)
              (.ite (.chr 13 (.rg 41 41))
                (.val true)
                (.ite (.chr 13 (.rg 58 58))
                  (.val true)
                  (.ite (.chr 13 (.rg 44 44))
                    (.val true)
                    (.ite (.chr 13 (.rg 46 46)) (.val true) (.ite (.chr 13 (.rg 10 10)) (.val true) (.ret false))))))))) ;;
        (.advc 13) ;;
        (.tok 12) ;;
        (.ret true))
       (.val true)) ;;
     (.val false))

/-- `lex_text` (examples/oak-ascii-doc/src/lexer/mod.rs:248-264). -/
def lexText : Code :=
  .scope 14
    ((.mark 14) ;;
     (.ite ((.look 15) ;; (.chr 15 (.rg 0 1114111)))
       (.ite (.ite (.chr 15 .alnum) (.val true) (.chr 15 (.rg 95 95)))
         ((.advc 15) ;;
          (.loop 16 true ((.look 17) ;; (.chr 17 (.rg 0 1114111)))
            (.ite (.ite (.ite (.chr 17 .alnum) (.val true) (.chr 17 (.rg 95 95))) (.val true) (.chr 17 (.rg 32 32)))
              (.advc 17)
              .brk)) ;;
          (.tok 14) ;;
          (.ret true))
         (.val true))
       (.val true)) ;;
     (.val false))

/-- `run` (examples/oak-ascii-doc/src/lexer/mod.rs:41-93). -/
def run_ : Code :=
  .scope 0
    (.loop 0 false .more
      ((.mark 1) ;;
       (.ite skipWhitespace .cont (.val true)) ;;
       (.ite skipComment .cont (.val true)) ;;
       (.ite lexHeader .cont (.val true)) ;;
       (.ite lexBold .cont (.val true)) ;;
       (.ite lexItalic .cont (.val true)) ;;
       (.ite lexMonospace .cont (.val true)) ;;
       (.ite lexCodeBlock .cont (.val true)) ;;
       (.ite lexLink .cont (.val true)) ;;
       (.ite lexListItem .cont (.val true)) ;;
       (.ite lexDelimiter .cont (.val true)) ;;
       (.ite lexText .cont (.val true)) ;;
       (.guard 1)))

end Oaks.HandLex.AsciiDoc
