import Verif.Model.LexCode

/-
The lexer of the example `oak-nginx` as a program of Model/LexCode.lean, function by function in the order of
the calls. Kinds of tokens and messages are left out.
-/
namespace Oaks.HandLex.Nginx

open Oaks.Lc

/-- `skip_whitespace` (examples/oak-nginx/src/lexer/mod.rs:20-39). -/
def skipWhitespace : Code :=
  .scope 2
    ((.mark 2) ;;
     (.loop 3 true ((.look 4) ;; (.chr 4 (.rg 0 1114111)))
       (.ite (.ite (.chr 4 (.rg 32 32)) (.val true) (.chr 4 (.rg 9 9))) (.advc 4) .brk)) ;;
     (.ite (.moved 2) ((.tok 2) ;; (.val true)) (.val false)))

/-- `lex_newline` (examples/oak-nginx/src/lexer/mod.rs:42-61). -/
def lexNewline : Code :=
  .scope 5
    ((.mark 5) ;;
     (.ite ((.look 8) ;; (.chr 8 (.rg 10 10)))
       ((.adv 1) ;; (.tok 5) ;; (.val true))
       (.ite ((.look 6) ;; (.chr 6 (.rg 13 13)))
         ((.adv 1) ;; (.ite ((.look 7) ;; (.chr 7 (.rg 10 10))) (.adv 1) (.val true)) ;; (.tok 5) ;; (.val true))
         (.val false))))

/-- `lex_comment` (examples/oak-nginx/src/lexer/mod.rs:64-84). -/
def lexComment : Code :=
  .scope 9
    ((.mark 9) ;;
     (.ite ((.look 10) ;; (.chr 10 (.rg 35 35)))
       ((.adv 1) ;;
        (.loop 11 true ((.look 12) ;; (.chr 12 (.rg 0 1114111)))
          ((.ite (.ite (.chr 12 (.rg 10 10)) (.val true) (.chr 12 (.rg 13 13))) .brk (.val true)) ;; (.advc 12))) ;;
        (.tok 9) ;;
        (.val true))
       (.val false)))

/-- `lex_string` (examples/oak-nginx/src/lexer/mod.rs:87-118). -/
def lexString : Code :=
  .scope 13
    ((.mark 13) ;;
     (.ite ((.look 14) ;; (.chr 14 (.rg 0 1114111)))
       ((.ite (.ite (.ite (.chr 14 (.rg 34 34)) (.val false) (.val true))
            (.ite (.chr 14 (.rg 39 39)) (.val false) (.val true))
            (.val false))
          (.ret false)
          (.val true)) ;;
        (.adv 1) ;;
        (.loop 15 true ((.look 16) ;; (.chr 16 (.rg 0 1114111)))
          (.ite (.same 16 14)
            ((.adv 1) ;; .brk)
            (.ite (.chr 16 (.rg 92 92))
              ((.adv 1) ;; (.ite ((.look 17) ;; (.chr 17 (.rg 0 1114111))) (.advc 17) (.val true)))
              (.advc 16)))) ;;
        (.tok 13) ;;
        (.val true))
       (.val false)))

/-- The prefix of an address, `state.advance(scheme_len)` (examples/oak-nginx/src/lexer/mod.rs:208-209). -/
def httpPrefix : Code := .ite (.starts ['h', 't', 't', 'p', 's', ':', '/', '/']) (.adv 8) (.adv 7)

/-- `lex_url` (examples/oak-nginx/src/lexer/mod.rs:203-226). The prefix is taken in each of the two cases of the condition. -/
def lexUrl : Code :=
  .scope 18
    ((.mark 18) ;;
     (.ite (.ite (.starts ['h', 't', 't', 'p', ':', '/', '/'])
         (httpPrefix ;; (.val true))
         (.ite (.starts ['h', 't', 't', 'p', 's', ':', '/', '/']) (httpPrefix ;; (.val true)) (.val false)))
       ((.loop 20 true ((.look 21) ;; (.chr 21 (.rg 0 1114111)))
          (.ite (.ite (.ite (.ite (.ite (.ite (.ite (.ite (.ite (.chr 21 (.or (.or (.rg 48 57) (.rg 65 90)) (.rg 97 122)))
                            (.val true)
                            (.chr 21 (.rg 46 46)))
                          (.val true)
                          (.chr 21 (.rg 47 47)))
                        (.val true)
                        (.chr 21 (.rg 58 58)))
                      (.val true)
                      (.chr 21 (.rg 45 45)))
                    (.val true)
                    (.chr 21 (.rg 95 95)))
                  (.val true)
                  (.chr 21 (.rg 63 63)))
                (.val true)
                (.chr 21 (.rg 38 38)))
              (.val true)
              (.chr 21 (.rg 61 61)))
            (.advc 21)
            .brk)) ;;
        (.tok 18) ;;
        (.val true))
       (.val false)))

/-- `lex_path` (examples/oak-nginx/src/lexer/mod.rs:179-200). -/
def lexPath : Code :=
  .scope 22
    ((.mark 22) ;;
     (.ite ((.look 23) ;; (.chr 23 (.rg 47 47)))
       ((.adv 1) ;;
        (.loop 24 true ((.look 25) ;; (.chr 25 (.rg 0 1114111)))
          (.ite (.ite (.ite (.ite (.ite (.ite (.chr 25 (.or (.or (.rg 48 57) (.rg 65 90)) (.rg 97 122)))
                      (.val true)
                      (.chr 25 (.rg 47 47)))
                    (.val true)
                    (.chr 25 (.rg 46 46)))
                  (.val true)
                  (.chr 25 (.rg 45 45)))
                (.val true)
                (.chr 25 (.rg 95 95)))
              (.val true)
              (.chr 25 (.rg 42 42)))
            (.advc 25)
            .brk)) ;;
        (.tok 22) ;;
        (.val true))
       (.val false)))

/-- `lex_number` (examples/oak-nginx/src/lexer/mod.rs:121-176). -/
def lexNumber : Code :=
  .scope 26
    ((.mark 26) ;;
     (.ite ((.look 27) ;; (.chr 27 (.rg 0 1114111)))
       ((.ite (.ite (.chr 27 (.rg 48 57)) (.val false) (.val true)) (.ret false) (.val true)) ;;
        (.loop 28 true ((.look 29) ;; (.chr 29 (.rg 0 1114111))) (.ite (.chr 29 (.rg 48 57)) (.advc 29) .brk)) ;;
        (.ite ((.look 30) ;; (.chr 30 (.rg 46 46)))
          (.ite ((.lookN 31 1) ;; (.chr 31 (.rg 0 1114111)))
            (.ite (.chr 31 (.rg 48 57))
              ((.adv 1) ;;
               (.loop 32 true ((.look 33) ;; (.chr 33 (.rg 0 1114111))) (.ite (.chr 33 (.rg 48 57)) (.advc 33) .brk)))
              (.val true))
            (.val true))
          (.val true)) ;;
        (.ite ((.look 34) ;; (.chr 34 (.rg 0 1114111)))
          (.ite (.chr 34 (.or (.rg 65 90) (.rg 97 122)))
            (.loop 35 true ((.look 36) ;; (.chr 36 (.rg 0 1114111)))
              (.ite (.chr 36 (.or (.rg 65 90) (.rg 97 122))) (.advc 36) .brk))
            (.val true))
          (.val true)) ;;
        (.tok 26) ;;
        (.val true))
       (.val false)))

/-- `lex_identifier` (examples/oak-nginx/src/lexer/mod.rs:229-270). -/
def lexIdentifier : Code :=
  .scope 37
    ((.mark 37) ;;
     (.ite ((.look 38) ;; (.chr 38 (.rg 0 1114111)))
       ((.ite (.ite (.ite (.ite (.chr 38 (.or (.or (.rg 48 57) (.rg 65 90)) (.rg 97 122))) (.val false) (.val true))
              (.ite (.chr 38 (.rg 95 95)) (.val false) (.val true))
              (.val false))
            (.ite (.chr 38 (.rg 36 36)) (.val false) (.val true))
            (.val false))
          (.ret false)
          (.val true)) ;;
        (.loop 39 true ((.look 40) ;; (.chr 40 (.rg 0 1114111)))
          (.ite (.ite (.ite (.chr 40 (.or (.or (.rg 48 57) (.rg 65 90)) (.rg 97 122))) (.val true) (.chr 40 (.rg 95 95)))
              (.val true)
              (.chr 40 (.rg 36 36)))
            (.advc 40)
            .brk)) ;;
        (.mark 41) ;;
        (.val true) ;;
        (.val true) ;;
        (.tokTo 37 41) ;;
        (.val true))
       (.val false)))

/-- `lex_delimiter` (examples/oak-nginx/src/lexer/mod.rs:273-291). -/
def lexDelimiter : Code :=
  .scope 42
    ((.mark 42) ;;
     (.ite ((.look 43) ;; (.chr 43 (.rg 0 1114111)))
       ((.ite (.chr 43 (.rg 123 123))
          (.val true)
          (.ite (.chr 43 (.rg 125 125)) (.val true) (.ite (.chr 43 (.rg 59 59)) (.val true) (.ret false)))) ;;
        (.advc 43) ;;
        (.tok 42) ;;
        (.val true))
       (.val false)))

/-- `run` (examples/oak-nginx/src/lexer/mod.rs:293-341). -/
def run_ : Code :=
  .scope 0
    (.loop 0 false .more
      ((.mark 1) ;;
       (.ite skipWhitespace .cont (.val true)) ;;
       (.ite lexNewline .cont (.val true)) ;;
       (.ite lexComment .cont (.val true)) ;;
       (.ite lexString .cont (.val true)) ;;
       (.ite lexUrl .cont (.val true)) ;;
       (.ite lexPath .cont (.val true)) ;;
       (.ite lexNumber .cont (.val true)) ;;
       (.ite lexIdentifier .cont (.val true)) ;;
       (.ite lexDelimiter .cont (.val true)) ;;
       (.guard 1) ;;
       (.ite (.moved 1) (.tok 1) (.val true))))

end Oaks.HandLex.Nginx
