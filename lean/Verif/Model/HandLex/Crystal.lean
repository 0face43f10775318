import Verif.Model.LexCode

/-
The lexer of the example `oak-crystal` as a program of Model/LexCode.lean, function by function in the order of
the calls. Kinds of tokens and messages are left out.
-/
namespace Oaks.HandLex.Crystal

open Oaks.Lc

/-- `skip_whitespace` (examples/oak-crystal/src/lexer/mod.rs:83-97). -/
def skipWhitespace : Code :=
  .scope 2
    ((.mark 2) ;;
     (.loop 3 true ((.look 4) ;; (.chr 4 (.rg 0 1114111)))
       (.ite (.ite (.chr 4 (.rg 32 32)) (.val true) (.chr 4 (.rg 9 9))) (.advc 4) .brk)) ;;
     (.ite (.moved 2) ((.tok 2) ;; (.val true)) (.val false)))

/-- `lex_newline` (examples/oak-crystal/src/lexer/mod.rs:100-119). -/
def lexNewline : Code :=
  .scope 5
    ((.mark 5) ;;
     (.ite ((.look 8) ;; (.chr 8 (.rg 10 10)))
       ((.adv 1) ;; (.tok 5) ;; (.val true))
       (.ite ((.look 6) ;; (.chr 6 (.rg 13 13)))
         ((.adv 1) ;; (.ite ((.look 7) ;; (.chr 7 (.rg 10 10))) (.adv 1) (.val true)) ;; (.tok 5) ;; (.val true))
         (.val false))))

/-- `lex_comment` (examples/oak-crystal/src/lexer/mod.rs:122-142). -/
def lexComment : Code :=
  .scope 9
    ((.mark 9) ;;
     (.ite ((.look 10) ;; (.chr 10 (.rg 35 35)))
       ((.adv 1) ;;
        (.loop 11 true ((.look 12) ;; (.chr 12 (.rg 0 1114111)))
          ((.ite (.ite (.chr 12 (.rg 10 10)) (.val true) (.chr 12 (.rg 13 13))) .brk (.val true)) ;; (.advc 12))) ;;
        (.tok 9) ;;
        (.val true))
       (.val false)))

/-- `lex_string` (examples/oak-crystal/src/lexer/mod.rs:145-178). -/
def lexString : Code :=
  .scope 13
    ((.mark 13) ;;
     (.ite ((.look 14) ;; (.chr 14 (.rg 0 1114111)))
       (.ite (.ite (.chr 14 (.rg 34 34)) (.val true) (.chr 14 (.rg 39 39)))
         ((.adv 1) ;;
          (.loop 15 true ((.look 16) ;; (.chr 16 (.rg 0 1114111)))
            (.ite (.same 16 14)
              ((.adv 1) ;; .brk)
              (.ite (.chr 16 (.rg 92 92))
                ((.adv 1) ;; (.ite ((.look 17) ;; (.chr 17 (.rg 0 1114111))) (.adv 1) (.val true)))
                (.advc 16)))) ;;
          (.tok 13) ;;
          (.val true))
         (.val false))
       (.val false)))

/-- `lex_number` (examples/oak-crystal/src/lexer/mod.rs:181-202). -/
def lexNumber : Code :=
  .scope 18
    ((.mark 18) ;;
     (.ite ((.look 19) ;; (.chr 19 (.rg 0 1114111)))
       (.ite (.chr 19 (.rg 48 57))
         ((.adv 1) ;;
          (.loop 20 true ((.look 21) ;; (.chr 21 (.rg 0 1114111)))
            (.ite (.ite (.ite (.chr 21 (.rg 48 57)) (.val true) (.chr 21 (.rg 46 46))) (.val true) (.chr 21 (.rg 95 95)))
              (.adv 1)
              .brk)) ;;
          (.tok 18) ;;
          (.val true))
         (.val false))
       (.val false)))

/-- `lex_keyword_or_identifier` (examples/oak-crystal/src/lexer/mod.rs:205-264). -/
def lexKeywordOrIdentifier : Code :=
  .scope 22
    ((.mark 22) ;;
     (.ite ((.look 23) ;; (.chr 23 (.rg 0 1114111)))
       (.ite (.ite (.chr 23 (.or (.rg 65 90) (.rg 97 122))) (.val true) (.chr 23 (.rg 95 95)))
         ((.advc 23) ;;
          (.loop 24 true ((.look 25) ;; (.chr 25 (.rg 0 1114111)))
            (.ite (.ite (.ite (.ite (.chr 25 (.or (.or (.rg 48 57) (.rg 65 90)) (.rg 97 122))) (.val true) (.chr 25 (.rg 95 95)))
                  (.val true)
                  (.chr 25 (.rg 63 63)))
                (.val true)
                (.chr 25 (.rg 33 33)))
              (.advc 25)
              .brk)) ;;
          (.mark 26) ;;
          (.val true) ;;
          (.val true) ;;
          (.tok 22) ;;
          (.val true))
         (.val false))
       (.val false)))

/-- `lex_operator` (examples/oak-crystal/src/lexer/mod.rs:267-469). -/
def lexOperator : Code :=
  .scope 27
    ((.mark 27) ;;
     (.ite ((.look 28) ;; (.chr 28 (.rg 0 1114111)))
       ((.ite (.chr 28 (.rg 43 43))
          ((.adv 1) ;; (.ite ((.look 53) ;; (.chr 53 (.rg 61 61))) (.adv 1) (.val true)))
          (.ite (.chr 28 (.rg 45 45))
            ((.adv 1) ;; (.ite ((.look 52) ;; (.chr 52 (.rg 61 61))) (.adv 1) (.val true)))
            (.ite (.chr 28 (.rg 42 42))
              ((.adv 1) ;;
               (.ite ((.look 50) ;; (.chr 50 (.rg 42 42)))
                 ((.adv 1) ;; (.ite ((.look 51) ;; (.chr 51 (.rg 61 61))) (.adv 1) (.val true)))
                 (.ite ((.look 49) ;; (.chr 49 (.rg 61 61))) (.adv 1) (.val true))))
              (.ite (.chr 28 (.rg 47 47))
                ((.adv 1) ;; (.ite ((.look 48) ;; (.chr 48 (.rg 61 61))) (.adv 1) (.val true)))
                (.ite (.chr 28 (.rg 37 37))
                  ((.adv 1) ;; (.ite ((.look 47) ;; (.chr 47 (.rg 61 61))) (.adv 1) (.val true)))
                  (.ite (.chr 28 (.rg 61 61))
                    ((.adv 1) ;;
                     (.ite ((.look 46) ;; (.chr 46 (.rg 61 61)))
                       (.adv 1)
                       (.ite ((.look 45) ;; (.chr 45 (.rg 126 126))) (.adv 1) (.val true))))
                    (.ite (.chr 28 (.rg 33 33))
                      ((.adv 1) ;;
                       (.ite ((.look 44) ;; (.chr 44 (.rg 61 61)))
                         (.adv 1)
                         (.ite ((.look 43) ;; (.chr 43 (.rg 126 126))) (.adv 1) (.val true))))
                      (.ite (.chr 28 (.rg 60 60))
                        ((.adv 1) ;;
                         (.ite ((.look 41) ;; (.chr 41 (.rg 61 61)))
                           ((.adv 1) ;; (.ite ((.look 42) ;; (.chr 42 (.rg 62 62))) (.adv 1) (.val true)))
                           (.ite ((.look 39) ;; (.chr 39 (.rg 60 60)))
                             ((.adv 1) ;; (.ite ((.look 40) ;; (.chr 40 (.rg 61 61))) (.adv 1) (.val true)))
                             (.val true))))
                        (.ite (.chr 28 (.rg 62 62))
                          ((.adv 1) ;;
                           (.ite ((.look 38) ;; (.chr 38 (.rg 61 61)))
                             (.adv 1)
                             (.ite ((.look 36) ;; (.chr 36 (.rg 62 62)))
                               ((.adv 1) ;; (.ite ((.look 37) ;; (.chr 37 (.rg 61 61))) (.adv 1) (.val true)))
                               (.val true))))
                          (.ite (.chr 28 (.rg 38 38))
                            ((.adv 1) ;;
                             (.ite ((.look 34) ;; (.chr 34 (.rg 38 38)))
                               ((.adv 1) ;; (.ite ((.look 35) ;; (.chr 35 (.rg 61 61))) (.adv 1) (.val true)))
                               (.ite ((.look 33) ;; (.chr 33 (.rg 61 61))) (.adv 1) (.val true))))
                            (.ite (.chr 28 (.rg 124 124))
                              ((.adv 1) ;;
                               (.ite ((.look 31) ;; (.chr 31 (.rg 124 124)))
                                 ((.adv 1) ;; (.ite ((.look 32) ;; (.chr 32 (.rg 61 61))) (.adv 1) (.val true)))
                                 (.ite ((.look 30) ;; (.chr 30 (.rg 61 61))) (.adv 1) (.val true))))
                              (.ite (.chr 28 (.rg 94 94))
                                ((.adv 1) ;; (.ite ((.look 29) ;; (.chr 29 (.rg 61 61))) (.adv 1) (.val true)))
                                (.ite (.chr 28 (.rg 126 126)) (.adv 1) (.ret false)))))))))))))) ;;
        (.tok 27) ;;
        (.val true))
       (.val false)))

/-- `lex_delimiter` (examples/oak-crystal/src/lexer/mod.rs:472-562). -/
def lexDelimiter : Code :=
  .scope 54
    ((.mark 54) ;;
     (.ite ((.look 55) ;; (.chr 55 (.rg 0 1114111)))
       ((.ite (.chr 55 (.rg 40 40))
          (.adv 1)
          (.ite (.chr 55 (.rg 41 41))
            (.adv 1)
            (.ite (.chr 55 (.rg 123 123))
              (.adv 1)
              (.ite (.chr 55 (.rg 125 125))
                (.adv 1)
                (.ite (.chr 55 (.rg 91 91))
                  (.adv 1)
                  (.ite (.chr 55 (.rg 93 93))
                    (.adv 1)
                    (.ite (.chr 55 (.rg 44 44))
                      (.adv 1)
                      (.ite (.chr 55 (.rg 59 59))
                        (.adv 1)
                        (.ite (.chr 55 (.rg 46 46))
                          ((.adv 1) ;;
                           (.ite ((.look 58) ;; (.chr 58 (.rg 46 46)))
                             ((.adv 1) ;; (.ite ((.look 59) ;; (.chr 59 (.rg 46 46))) (.adv 1) (.val true)))
                             (.val true)))
                          (.ite (.chr 55 (.rg 58 58))
                            ((.adv 1) ;; (.ite ((.look 57) ;; (.chr 57 (.rg 58 58))) (.adv 1) (.val true)))
                            (.ite (.chr 55 (.rg 63 63))
                              (.adv 1)
                              (.ite (.chr 55 (.rg 64 64))
                                ((.adv 1) ;; (.ite ((.look 56) ;; (.chr 56 (.rg 64 64))) (.adv 1) (.val true)))
                                (.ite (.chr 55 (.rg 36 36)) (.adv 1) (.ret false)))))))))))))) ;;
        (.tok 54) ;;
        (.val true))
       (.val false)))

/-- `run` (examples/oak-crystal/src/lexer/mod.rs:33-80). -/
def run_ : Code :=
  .scope 0
    (.loop 0 false .more
      ((.mark 1) ;;
       (.ite skipWhitespace .cont (.val true)) ;;
       (.ite lexNewline .cont (.val true)) ;;
       (.ite lexComment .cont (.val true)) ;;
       (.ite lexString .cont (.val true)) ;;
       (.ite lexNumber .cont (.val true)) ;;
       (.ite lexKeywordOrIdentifier .cont (.val true)) ;;
       (.ite lexOperator .cont (.val true)) ;;
       (.ite lexDelimiter .cont (.val true)) ;;
       (.mark 60) ;;
       (.ite ((.look 61) ;; (.chr 61 (.rg 0 1114111))) ((.advc 61) ;; (.tok 60)) (.val true)) ;;
       (.guard 1)))

end Oaks.HandLex.Crystal
