import Verif.Model.Prog

/-
The parser of `oak-handlebars` (examples/oak-handlebars/src/parser) as a program: one definition for every function it calls, in the order of the
source. Kinds are the places of the variants in their enums.
-/
namespace Oaks.Hand.Handlebars
open Prog

/-- `HandlebarsTokenType::Whitespace` (oak-handlebars lexer/token_type.rs:12). -/
abbrev tWhitespace : Nat := 0
/-- `HandlebarsTokenType::Newline` (oak-handlebars lexer/token_type.rs:13). -/
abbrev tNewline : Nat := 1
/-- `HandlebarsTokenType::Open` (oak-handlebars lexer/token_type.rs:19). -/
abbrev tOpen : Nat := 3
/-- `HandlebarsTokenType::Close` (oak-handlebars lexer/token_type.rs:20). -/
abbrev tClose : Nat := 4
/-- `HandlebarsTokenType::OpenUnescaped` (oak-handlebars lexer/token_type.rs:21). -/
abbrev tOpenUnescaped : Nat := 5
/-- `HandlebarsTokenType::CloseUnescaped` (oak-handlebars lexer/token_type.rs:22). -/
abbrev tCloseUnescaped : Nat := 6
/-- `HandlebarsTokenType::OpenRawBlock` (oak-handlebars lexer/token_type.rs:23). -/
abbrev tOpenRawBlock : Nat := 7
/-- `HandlebarsTokenType::CloseRawBlock` (oak-handlebars lexer/token_type.rs:24). -/
abbrev tCloseRawBlock : Nat := 8
/-- `HandlebarsTokenType::OpenEndRawBlock` (oak-handlebars lexer/token_type.rs:25). -/
abbrev tOpenEndRawBlock : Nat := 9
/-- `HandlebarsTokenType::OpenBlock` (oak-handlebars lexer/token_type.rs:26). -/
abbrev tOpenBlock : Nat := 10
/-- `HandlebarsTokenType::OpenInverseBlock` (oak-handlebars lexer/token_type.rs:27). -/
abbrev tOpenInverseBlock : Nat := 11
/-- `HandlebarsTokenType::CloseBlock` (oak-handlebars lexer/token_type.rs:28). -/
abbrev tCloseBlock : Nat := 12
/-- `HandlebarsTokenType::OpenPartial` (oak-handlebars lexer/token_type.rs:29). -/
abbrev tOpenPartial : Nat := 13
/-- `HandlebarsTokenType::OpenComment` (oak-handlebars lexer/token_type.rs:30). -/
abbrev tOpenComment : Nat := 14
/-- `HandlebarsTokenType::OpenCommentBlock` (oak-handlebars lexer/token_type.rs:31). -/
abbrev tOpenCommentBlock : Nat := 15
/-- `HandlebarsTokenType::CloseCommentBlock` (oak-handlebars lexer/token_type.rs:32). -/
abbrev tCloseCommentBlock : Nat := 16
/-- `HandlebarsTokenType::Else` (oak-handlebars lexer/token_type.rs:35). -/
abbrev tElse : Nat := 17
/-- `HandlebarsTokenType::Identifier` (oak-handlebars lexer/token_type.rs:38). -/
abbrev tIdentifier : Nat := 18
/-- `HandlebarsTokenType::StringLiteral` (oak-handlebars lexer/token_type.rs:39). -/
abbrev tStringLiteral : Nat := 19
/-- `HandlebarsTokenType::NumberLiteral` (oak-handlebars lexer/token_type.rs:40). -/
abbrev tNumberLiteral : Nat := 20
/-- `HandlebarsTokenType::BooleanLiteral` (oak-handlebars lexer/token_type.rs:41). -/
abbrev tBooleanLiteral : Nat := 21
/-- `HandlebarsTokenType::Dot` (oak-handlebars lexer/token_type.rs:42). -/
abbrev tDot : Nat := 22
/-- `HandlebarsTokenType::Slash` (oak-handlebars lexer/token_type.rs:43). -/
abbrev tSlash : Nat := 23
/-- `HandlebarsTokenType::Equal` (oak-handlebars lexer/token_type.rs:47). -/
abbrev tEqual : Nat := 27
/-- `HandlebarsTokenType::LeftParen` (oak-handlebars lexer/token_type.rs:48). -/
abbrev tLeftParen : Nat := 28
/-- `HandlebarsTokenType::RightParen` (oak-handlebars lexer/token_type.rs:49). -/
abbrev tRightParen : Nat := 29
/-- `HandlebarsTokenType::Content` (oak-handlebars lexer/token_type.rs:55). -/
abbrev tContent : Nat := 33
/-- `HandlebarsElementType::Root` (oak-handlebars parser/element_type.rs:56). -/
abbrev eRoot : Nat := 34
/-- `HandlebarsElementType::Mustache` (oak-handlebars parser/element_type.rs:57). -/
abbrev eMustache : Nat := 35
/-- `HandlebarsElementType::Block` (oak-handlebars parser/element_type.rs:58). -/
abbrev eBlock : Nat := 36
/-- `HandlebarsElementType::InverseBlock` (oak-handlebars parser/element_type.rs:59). -/
abbrev eInverseBlock : Nat := 37
/-- `HandlebarsElementType::Partial` (oak-handlebars parser/element_type.rs:60). -/
abbrev ePartial : Nat := 38
/-- `HandlebarsElementType::CommentNode` (oak-handlebars parser/element_type.rs:61). -/
abbrev eCommentNode : Nat := 39
/-- `HandlebarsElementType::ContentNode` (oak-handlebars parser/element_type.rs:62). -/
abbrev eContentNode : Nat := 40
/-- `HandlebarsElementType::Expression` (oak-handlebars parser/element_type.rs:63). -/
abbrev eExpression : Nat := 41
/-- `HandlebarsElementType::SubExpression` (oak-handlebars parser/element_type.rs:64). -/
abbrev eSubExpression : Nat := 42
/-- `HandlebarsElementType::Path` (oak-handlebars parser/element_type.rs:65). -/
abbrev ePath : Nat := 43
/-- `HandlebarsElementType::Parameter` (oak-handlebars parser/element_type.rs:66). -/
abbrev eParameter : Nat := 44
/-- `HandlebarsElementType::ElseBlock` (oak-handlebars parser/element_type.rs:67). -/
abbrev eElseBlock : Nat := 45

/-- The number of `parse_item` (oak-handlebars parser/parse_top_level.rs:21-52). -/
abbrev pParseItem : Nat := 0
/-- The number of `parse_mustache` (oak-handlebars parser/parse_top_level.rs:54-65). -/
abbrev pParseMustache : Nat := 1
/-- The number of `parse_mustache_unescaped` (oak-handlebars parser/parse_top_level.rs:67-78). -/
abbrev pParseMustacheUnescaped : Nat := 2
/-- The number of `parse_block` (oak-handlebars parser/parse_top_level.rs:80-115). -/
abbrev pParseBlock : Nat := 3
/-- The number of `parse_inverse_block` (oak-handlebars parser/parse_top_level.rs:117-143). -/
abbrev pParseInverseBlock : Nat := 4
/-- The number of `parse_else_block` (oak-handlebars parser/parse_top_level.rs:145-157). -/
abbrev pParseElseBlock : Nat := 5
/-- The number of `parse_raw_block` (oak-handlebars parser/parse_top_level.rs:159-184). -/
abbrev pParseRawBlock : Nat := 6
/-- The number of `parse_partial` (oak-handlebars parser/parse_top_level.rs:186-202). -/
abbrev pParsePartial : Nat := 7
/-- The number of `parse_comment` (oak-handlebars parser/parse_top_level.rs:204-222). -/
abbrev pParseComment : Nat := 8
/-- The number of `parse_expression` (oak-handlebars parser/parse_top_level.rs:224-236). -/
abbrev pParseExpression : Nat := 9
/-- The number of `parse_parameter` (oak-handlebars parser/parse_top_level.rs:238-255). -/
abbrev pParseParameter : Nat := 10
/-- The number of `parse_value` (oak-handlebars parser/parse_top_level.rs:257-274). -/
abbrev pParseValue : Nat := 11
/-- The number of `parse_path` (oak-handlebars parser/parse_top_level.rs:276-287). -/
abbrev pParsePath : Nat := 12
/-- The number of `parse_sub_expression` (oak-handlebars parser/parse_top_level.rs:289-300). -/
abbrev pParseSubExpression : Nat := 13
/-- The number of `skip_trivia` (oak-handlebars parser/parse_top_level.rs:302-306). -/
abbrev pSkipTrivia : Nat := 14

/-- `parse_item` (oak-handlebars parser/parse_top_level.rs:21-52). -/
def parseItem : Prog :=
  block [
    when_ (not_ more)
      (fail 4 (fun v => v.index)),
    when_ more
      (ite (sees tContent)
        (mark (block [
          advance,
          close eContentNode]))
        (ite (sees tOpen)
          (call pParseMustache)
          (ite (sees tOpenUnescaped)
            (call pParseMustacheUnescaped)
            (ite (sees tOpenBlock)
              (call pParseBlock)
              (ite (sees tOpenInverseBlock)
                (call pParseInverseBlock)
                (ite (sees tOpenRawBlock)
                  (call pParseRawBlock)
                  (ite (sees tOpenPartial)
                    (call pParsePartial)
                    (ite (seesAny [tOpenComment, tOpenCommentBlock])
                      (call pParseComment)
                      (ite (seesAny [tWhitespace, tNewline])
                        advance
                        advance)))))))))]

/-- `parse_mustache` (oak-handlebars parser/parse_top_level.rs:54-65). -/
def parseMustache : Prog :=
  mark (block [
    need tOpen,
    call pSkipTrivia,
    call pParseExpression,
    call pSkipTrivia,
    need tClose,
    close eMustache])

/-- `parse_mustache_unescaped` (oak-handlebars parser/parse_top_level.rs:67-78). -/
def parseMustacheUnescaped : Prog :=
  mark (block [
    need tOpenUnescaped,
    call pSkipTrivia,
    call pParseExpression,
    call pSkipTrivia,
    need tCloseUnescaped,
    close eMustache])

/-- `parse_block` (oak-handlebars parser/parse_top_level.rs:80-115). -/
def parseBlock : Prog :=
  mark (block [
    need tOpenBlock,
    call pSkipTrivia,
    call pParseExpression,
    call pSkipTrivia,
    need tClose,
    loop (and_ more (not_ (sees tCloseBlock)))
      (block [
        when_ (sees tOpen)
          (when_ (val true)
            (when_ (ask (fun v => v.kindAt 1 == some tElse))
              (block [
                call pParseElseBlock,
                cont]))),
        call pParseItem]),
    when_ (sees tCloseBlock)
      (block [
        need tCloseBlock,
        call pSkipTrivia,
        call pParsePath,
        call pSkipTrivia,
        need tClose]),
    close eBlock])

/-- `parse_inverse_block` (oak-handlebars parser/parse_top_level.rs:117-143). -/
def parseInverseBlock : Prog :=
  mark (block [
    need tOpenInverseBlock,
    call pSkipTrivia,
    when_ (not_ (sees tClose))
      (block [
        call pParseExpression,
        call pSkipTrivia]),
    need tClose,
    loop (and_ more (not_ (sees tCloseBlock)))
      (call pParseItem),
    when_ (sees tCloseBlock)
      (block [
        need tCloseBlock,
        call pSkipTrivia,
        call pParsePath,
        call pSkipTrivia,
        need tClose]),
    close eInverseBlock])

/-- `parse_else_block` (oak-handlebars parser/parse_top_level.rs:145-157). -/
def parseElseBlock : Prog :=
  mark (block [
    need tOpen,
    need tElse,
    need tClose,
    loop (and_ more (not_ (sees tCloseBlock)))
      (call pParseItem),
    close eElseBlock])

/-- `parse_raw_block` (oak-handlebars parser/parse_top_level.rs:159-184). -/
def parseRawBlock : Prog :=
  mark (block [
    need tOpenRawBlock,
    call pSkipTrivia,
    call pParseExpression,
    call pSkipTrivia,
    need tCloseRawBlock,
    loop (and_ more (not_ (sees tOpenEndRawBlock)))
      advance,
    when_ (sees tOpenEndRawBlock)
      (block [
        need tOpenEndRawBlock,
        call pSkipTrivia,
        call pParsePath,
        call pSkipTrivia,
        need tCloseRawBlock]),
    close eBlock])

/-- `parse_partial` (oak-handlebars parser/parse_top_level.rs:186-202). -/
def parsePartial : Prog :=
  mark (block [
    need tOpenPartial,
    call pSkipTrivia,
    call pParsePath,
    call pSkipTrivia,
    loop (and_ more (not_ (sees tClose)))
      (block [
        call pParseParameter,
        call pSkipTrivia]),
    need tClose,
    close ePartial])

/-- `parse_comment` (oak-handlebars parser/parse_top_level.rs:204-222). -/
def parseComment : Prog :=
  mark (block [
    ite (sees tOpenComment)
      (block [
        need tOpenComment,
        loop (and_ more (not_ (sees tClose)))
          advance,
        need tClose])
      (block [
        need tOpenCommentBlock,
        loop (and_ more (not_ (sees tCloseCommentBlock)))
          advance,
        need tCloseCommentBlock]),
    close eCommentNode])

/-- `parse_expression` (oak-handlebars parser/parse_top_level.rs:224-236). -/
def parseExpression : Prog :=
  mark (block [
    call pParsePath,
    loop (and_ (and_ more (not_ (sees tClose))) (not_ (sees tCloseUnescaped)))
      (block [
        call pSkipTrivia,
        ite (or_ (or_ (or_ (sees tIdentifier) (sees tStringLiteral)) (sees tNumberLiteral)) (sees tBooleanLiteral))
          (call pParseParameter)
          brk]),
    close eExpression])

/-- `parse_parameter` (oak-handlebars parser/parse_top_level.rs:238-255). -/
def parseParameter : Prog :=
  block [
    when_ (sees tIdentifier)
      (when_ (val true)
        (when_ (ask (fun v => v.kindAt 1 == some tEqual))
          (block [
            mark (block [
              need tIdentifier,
              need tEqual,
              call pParseValue,
              close eParameter]),
            ret true]))),
    call pParseValue]

/-- `parse_value` (oak-handlebars parser/parse_top_level.rs:257-274). -/
def parseValue : Prog :=
  ite (sees tIdentifier)
    (call pParsePath)
    (ite (or_ (or_ (sees tStringLiteral) (sees tNumberLiteral)) (sees tBooleanLiteral))
      advance
      (ite (sees tLeftParen)
        (call pParseSubExpression)
        (fail 1 (fun v => v.index))))

/-- `parse_path` (oak-handlebars parser/parse_top_level.rs:276-287). -/
def parsePath : Prog :=
  mark (block [
    need tIdentifier,
    loop (or_ (sees tDot) (sees tSlash))
      (block [
        advance,
        need tIdentifier]),
    close ePath])

/-- `parse_sub_expression` (oak-handlebars parser/parse_top_level.rs:289-300). -/
def parseSubExpression : Prog :=
  mark (block [
    need tLeftParen,
    call pSkipTrivia,
    call pParseExpression,
    call pSkipTrivia,
    need tRightParen,
    close eSubExpression])

/-- `skip_trivia` (oak-handlebars parser/parse_top_level.rs:302-306). -/
def skipTrivia : Prog :=
  loop (or_ (sees tWhitespace) (sees tNewline))
    advance

/-- `parse_root_internal` between the checkpoint and the last `finish_at` (oak-handlebars parser/parse_top_level.rs:11-19). -/
def main : Prog :=
  loop more
    (call pParseItem)

/-- The parser (`parse_root_internal`, oak-handlebars parser/parse_top_level.rs:11-19; `is_ignored`, oak-handlebars lexer/token_type.rs:80-82). -/
def parser : HandParser where
  ign := []
  fromStart := false
  root := eRoot
  main := main
  procs := [parseItem, parseMustache, parseMustacheUnescaped, parseBlock, parseInverseBlock, parseElseBlock, parseRawBlock, parsePartial, parseComment, parseExpression, parseParameter, parseValue, parsePath, parseSubExpression, skipTrivia]

end Oaks.Hand.Handlebars
