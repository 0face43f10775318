import Verif.Model.Prog

/-
The parser of `oak-sql` (examples/oak-sql/src/parser) as a program: one definition for every function it calls, in the order of the
source. Kinds are the places of the variants in their enums.
-/
namespace Oaks.Hand.Sql
open Prog

/-- `SqlTokenType::Whitespace` (oak-sql lexer/token_type.rs:153). -/
abbrev tWhitespace : Nat := 19
/-- `SqlTokenType::Newline` (oak-sql lexer/token_type.rs:154). -/
abbrev tNewline : Nat := 20
/-- `SqlTokenType::Comment` (oak-sql lexer/token_type.rs:157). -/
abbrev tComment : Nat := 21
/-- `SqlTokenType::LineComment` (oak-sql lexer/token_type.rs:158). -/
abbrev tLineComment : Nat := 22
/-- `SqlTokenType::BlockComment` (oak-sql lexer/token_type.rs:159). -/
abbrev tBlockComment : Nat := 23
/-- `SqlTokenType::NumberLiteral` (oak-sql lexer/token_type.rs:162). -/
abbrev tNumberLiteral : Nat := 24
/-- `SqlTokenType::StringLiteral` (oak-sql lexer/token_type.rs:164). -/
abbrev tStringLiteral : Nat := 26
/-- `SqlTokenType::BooleanLiteral` (oak-sql lexer/token_type.rs:165). -/
abbrev tBooleanLiteral : Nat := 27
/-- `SqlTokenType::NullLiteral` (oak-sql lexer/token_type.rs:166). -/
abbrev tNullLiteral : Nat := 28
/-- `SqlTokenType::Identifier_` (oak-sql lexer/token_type.rs:169). -/
abbrev tIdentifier_ : Nat := 29
/-- `SqlTokenType::Select` (oak-sql lexer/token_type.rs:172). -/
abbrev tSelect : Nat := 30
/-- `SqlTokenType::From` (oak-sql lexer/token_type.rs:173). -/
abbrev tFrom : Nat := 31
/-- `SqlTokenType::Where` (oak-sql lexer/token_type.rs:174). -/
abbrev tWhere : Nat := 32
/-- `SqlTokenType::Insert` (oak-sql lexer/token_type.rs:175). -/
abbrev tInsert : Nat := 33
/-- `SqlTokenType::Into` (oak-sql lexer/token_type.rs:176). -/
abbrev tInto : Nat := 34
/-- `SqlTokenType::Values` (oak-sql lexer/token_type.rs:177). -/
abbrev tValues : Nat := 35
/-- `SqlTokenType::Update` (oak-sql lexer/token_type.rs:178). -/
abbrev tUpdate : Nat := 36
/-- `SqlTokenType::Set` (oak-sql lexer/token_type.rs:179). -/
abbrev tSet : Nat := 37
/-- `SqlTokenType::Delete` (oak-sql lexer/token_type.rs:180). -/
abbrev tDelete : Nat := 38
/-- `SqlTokenType::Create` (oak-sql lexer/token_type.rs:181). -/
abbrev tCreate : Nat := 39
/-- `SqlTokenType::Drop` (oak-sql lexer/token_type.rs:183). -/
abbrev tDrop : Nat := 41
/-- `SqlTokenType::Alter` (oak-sql lexer/token_type.rs:184). -/
abbrev tAlter : Nat := 42
/-- `SqlTokenType::And` (oak-sql lexer/token_type.rs:197). -/
abbrev tAnd : Nat := 55
/-- `SqlTokenType::Or` (oak-sql lexer/token_type.rs:198). -/
abbrev tOr : Nat := 56
/-- `SqlTokenType::In` (oak-sql lexer/token_type.rs:199). -/
abbrev tIn : Nat := 57
/-- `SqlTokenType::Like` (oak-sql lexer/token_type.rs:200). -/
abbrev tLike : Nat := 58
/-- `SqlTokenType::Between` (oak-sql lexer/token_type.rs:201). -/
abbrev tBetween : Nat := 59
/-- `SqlTokenType::Is` (oak-sql lexer/token_type.rs:202). -/
abbrev tIs : Nat := 60
/-- `SqlTokenType::Join` (oak-sql lexer/token_type.rs:204). -/
abbrev tJoin : Nat := 62
/-- `SqlTokenType::Inner` (oak-sql lexer/token_type.rs:205). -/
abbrev tInner : Nat := 63
/-- `SqlTokenType::Left` (oak-sql lexer/token_type.rs:206). -/
abbrev tLeft : Nat := 64
/-- `SqlTokenType::Right` (oak-sql lexer/token_type.rs:207). -/
abbrev tRight : Nat := 65
/-- `SqlTokenType::Full` (oak-sql lexer/token_type.rs:208). -/
abbrev tFull : Nat := 66
/-- `SqlTokenType::Outer` (oak-sql lexer/token_type.rs:209). -/
abbrev tOuter : Nat := 67
/-- `SqlTokenType::On` (oak-sql lexer/token_type.rs:210). -/
abbrev tOn : Nat := 68
/-- `SqlTokenType::Group` (oak-sql lexer/token_type.rs:211). -/
abbrev tGroup : Nat := 69
/-- `SqlTokenType::By` (oak-sql lexer/token_type.rs:212). -/
abbrev tBy : Nat := 70
/-- `SqlTokenType::Having` (oak-sql lexer/token_type.rs:213). -/
abbrev tHaving : Nat := 71
/-- `SqlTokenType::Order` (oak-sql lexer/token_type.rs:214). -/
abbrev tOrder : Nat := 72
/-- `SqlTokenType::Asc` (oak-sql lexer/token_type.rs:215). -/
abbrev tAsc : Nat := 73
/-- `SqlTokenType::Desc` (oak-sql lexer/token_type.rs:216). -/
abbrev tDesc : Nat := 74
/-- `SqlTokenType::Limit` (oak-sql lexer/token_type.rs:217). -/
abbrev tLimit : Nat := 75
/-- `SqlTokenType::Offset` (oak-sql lexer/token_type.rs:218). -/
abbrev tOffset : Nat := 76
/-- `SqlTokenType::Plus` (oak-sql lexer/token_type.rs:259). -/
abbrev tPlus : Nat := 113
/-- `SqlTokenType::Minus` (oak-sql lexer/token_type.rs:260). -/
abbrev tMinus : Nat := 114
/-- `SqlTokenType::Star` (oak-sql lexer/token_type.rs:261). -/
abbrev tStar : Nat := 115
/-- `SqlTokenType::Slash` (oak-sql lexer/token_type.rs:262). -/
abbrev tSlash : Nat := 116
/-- `SqlTokenType::Percent` (oak-sql lexer/token_type.rs:263). -/
abbrev tPercent : Nat := 117
/-- `SqlTokenType::Equal` (oak-sql lexer/token_type.rs:264). -/
abbrev tEqual : Nat := 118
/-- `SqlTokenType::NotEqual` (oak-sql lexer/token_type.rs:265). -/
abbrev tNotEqual : Nat := 119
/-- `SqlTokenType::Less` (oak-sql lexer/token_type.rs:266). -/
abbrev tLess : Nat := 120
/-- `SqlTokenType::Greater` (oak-sql lexer/token_type.rs:267). -/
abbrev tGreater : Nat := 121
/-- `SqlTokenType::LessEqual` (oak-sql lexer/token_type.rs:268). -/
abbrev tLessEqual : Nat := 122
/-- `SqlTokenType::GreaterEqual` (oak-sql lexer/token_type.rs:269). -/
abbrev tGreaterEqual : Nat := 123
/-- `SqlTokenType::LeftParen` (oak-sql lexer/token_type.rs:280). -/
abbrev tLeftParen : Nat := 132
/-- `SqlTokenType::RightParen` (oak-sql lexer/token_type.rs:281). -/
abbrev tRightParen : Nat := 133
/-- `SqlTokenType::Comma` (oak-sql lexer/token_type.rs:286). -/
abbrev tComma : Nat := 138
/-- `SqlTokenType::Semicolon` (oak-sql lexer/token_type.rs:287). -/
abbrev tSemicolon : Nat := 139
/-- `SqlElementType::Root` (oak-sql parser/element_type.rs:8). -/
abbrev eRoot : Nat := 0
/-- `SqlElementType::Identifier` (oak-sql parser/element_type.rs:9). -/
abbrev eIdentifier : Nat := 1
/-- `SqlElementType::Expression` (oak-sql parser/element_type.rs:10). -/
abbrev eExpression : Nat := 2
/-- `SqlElementType::ErrorNode` (oak-sql parser/element_type.rs:11). -/
abbrev eErrorNode : Nat := 3
/-- `SqlElementType::SelectStatement` (oak-sql parser/element_type.rs:12). -/
abbrev eSelectStatement : Nat := 4
/-- `SqlElementType::InsertStatement` (oak-sql parser/element_type.rs:13). -/
abbrev eInsertStatement : Nat := 5
/-- `SqlElementType::UpdateStatement` (oak-sql parser/element_type.rs:14). -/
abbrev eUpdateStatement : Nat := 6
/-- `SqlElementType::DeleteStatement` (oak-sql parser/element_type.rs:15). -/
abbrev eDeleteStatement : Nat := 7
/-- `SqlElementType::CreateStatement` (oak-sql parser/element_type.rs:16). -/
abbrev eCreateStatement : Nat := 8
/-- `SqlElementType::DropStatement` (oak-sql parser/element_type.rs:17). -/
abbrev eDropStatement : Nat := 9
/-- `SqlElementType::AlterStatement` (oak-sql parser/element_type.rs:18). -/
abbrev eAlterStatement : Nat := 10
/-- `SqlElementType::JoinClause` (oak-sql parser/element_type.rs:19). -/
abbrev eJoinClause : Nat := 11
/-- `SqlElementType::GroupByClause` (oak-sql parser/element_type.rs:20). -/
abbrev eGroupByClause : Nat := 12
/-- `SqlElementType::HavingClause` (oak-sql parser/element_type.rs:21). -/
abbrev eHavingClause : Nat := 13
/-- `SqlElementType::OrderByClause` (oak-sql parser/element_type.rs:22). -/
abbrev eOrderByClause : Nat := 14
/-- `SqlElementType::LimitClause` (oak-sql parser/element_type.rs:23). -/
abbrev eLimitClause : Nat := 15

/-- The number of `primary` (oak-sql parser/mod.rs:21-44). -/
abbrev pPrimary : Nat := 0
/-- The number of `prefix` (oak-sql parser/mod.rs:46-48). -/
abbrev pPrefix : Nat := 1
/-- The number of `parse_statement` (oak-sql parser/mod.rs:88-104). -/
abbrev pParseStatement : Nat := 2
/-- The number of `parse_select` (oak-sql parser/mod.rs:106-195). -/
abbrev pParseSelect : Nat := 3
/-- The number of `parse_insert` (oak-sql parser/mod.rs:197-217). -/
abbrev pParseInsert : Nat := 4
/-- The number of `parse_update` (oak-sql parser/mod.rs:219-243). -/
abbrev pParseUpdate : Nat := 5
/-- The number of `parse_delete` (oak-sql parser/mod.rs:245-259). -/
abbrev pParseDelete : Nat := 6
/-- The number of `parse_create` (oak-sql parser/mod.rs:261-269). -/
abbrev pParseCreate : Nat := 7
/-- The number of `parse_drop` (oak-sql parser/mod.rs:271-279). -/
abbrev pParseDrop : Nat := 8
/-- The number of `parse_alter` (oak-sql parser/mod.rs:281-289). -/
abbrev pParseAlter : Nat := 9
/-- The precedences expressions are parsed with (oak-sql parser/mod.rs:50-68). -/
abbrev levels : List Nat := [0, 2, 3, 4, 11, 12]
/-- The number of `PrattParser::parse` with a precedence (oak-core parser/pratt.rs:237-243): after the other functions. -/
abbrev pPratt (min : Nat) : Nat := 10 + levels.idxOf min

/-- `primary` (oak-sql parser/mod.rs:21-44). -/
def primary : Prog :=
  mark (ite (sees tIdentifier_)
    (block [
      bump,
      close eIdentifier])
    (ite (seesAny [tNumberLiteral, tStringLiteral, tBooleanLiteral, tNullLiteral])
      (block [
        bump,
        close eExpression])
      (ite (sees tLeftParen)
        (block [
          bump,
          call (pPratt 0),
          expect tRightParen,
          close eExpression])
        (block [
          bump,
          close eErrorNode]))))

/-- `prefix` (oak-sql parser/mod.rs:46-48). -/
def prefix_ : Prog :=
  call pPrimary

/-- `parse_statement` (oak-sql parser/mod.rs:88-104). -/
def parseStatement : Prog :=
  ite (sees tSelect)
    (call pParseSelect)
    (ite (sees tInsert)
      (call pParseInsert)
      (ite (sees tUpdate)
        (call pParseUpdate)
        (ite (sees tDelete)
          (call pParseDelete)
          (ite (sees tCreate)
            (call pParseCreate)
            (ite (sees tDrop)
              (call pParseDrop)
              (ite (sees tAlter)
                (call pParseAlter)
                (block [
                  loop (and_ more (not_ (sees tSemicolon)))
                    advance,
                  eat tSemicolon])))))))

/-- `parse_select` (oak-sql parser/mod.rs:106-195). -/
def parseSelect : Prog :=
  mark (block [
    expect tSelect,
    loop (and_ more (not_ (sees tFrom)))
      (block [
        call (pPratt 0),
        eat tComma]),
    when_ (eat tFrom)
      (block [
        expect tIdentifier_,
        loop more
          (ite (seesAny [tJoin, tInner, tLeft, tRight, tFull])
            (mark (block [
              when_ (not_ (sees tJoin))
                (block [
                  bump,
                  eat tOuter]),
              expect tJoin,
              expect tIdentifier_,
              when_ (eat tOn)
                (call (pPratt 0)),
              close eJoinClause]))
            brk)]),
    when_ (eat tWhere)
      (call (pPratt 0)),
    when_ (eat tGroup)
      (mark (block [
        expect tBy,
        loop more
          (block [
            call (pPratt 0),
            when_ (not_ (eat tComma))
              brk]),
        close eGroupByClause])),
    when_ (eat tHaving)
      (mark (block [
        call (pPratt 0),
        close eHavingClause])),
    when_ (eat tOrder)
      (mark (block [
        expect tBy,
        loop more
          (block [
            call (pPratt 0),
            when_ (or_ (eat tAsc) (eat tDesc))
              (val true),
            when_ (not_ (eat tComma))
              brk]),
        close eOrderByClause])),
    ite (eat tLimit)
      (mark (block [
        expect tNumberLiteral,
        when_ (eat tOffset)
          (expect tNumberLiteral),
        close eLimitClause]))
      (when_ (eat tOffset)
        (mark (block [
          expect tNumberLiteral,
          close eLimitClause]))),
    eat tSemicolon,
    close eSelectStatement])

/-- `parse_insert` (oak-sql parser/mod.rs:197-217). -/
def parseInsert : Prog :=
  mark (block [
    expect tInsert,
    eat tInto,
    expect tIdentifier_,
    when_ (eat tValues)
      (when_ (eat tLeftParen)
        (block [
          loop (and_ more (not_ (sees tRightParen)))
            (block [
              call (pPratt 0),
              eat tComma]),
          expect tRightParen])),
    eat tSemicolon,
    close eInsertStatement])

/-- `parse_update` (oak-sql parser/mod.rs:219-243). -/
def parseUpdate : Prog :=
  mark (block [
    expect tUpdate,
    expect tIdentifier_,
    when_ (eat tSet)
      (loop (and_ (and_ more (not_ (sees tWhere))) (not_ (sees tSemicolon)))
        (block [
          expect tIdentifier_,
          expect tEqual,
          call (pPratt 0),
          when_ (not_ (eat tComma))
            brk])),
    when_ (eat tWhere)
      (call (pPratt 0)),
    eat tSemicolon,
    close eUpdateStatement])

/-- `parse_delete` (oak-sql parser/mod.rs:245-259). -/
def parseDelete : Prog :=
  mark (block [
    expect tDelete,
    eat tFrom,
    expect tIdentifier_,
    when_ (eat tWhere)
      (call (pPratt 0)),
    eat tSemicolon,
    close eDeleteStatement])

/-- `parse_create` (oak-sql parser/mod.rs:261-269). -/
def parseCreate : Prog :=
  mark (block [
    bump,
    loop (and_ more (not_ (sees tSemicolon)))
      advance,
    eat tSemicolon,
    close eCreateStatement])

/-- `parse_drop` (oak-sql parser/mod.rs:271-279). -/
def parseDrop : Prog :=
  mark (block [
    bump,
    loop (and_ more (not_ (sees tSemicolon)))
      advance,
    eat tSemicolon,
    close eDropStatement])

/-- `parse_alter` (oak-sql parser/mod.rs:281-289). -/
def parseAlter : Prog :=
  mark (block [
    bump,
    loop (and_ more (not_ (sees tSemicolon)))
      advance,
    eat tSemicolon,
    close eAlterStatement])

/-- `infix` (oak-sql parser/mod.rs:50-68) with a least precedence. -/
def infix_ (min : Nat) : Prog :=
  ite more
    (ite (sees tOr)
      (level min 1
        (block [
          bump,
          call (pPratt 2),
          close eExpression]))
      (ite (sees tAnd)
        (level min 2
          (block [
            bump,
            call (pPratt 3),
            close eExpression]))
        (ite (seesAny [tEqual, tNotEqual, tLess, tGreater, tLessEqual, tGreaterEqual, tLike, tIn, tBetween, tIs])
          (level min 3
            (block [
              bump,
              call (pPratt 4),
              close eExpression]))
          (ite (seesAny [tPlus, tMinus])
            (level min 10
              (block [
                bump,
                call (pPratt 11),
                close eExpression]))
            (ite (seesAny [tStar, tSlash, tPercent])
              (level min 11
                (block [
                  bump,
                  call (pPratt 12),
                  close eExpression]))
              (val false))))))
    (val false)

/-- `PrattParser::parse` (oak-core parser/pratt.rs:237-243): `left` always begins at the checkpoint. -/
def pratt (min : Nat) : Prog :=
  mark (block [call pPrefix, loop (infix_ min) (val true)])

/-- `parse_root_internal` between the checkpoint and the last `finish_at` (oak-sql parser/mod.rs:76-86). -/
def main : Prog :=
  loop more
    (block [
      when_ (seesAny [tWhitespace, tNewline, tComment, tLineComment, tBlockComment])
        (block [
          advance,
          cont]),
      call pParseStatement])

/-- The parser (`parse_root_internal`, oak-sql parser/mod.rs:76-86; `is_ignored`, oak-sql lexer/token_type.rs:11-13). -/
def parser : HandParser where
  ign := [tWhitespace, tNewline, tComment, tLineComment, tBlockComment]
  fromStart := false
  root := eRoot
  main := main
  procs := [primary, prefix_, parseStatement, parseSelect, parseInsert, parseUpdate, parseDelete, parseCreate, parseDrop, parseAlter] ++ levels.map pratt

end Oaks.Hand.Sql
