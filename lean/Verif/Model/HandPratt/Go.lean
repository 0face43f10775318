import Verif.Model.Prog

/-
The parser of `oak-go` (examples/oak-go/src/parser) as a program: one definition for every function it calls, in the order of the
source. Kinds are the places of the variants in their enums.
-/
namespace Oaks.Hand.Go
open Prog

/-- `GoTokenType::IntLiteral` (oak-go lexer/token_type.rs:59). -/
abbrev tIntLiteral : Nat := 44
/-- `GoTokenType::FloatLiteral` (oak-go lexer/token_type.rs:60). -/
abbrev tFloatLiteral : Nat := 45
/-- `GoTokenType::StringLiteral` (oak-go lexer/token_type.rs:61). -/
abbrev tStringLiteral : Nat := 46
/-- `GoTokenType::RuneLiteral` (oak-go lexer/token_type.rs:62). -/
abbrev tRuneLiteral : Nat := 47
/-- `GoTokenType::BoolLiteral` (oak-go lexer/token_type.rs:63). -/
abbrev tBoolLiteral : Nat := 48
/-- `GoTokenType::Identifier` (oak-go lexer/token_type.rs:66). -/
abbrev tIdentifier : Nat := 49
/-- `GoTokenType::Const` (oak-go lexer/token_type.rs:72). -/
abbrev tConst : Nat := 53
/-- `GoTokenType::Else` (oak-go lexer/token_type.rs:76). -/
abbrev tElse : Nat := 57
/-- `GoTokenType::For` (oak-go lexer/token_type.rs:78). -/
abbrev tFor : Nat := 59
/-- `GoTokenType::Func` (oak-go lexer/token_type.rs:79). -/
abbrev tFunc : Nat := 60
/-- `GoTokenType::If` (oak-go lexer/token_type.rs:82). -/
abbrev tIf : Nat := 63
/-- `GoTokenType::Import` (oak-go lexer/token_type.rs:83). -/
abbrev tImport : Nat := 64
/-- `GoTokenType::Package` (oak-go lexer/token_type.rs:86). -/
abbrev tPackage : Nat := 67
/-- `GoTokenType::Return` (oak-go lexer/token_type.rs:88). -/
abbrev tReturn : Nat := 69
/-- `GoTokenType::Switch` (oak-go lexer/token_type.rs:91). -/
abbrev tSwitch : Nat := 72
/-- `GoTokenType::Type` (oak-go lexer/token_type.rs:92). -/
abbrev tType : Nat := 73
/-- `GoTokenType::Var` (oak-go lexer/token_type.rs:93). -/
abbrev tVar : Nat := 74
/-- `GoTokenType::NilLiteral` (oak-go lexer/token_type.rs:118). -/
abbrev tNilLiteral : Nat := 95
/-- `GoTokenType::Plus` (oak-go lexer/token_type.rs:123). -/
abbrev tPlus : Nat := 98
/-- `GoTokenType::Minus` (oak-go lexer/token_type.rs:124). -/
abbrev tMinus : Nat := 99
/-- `GoTokenType::Star` (oak-go lexer/token_type.rs:125). -/
abbrev tStar : Nat := 100
/-- `GoTokenType::Slash` (oak-go lexer/token_type.rs:126). -/
abbrev tSlash : Nat := 101
/-- `GoTokenType::Percent` (oak-go lexer/token_type.rs:127). -/
abbrev tPercent : Nat := 102
/-- `GoTokenType::Ampersand` (oak-go lexer/token_type.rs:128). -/
abbrev tAmpersand : Nat := 103
/-- `GoTokenType::Pipe` (oak-go lexer/token_type.rs:129). -/
abbrev tPipe : Nat := 104
/-- `GoTokenType::Caret` (oak-go lexer/token_type.rs:130). -/
abbrev tCaret : Nat := 105
/-- `GoTokenType::LeftShift` (oak-go lexer/token_type.rs:131). -/
abbrev tLeftShift : Nat := 106
/-- `GoTokenType::RightShift` (oak-go lexer/token_type.rs:132). -/
abbrev tRightShift : Nat := 107
/-- `GoTokenType::AmpersandCaret` (oak-go lexer/token_type.rs:133). -/
abbrev tAmpersandCaret : Nat := 108
/-- `GoTokenType::LogicalAnd` (oak-go lexer/token_type.rs:152). -/
abbrev tLogicalAnd : Nat := 125
/-- `GoTokenType::LogicalOr` (oak-go lexer/token_type.rs:153). -/
abbrev tLogicalOr : Nat := 126
/-- `GoTokenType::Arrow` (oak-go lexer/token_type.rs:156). -/
abbrev tArrow : Nat := 129
/-- `GoTokenType::Equal` (oak-go lexer/token_type.rs:161). -/
abbrev tEqual : Nat := 133
/-- `GoTokenType::Less` (oak-go lexer/token_type.rs:162). -/
abbrev tLess : Nat := 134
/-- `GoTokenType::Greater` (oak-go lexer/token_type.rs:163). -/
abbrev tGreater : Nat := 135
/-- `GoTokenType::Assign` (oak-go lexer/token_type.rs:164). -/
abbrev tAssign : Nat := 136
/-- `GoTokenType::LogicalNot` (oak-go lexer/token_type.rs:165). -/
abbrev tLogicalNot : Nat := 137
/-- `GoTokenType::NotEqual` (oak-go lexer/token_type.rs:168). -/
abbrev tNotEqual : Nat := 139
/-- `GoTokenType::LessEqual` (oak-go lexer/token_type.rs:169). -/
abbrev tLessEqual : Nat := 140
/-- `GoTokenType::GreaterEqual` (oak-go lexer/token_type.rs:170). -/
abbrev tGreaterEqual : Nat := 141
/-- `GoTokenType::ColonAssign` (oak-go lexer/token_type.rs:171). -/
abbrev tColonAssign : Nat := 142
/-- `GoTokenType::LeftParen` (oak-go lexer/token_type.rs:176). -/
abbrev tLeftParen : Nat := 145
/-- `GoTokenType::RightParen` (oak-go lexer/token_type.rs:177). -/
abbrev tRightParen : Nat := 146
/-- `GoTokenType::LeftBrace` (oak-go lexer/token_type.rs:180). -/
abbrev tLeftBrace : Nat := 149
/-- `GoTokenType::RightBrace` (oak-go lexer/token_type.rs:181). -/
abbrev tRightBrace : Nat := 150
/-- `GoTokenType::Comma` (oak-go lexer/token_type.rs:182). -/
abbrev tComma : Nat := 151
/-- `GoTokenType::Dot` (oak-go lexer/token_type.rs:184). -/
abbrev tDot : Nat := 153
/-- `GoTokenType::Semicolon` (oak-go lexer/token_type.rs:185). -/
abbrev tSemicolon : Nat := 154
/-- `GoTokenType::Whitespace` (oak-go lexer/token_type.rs:189). -/
abbrev tWhitespace : Nat := 156
/-- `GoTokenType::Comment` (oak-go lexer/token_type.rs:190). -/
abbrev tComment : Nat := 157
/-- `GoElementType::SourceFile` (oak-go parser/element_type.rs:9). -/
abbrev eSourceFile : Nat := 0
/-- `GoElementType::PackageClause` (oak-go parser/element_type.rs:10). -/
abbrev ePackageClause : Nat := 1
/-- `GoElementType::ImportDeclaration` (oak-go parser/element_type.rs:11). -/
abbrev eImportDeclaration : Nat := 2
/-- `GoElementType::FunctionDeclaration` (oak-go parser/element_type.rs:13). -/
abbrev eFunctionDeclaration : Nat := 4
/-- `GoElementType::Block` (oak-go parser/element_type.rs:16). -/
abbrev eBlock : Nat := 7
/-- `GoElementType::VariableDeclaration` (oak-go parser/element_type.rs:17). -/
abbrev eVariableDeclaration : Nat := 8
/-- `GoElementType::VariableSpec` (oak-go parser/element_type.rs:18). -/
abbrev eVariableSpec : Nat := 9
/-- `GoElementType::ConstDeclaration` (oak-go parser/element_type.rs:19). -/
abbrev eConstDeclaration : Nat := 10
/-- `GoElementType::TypeDeclaration` (oak-go parser/element_type.rs:21). -/
abbrev eTypeDeclaration : Nat := 12
/-- `GoElementType::ExpressionList` (oak-go parser/element_type.rs:29). -/
abbrev eExpressionList : Nat := 20
/-- `GoElementType::AssignmentStatement` (oak-go parser/element_type.rs:30). -/
abbrev eAssignmentStatement : Nat := 21
/-- `GoElementType::ShortVarDecl` (oak-go parser/element_type.rs:31). -/
abbrev eShortVarDecl : Nat := 22
/-- `GoElementType::ReturnStatement` (oak-go parser/element_type.rs:32). -/
abbrev eReturnStatement : Nat := 23
/-- `GoElementType::IfStatement` (oak-go parser/element_type.rs:33). -/
abbrev eIfStatement : Nat := 24
/-- `GoElementType::ForStatement` (oak-go parser/element_type.rs:34). -/
abbrev eForStatement : Nat := 25
/-- `GoElementType::SwitchStatement` (oak-go parser/element_type.rs:35). -/
abbrev eSwitchStatement : Nat := 26
/-- `GoElementType::CallExpression` (oak-go parser/element_type.rs:43). -/
abbrev eCallExpression : Nat := 34
/-- `GoElementType::BinaryExpression` (oak-go parser/element_type.rs:49). -/
abbrev eBinaryExpression : Nat := 40
/-- `GoElementType::IntLiteral` (oak-go parser/element_type.rs:55). -/
abbrev eIntLiteral : Nat := 44
/-- `GoElementType::FloatLiteral` (oak-go parser/element_type.rs:56). -/
abbrev eFloatLiteral : Nat := 45
/-- `GoElementType::StringLiteral` (oak-go parser/element_type.rs:57). -/
abbrev eStringLiteral : Nat := 46
/-- `GoElementType::RuneLiteral` (oak-go parser/element_type.rs:58). -/
abbrev eRuneLiteral : Nat := 47
/-- `GoElementType::BoolLiteral` (oak-go parser/element_type.rs:59). -/
abbrev eBoolLiteral : Nat := 48
/-- `GoElementType::Identifier` (oak-go parser/element_type.rs:62). -/
abbrev eIdentifier : Nat := 49
/-- `GoElementType::NilLiteral` (oak-go parser/element_type.rs:114). -/
abbrev eNilLiteral : Nat := 95
/-- `GoElementType::Error` (oak-go parser/element_type.rs:190). -/
abbrev eError : Nat := 159

/-- The number of `skip_trivia` (oak-go parser/mod.rs:23-33). -/
abbrev pSkipTrivia : Nat := 0
/-- The number of `parse_statement` (oak-go parser/mod.rs:35-78). -/
abbrev pParseStatement : Nat := 1
/-- The number of `parse_package_clause` (oak-go parser/mod.rs:80-88). -/
abbrev pParsePackageClause : Nat := 2
/-- The number of `parse_import_declaration` (oak-go parser/mod.rs:90-105). -/
abbrev pParseImportDeclaration : Nat := 3
/-- The number of `parse_function_declaration` (oak-go parser/mod.rs:107-128). -/
abbrev pParseFunctionDeclaration : Nat := 4
/-- The number of `parse_variable_declaration` (oak-go parser/mod.rs:130-165). -/
abbrev pParseVariableDeclaration : Nat := 5
/-- The number of `parse_const_declaration` (oak-go parser/mod.rs:167-180). -/
abbrev pParseConstDeclaration : Nat := 6
/-- The number of `parse_type_declaration` (oak-go parser/mod.rs:182-195). -/
abbrev pParseTypeDeclaration : Nat := 7
/-- The number of `parse_if_statement` (oak-go parser/mod.rs:197-224). -/
abbrev pParseIfStatement : Nat := 8
/-- The number of `parse_for_statement` (oak-go parser/mod.rs:226-259). -/
abbrev pParseForStatement : Nat := 9
/-- The number of `parse_switch_statement` (oak-go parser/mod.rs:261-271). -/
abbrev pParseSwitchStatement : Nat := 10
/-- The number of `parse_return_statement` (oak-go parser/mod.rs:273-283). -/
abbrev pParseReturnStatement : Nat := 11
/-- The number of `parse_block` (oak-go parser/mod.rs:285-297). -/
abbrev pParseBlock : Nat := 12
/-- The number of `primary` (oak-go parser/mod.rs:301-335). -/
abbrev pPrimary : Nat := 13
/-- The number of `prefix` (oak-go parser/mod.rs:337-350). -/
abbrev pPrefix : Nat := 14
/-- The precedences expressions are parsed with (oak-go parser/mod.rs:352-401). -/
abbrev levels : List Nat := [0, 1, 3, 4, 5, 6, 7, 9]
/-- The number of `PrattParser::parse` with a precedence (oak-core parser/pratt.rs:237-243): after the other functions. -/
abbrev pPratt (min : Nat) : Nat := 15 + levels.idxOf min

/-- `skip_trivia` (oak-go parser/mod.rs:23-33). -/
def skipTrivia : Prog :=
  loop more
    (block [
      when_ more
        (when_ (seesAny [tWhitespace, tComment])
          (block [
            bump,
            cont])),
      brk])

/-- `parse_statement` (oak-go parser/mod.rs:35-78). -/
def parseStatement : Prog :=
  block [
    call pSkipTrivia,
    ite (sees tPackage)
      (call pParsePackageClause)
      (ite (sees tImport)
        (call pParseImportDeclaration)
        (ite (sees tFunc)
          (call pParseFunctionDeclaration)
          (ite (sees tVar)
            (call pParseVariableDeclaration)
            (ite (sees tConst)
              (call pParseConstDeclaration)
              (ite (sees tType)
                (call pParseTypeDeclaration)
                (ite (sees tIf)
                  (call pParseIfStatement)
                  (ite (sees tFor)
                    (call pParseForStatement)
                    (ite (sees tSwitch)
                      (call pParseSwitchStatement)
                      (ite (sees tReturn)
                        (call pParseReturnStatement)
                        (ite (sees tLeftBrace)
                          (call pParseBlock)
                          (block [
                            mark (block [
                              call (pPratt 0),
                              call pSkipTrivia,
                              ite (sees tAssign)
                                (block [
                                  bump,
                                  call pSkipTrivia,
                                  call (pPratt 0),
                                  close eAssignmentStatement])
                                (ite (sees tColonAssign)
                                  (block [
                                    bump,
                                    call pSkipTrivia,
                                    call (pPratt 0),
                                    close eShortVarDecl])
                                  (val true))]),
                            call pSkipTrivia,
                            eat tSemicolon]))))))))))),
    call pSkipTrivia]

/-- `parse_package_clause` (oak-go parser/mod.rs:80-88). -/
def parsePackageClause : Prog :=
  mark (block [
    expect tPackage,
    call pSkipTrivia,
    expect tIdentifier,
    close ePackageClause])

/-- `parse_import_declaration` (oak-go parser/mod.rs:90-105). -/
def parseImportDeclaration : Prog :=
  mark (block [
    expect tImport,
    ite (eat tLeftParen)
      (block [
        loop (and_ more (not_ (sees tRightParen)))
          advance,
        expect tRightParen])
      advance,
    close eImportDeclaration])

/-- `parse_function_declaration` (oak-go parser/mod.rs:107-128). -/
def parseFunctionDeclaration : Prog :=
  mark (block [
    expect tFunc,
    call pSkipTrivia,
    when_ (sees tIdentifier)
      (block [
        bump,
        call pSkipTrivia]),
    loop (and_ more (not_ (sees tLeftBrace)))
      (block [
        bump,
        call pSkipTrivia]),
    call pParseBlock,
    close eFunctionDeclaration])

/-- `parse_variable_declaration` (oak-go parser/mod.rs:130-165). -/
def parseVariableDeclaration : Prog :=
  mark (block [
    expect tVar,
    call pSkipTrivia,
    loop (sees tIdentifier)
      (block [
        mark (block [
          bump,
          call pSkipTrivia,
          when_ (sees tIdentifier)
            (block [
              bump,
              call pSkipTrivia]),
          when_ (eat tAssign)
            (block [
              call pSkipTrivia,
              call (pPratt 0)]),
          close eVariableSpec]),
        call pSkipTrivia,
        when_ (not_ (eat tComma))
          brk,
        call pSkipTrivia]),
    eat tSemicolon,
    close eVariableDeclaration])

/-- `parse_const_declaration` (oak-go parser/mod.rs:167-180). -/
def parseConstDeclaration : Prog :=
  mark (block [
    expect tConst,
    loop (sees tIdentifier)
      (block [
        bump,
        when_ (not_ (eat tSemicolon))
          brk]),
    eat tSemicolon,
    close eConstDeclaration])

/-- `parse_type_declaration` (oak-go parser/mod.rs:182-195). -/
def parseTypeDeclaration : Prog :=
  mark (block [
    expect tType,
    loop (sees tIdentifier)
      (block [
        bump,
        when_ (not_ (eat tSemicolon))
          brk]),
    eat tSemicolon,
    close eTypeDeclaration])

/-- `parse_if_statement` (oak-go parser/mod.rs:197-224). -/
def parseIfStatement : Prog :=
  mark (block [
    expect tIf,
    call pSkipTrivia,
    when_ (not_ (sees tLeftBrace))
      (block [
        call (pPratt 0),
        call pSkipTrivia]),
    call pParseBlock,
    call pSkipTrivia,
    when_ (eat tElse)
      (block [
        call pSkipTrivia,
        ite (sees tIf)
          (call pParseIfStatement)
          (call pParseBlock),
        call pSkipTrivia]),
    close eIfStatement])

/-- `parse_for_statement` (oak-go parser/mod.rs:226-259). -/
def parseForStatement : Prog :=
  mark (block [
    expect tFor,
    call pSkipTrivia,
    when_ (not_ (sees tLeftBrace))
      (block [
        call (pPratt 0),
        call pSkipTrivia,
        when_ (eat tSemicolon)
          (block [
            call pSkipTrivia,
            when_ (not_ (sees tSemicolon))
              (block [
                call (pPratt 0),
                call pSkipTrivia]),
            expect tSemicolon,
            call pSkipTrivia,
            when_ (not_ (sees tLeftBrace))
              (block [
                call (pPratt 0),
                call pSkipTrivia])])]),
    call pParseBlock,
    call pSkipTrivia,
    close eForStatement])

/-- `parse_switch_statement` (oak-go parser/mod.rs:261-271). -/
def parseSwitchStatement : Prog :=
  mark (block [
    expect tSwitch,
    loop (and_ more (not_ (sees tLeftBrace)))
      advance,
    call pParseBlock,
    close eSwitchStatement])

/-- `parse_return_statement` (oak-go parser/mod.rs:273-283). -/
def parseReturnStatement : Prog :=
  mark (block [
    expect tReturn,
    when_ (not_ (sees tSemicolon))
      (call (pPratt 0)),
    eat tSemicolon,
    close eReturnStatement])

/-- `parse_block` (oak-go parser/mod.rs:285-297). -/
def parseBlock : Prog :=
  mark (block [
    expect tLeftBrace,
    call pSkipTrivia,
    loop (and_ more (not_ (sees tRightBrace)))
      (block [
        call pParseStatement,
        call pSkipTrivia]),
    expect tRightBrace,
    close eBlock])

/-- `primary` (oak-go parser/mod.rs:301-335). -/
def primary : Prog :=
  block [
    call pSkipTrivia,
    mark (ite more
      (ite (sees tIdentifier)
        (block [
          bump,
          close eIdentifier])
        (ite (sees tIntLiteral)
          (block [
            bump,
            close eIntLiteral])
          (ite (sees tFloatLiteral)
            (block [
              bump,
              close eFloatLiteral])
            (ite (sees tStringLiteral)
              (block [
                bump,
                close eStringLiteral])
              (ite (sees tRuneLiteral)
                (block [
                  bump,
                  close eRuneLiteral])
                (ite (sees tBoolLiteral)
                  (block [
                    bump,
                    close eBoolLiteral])
                  (ite (sees tNilLiteral)
                    (block [
                      bump,
                      close eNilLiteral])
                    (ite (sees tLeftParen)
                      (block [
                        bump,
                        call pSkipTrivia,
                        call (pPratt 0),
                        call pSkipTrivia,
                        expect tRightParen,
                        close eBinaryExpression])
                      (block [
                        bump,
                        close eError])))))))))
      (block [
        bump,
        close eError]))]

/-- `prefix` (oak-go parser/mod.rs:337-350). -/
def prefix_ : Prog :=
  ite more
    (ite (seesAny [tPlus, tMinus, tLogicalNot, tCaret, tStar, tAmpersand, tArrow])
      (mark (block [
        bump,
        call (pPratt 7),
        close eBinaryExpression]))
      (call pPrimary))
    (call pPrimary)

/-- `infix` (oak-go parser/mod.rs:352-401) with a least precedence. -/
def infix_ (min : Nat) : Prog :=
  block [
    call pSkipTrivia,
    ite more
      (ite (sees tLeftParen)
        (level min 8
          (block [
            bump,
            call pSkipTrivia,
            mark (block [
              set 0 (fun _ => 0),
              loop (and_ more (not_ (sees tRightParen)))
                (block [
                  call (pPratt 0),
                  set 0 (fun _ => 1),
                  call pSkipTrivia,
                  when_ (not_ (eat tComma))
                    brk,
                  call pSkipTrivia]),
              when_ (ask (fun v => v.regs 0 != 0))
                (close eExpressionList)]),
            expect tRightParen,
            close eCallExpression]))
        (ite (seesAny [tAssign, tColonAssign])
          (level min 1
            (block [
              bump,
              call (pPratt 1),
              close eBinaryExpression]))
          (ite (sees tLogicalOr)
            (level min 2
              (block [
                bump,
                call (pPratt 3),
                close eBinaryExpression]))
            (ite (sees tLogicalAnd)
              (level min 3
                (block [
                  bump,
                  call (pPratt 4),
                  close eBinaryExpression]))
              (ite (seesAny [tEqual, tNotEqual, tLess, tLessEqual, tGreater, tGreaterEqual])
                (level min 4
                  (block [
                    bump,
                    call (pPratt 5),
                    close eBinaryExpression]))
                (ite (seesAny [tPlus, tMinus, tPipe, tCaret])
                  (level min 5
                    (block [
                      bump,
                      call (pPratt 6),
                      close eBinaryExpression]))
                  (ite (seesAny [tStar, tSlash, tPercent, tLeftShift, tRightShift, tAmpersand, tAmpersandCaret])
                    (level min 6
                      (block [
                        bump,
                        call (pPratt 7),
                        close eBinaryExpression]))
                    (ite (sees tDot)
                      (level min 8
                        (block [
                          bump,
                          call (pPratt 9),
                          close eBinaryExpression]))
                      (val false)))))))))
      (val false)]

/-- `PrattParser::parse` (oak-core parser/pratt.rs:237-243): `left` always begins at the checkpoint. -/
def pratt (min : Nat) : Prog :=
  mark (block [call pPrefix, loop (infix_ min) (val true)])

/-- `parse` between the checkpoint and the last `finish_at` (oak-go parser/mod.rs:405-414). -/
def main : Prog :=
  loop more
    (call pParseStatement)

/-- The parser (`parse`, oak-go parser/mod.rs:405-414; `is_ignored`, oak-go lexer/token_type.rs:198-200). -/
def parser : HandParser where
  ign := [tWhitespace, tComment]
  fromStart := false
  root := eSourceFile
  main := main
  procs := [skipTrivia, parseStatement, parsePackageClause, parseImportDeclaration, parseFunctionDeclaration, parseVariableDeclaration, parseConstDeclaration, parseTypeDeclaration, parseIfStatement, parseForStatement, parseSwitchStatement, parseReturnStatement, parseBlock, primary, prefix_] ++ levels.map pratt

end Oaks.Hand.Go
