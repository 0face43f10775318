import Verif.Model.Prog

/-
The parser of `oak-cobol` (examples/oak-cobol/src/parser) as a program: one definition for every function it calls, in the order of the
source. Kinds are the places of the variants in their enums.
-/
namespace Oaks.Hand.Cobol
open Prog

/-- `CobolTokenType::Whitespace` (oak-cobol lexer/token_type.rs:10). -/
abbrev tWhitespace : Nat := 0
/-- `CobolTokenType::Newline` (oak-cobol lexer/token_type.rs:11). -/
abbrev tNewline : Nat := 1
/-- `CobolTokenType::Comment` (oak-cobol lexer/token_type.rs:12). -/
abbrev tComment : Nat := 2
/-- `CobolTokenType::Identifier` (oak-cobol lexer/token_type.rs:15). -/
abbrev tIdentifier : Nat := 3
/-- `CobolTokenType::StringLiteral` (oak-cobol lexer/token_type.rs:16). -/
abbrev tStringLiteral : Nat := 4
/-- `CobolTokenType::NumberLiteral` (oak-cobol lexer/token_type.rs:17). -/
abbrev tNumberLiteral : Nat := 5
/-- `CobolTokenType::Accept` (oak-cobol lexer/token_type.rs:21). -/
abbrev tAccept : Nat := 7
/-- `CobolTokenType::Add` (oak-cobol lexer/token_type.rs:22). -/
abbrev tAdd : Nat := 8
/-- `CobolTokenType::Display` (oak-cobol lexer/token_type.rs:29). -/
abbrev tDisplay : Nat := 15
/-- `CobolTokenType::Move` (oak-cobol lexer/token_type.rs:37). -/
abbrev tMove : Nat := 23
/-- `CobolTokenType::Stop` (oak-cobol lexer/token_type.rs:48). -/
abbrev tStop : Nat := 34
/-- `CobolTokenType::Data` (oak-cobol lexer/token_type.rs:55). -/
abbrev tData : Nat := 39
/-- `CobolTokenType::Division` (oak-cobol lexer/token_type.rs:56). -/
abbrev tDivision : Nat := 40
/-- `CobolTokenType::Section` (oak-cobol lexer/token_type.rs:57). -/
abbrev tSection : Nat := 41
/-- `CobolTokenType::WorkingStorage` (oak-cobol lexer/token_type.rs:58). -/
abbrev tWorkingStorage : Nat := 42
/-- `CobolTokenType::FileSection` (oak-cobol lexer/token_type.rs:59). -/
abbrev tFileSection : Nat := 43
/-- `CobolTokenType::LinkageSection` (oak-cobol lexer/token_type.rs:60). -/
abbrev tLinkageSection : Nat := 44
/-- `CobolTokenType::Identification` (oak-cobol lexer/token_type.rs:69). -/
abbrev tIdentification : Nat := 51
/-- `CobolTokenType::Program` (oak-cobol lexer/token_type.rs:70). -/
abbrev tProgram : Nat := 52
/-- `CobolTokenType::Environment` (oak-cobol lexer/token_type.rs:71). -/
abbrev tEnvironment : Nat := 53
/-- `CobolTokenType::Procedure` (oak-cobol lexer/token_type.rs:75). -/
abbrev tProcedure : Nat := 57
/-- `CobolTokenType::Pic` (oak-cobol lexer/token_type.rs:78). -/
abbrev tPic : Nat := 58
/-- `CobolTokenType::Picture` (oak-cobol lexer/token_type.rs:79). -/
abbrev tPicture : Nat := 59
/-- `CobolTokenType::Value` (oak-cobol lexer/token_type.rs:80). -/
abbrev tValue : Nat := 60
/-- `CobolTokenType::Period` (oak-cobol lexer/token_type.rs:148). -/
abbrev tPeriod : Nat := 116
/-- `CobolElementType::SourceFile` (oak-cobol parser/element_type.rs:13). -/
abbrev eSourceFile : Nat := 1
/-- `CobolElementType::IdentificationDivision` (oak-cobol parser/element_type.rs:15). -/
abbrev eIdentificationDivision : Nat := 2
/-- `CobolElementType::ProgramIdParagraph` (oak-cobol parser/element_type.rs:17). -/
abbrev eProgramIdParagraph : Nat := 3
/-- `CobolElementType::EnvironmentDivision` (oak-cobol parser/element_type.rs:19). -/
abbrev eEnvironmentDivision : Nat := 4
/-- `CobolElementType::DataDivision` (oak-cobol parser/element_type.rs:21). -/
abbrev eDataDivision : Nat := 5
/-- `CobolElementType::ProcedureDivision` (oak-cobol parser/element_type.rs:23). -/
abbrev eProcedureDivision : Nat := 6
/-- `CobolElementType::DisplayStatement` (oak-cobol parser/element_type.rs:25). -/
abbrev eDisplayStatement : Nat := 7
/-- `CobolElementType::AcceptStatement` (oak-cobol parser/element_type.rs:27). -/
abbrev eAcceptStatement : Nat := 8
/-- `CobolElementType::AddStatement` (oak-cobol parser/element_type.rs:29). -/
abbrev eAddStatement : Nat := 9
/-- `CobolElementType::StopStatement` (oak-cobol parser/element_type.rs:31). -/
abbrev eStopStatement : Nat := 10
/-- `CobolElementType::MoveStatement` (oak-cobol parser/element_type.rs:33). -/
abbrev eMoveStatement : Nat := 11
/-- `CobolElementType::WorkingStorageSection` (oak-cobol parser/element_type.rs:37). -/
abbrev eWorkingStorageSection : Nat := 13
/-- `CobolElementType::DataItem` (oak-cobol parser/element_type.rs:39). -/
abbrev eDataItem : Nat := 14

/-- The number of `parse_identification_division` (oak-cobol parser/parse_top_level.rs:32-50). -/
abbrev pParseIdentificationDivision : Nat := 0
/-- The number of `parse_program_id` (oak-cobol parser/parse_top_level.rs:52-62). -/
abbrev pParseProgramId : Nat := 1
/-- The number of `parse_environment_division` (oak-cobol parser/parse_top_level.rs:64-76). -/
abbrev pParseEnvironmentDivision : Nat := 2
/-- The number of `parse_data_division` (oak-cobol parser/parse_top_level.rs:78-95). -/
abbrev pParseDataDivision : Nat := 3
/-- The number of `parse_working_storage_section` (oak-cobol parser/parse_top_level.rs:97-114). -/
abbrev pParseWorkingStorageSection : Nat := 4
/-- The number of `parse_data_item` (oak-cobol parser/parse_top_level.rs:116-138). -/
abbrev pParseDataItem : Nat := 5
/-- The number of `parse_procedure_division` (oak-cobol parser/parse_top_level.rs:140-169). -/
abbrev pParseProcedureDivision : Nat := 6
/-- The number of `parse_display_statement` (oak-cobol parser/parse_top_level.rs:171-187). -/
abbrev pParseDisplayStatement : Nat := 7
/-- The number of `parse_stop_statement` (oak-cobol parser/parse_top_level.rs:189-199). -/
abbrev pParseStopStatement : Nat := 8
/-- The number of `parse_move_statement` (oak-cobol parser/parse_top_level.rs:201-214). -/
abbrev pParseMoveStatement : Nat := 9
/-- The number of `parse_accept_statement` (oak-cobol parser/parse_top_level.rs:216-228). -/
abbrev pParseAcceptStatement : Nat := 10
/-- The number of `parse_add_statement` (oak-cobol parser/parse_top_level.rs:230-244). -/
abbrev pParseAddStatement : Nat := 11
/-- The number of `consume_period` (oak-cobol parser/parse_top_level.rs:246-250). -/
abbrev pConsumePeriod : Nat := 12
/-- The number of `is_division_start` (oak-cobol parser/parse_top_level.rs:252-254). -/
abbrev pIsDivisionStart : Nat := 13
/-- The number of `is_statement_end` (oak-cobol parser/parse_top_level.rs:256-258). -/
abbrev pIsStatementEnd : Nat := 14

/-- `parse_identification_division` (oak-cobol parser/parse_top_level.rs:32-50). -/
def parseIdentificationDivision : Prog :=
  mark (block [
    need tIdentification,
    need tDivision,
    call pConsumePeriod,
    loop (and_ more (not_ (call pIsDivisionStart)))
      (ite (sees tProgram)
        (call pParseProgramId)
        bump),
    close eIdentificationDivision])

/-- `parse_program_id` (oak-cobol parser/parse_top_level.rs:52-62). -/
def parseProgramId : Prog :=
  mark (block [
    need tProgram,
    when_ (sees tIdentifier)
      bump,
    call pConsumePeriod,
    close eProgramIdParagraph])

/-- `parse_environment_division` (oak-cobol parser/parse_top_level.rs:64-76). -/
def parseEnvironmentDivision : Prog :=
  mark (block [
    need tEnvironment,
    need tDivision,
    call pConsumePeriod,
    loop (and_ more (not_ (call pIsDivisionStart)))
      bump,
    close eEnvironmentDivision])

/-- `parse_data_division` (oak-cobol parser/parse_top_level.rs:78-95). -/
def parseDataDivision : Prog :=
  mark (block [
    need tData,
    need tDivision,
    call pConsumePeriod,
    loop (and_ more (not_ (call pIsDivisionStart)))
      (ite (sees tWorkingStorage)
        (call pParseWorkingStorageSection)
        bump),
    close eDataDivision])

/-- `parse_working_storage_section` (oak-cobol parser/parse_top_level.rs:97-114). -/
def parseWorkingStorageSection : Prog :=
  mark (block [
    need tWorkingStorage,
    need tSection,
    call pConsumePeriod,
    loop (and_ (and_ (and_ more (not_ (call pIsDivisionStart))) (not_ (sees tFileSection))) (not_ (sees tLinkageSection)))
      (ite (sees tNumberLiteral)
        (call pParseDataItem)
        bump),
    close eWorkingStorageSection])

/-- `parse_data_item` (oak-cobol parser/parse_top_level.rs:116-138). -/
def parseDataItem : Prog :=
  mark (block [
    need tNumberLiteral,
    need tIdentifier,
    loop (and_ (and_ more (not_ (sees tPeriod))) (not_ (sees tNewline)))
      (ite (or_ (sees tPic) (sees tPicture))
        (block [
          bump,
          need tIdentifier])
        (ite (sees tValue)
          (block [
            bump,
            bump])
          bump)),
    call pConsumePeriod,
    close eDataItem])

/-- `parse_procedure_division` (oak-cobol parser/parse_top_level.rs:140-169). -/
def parseProcedureDivision : Prog :=
  mark (block [
    need tProcedure,
    need tDivision,
    call pConsumePeriod,
    loop (and_ more (not_ (call pIsDivisionStart)))
      (ite (sees tDisplay)
        (call pParseDisplayStatement)
        (ite (sees tStop)
          (call pParseStopStatement)
          (ite (sees tMove)
            (call pParseMoveStatement)
            (ite (sees tAccept)
              (call pParseAcceptStatement)
              (ite (sees tAdd)
                (call pParseAddStatement)
                bump))))),
    close eProcedureDivision])

/-- `parse_display_statement` (oak-cobol parser/parse_top_level.rs:171-187). -/
def parseDisplayStatement : Prog :=
  mark (block [
    need tDisplay,
    loop (and_ (and_ more (not_ (sees tNewline))) (not_ (call pIsStatementEnd)))
      (ite (or_ (or_ (sees tStringLiteral) (sees tNumberLiteral)) (sees tIdentifier))
        bump
        brk),
    call pConsumePeriod,
    close eDisplayStatement])

/-- `parse_stop_statement` (oak-cobol parser/parse_top_level.rs:189-199). -/
def parseStopStatement : Prog :=
  mark (block [
    need tStop,
    when_ (and_ (sees tIdentifier) (ask (fun v => v.textIs "RUN")))
      bump,
    call pConsumePeriod,
    close eStopStatement])

/-- `parse_move_statement` (oak-cobol parser/parse_top_level.rs:201-214). -/
def parseMoveStatement : Prog :=
  mark (block [
    need tMove,
    bump,
    when_ (and_ (sees tIdentifier) (ask (fun v => v.textIs "TO")))
      bump,
    need tIdentifier,
    call pConsumePeriod,
    close eMoveStatement])

/-- `parse_accept_statement` (oak-cobol parser/parse_top_level.rs:216-228). -/
def parseAcceptStatement : Prog :=
  mark (block [
    need tAccept,
    need tIdentifier,
    when_ (and_ (sees tIdentifier) (ask (fun v => v.textIs "FROM")))
      (block [
        bump,
        need tIdentifier]),
    call pConsumePeriod,
    close eAcceptStatement])

/-- `parse_add_statement` (oak-cobol parser/parse_top_level.rs:230-244). -/
def parseAddStatement : Prog :=
  mark (block [
    need tAdd,
    loop (and_ more (or_ (sees tIdentifier) (sees tNumberLiteral)))
      bump,
    when_ (and_ (sees tIdentifier) (ask (fun v => v.textIs "TO")))
      (block [
        bump,
        need tIdentifier]),
    call pConsumePeriod,
    close eAddStatement])

/-- `consume_period` (oak-cobol parser/parse_top_level.rs:246-250). -/
def consumePeriod : Prog :=
  when_ (sees tPeriod)
    bump

/-- `is_division_start` (oak-cobol parser/parse_top_level.rs:252-254). -/
def isDivisionStart : Prog :=
  or_ (or_ (or_ (sees tIdentification) (sees tEnvironment)) (sees tData)) (sees tProcedure)

/-- `is_statement_end` (oak-cobol parser/parse_top_level.rs:256-258). -/
def isStatementEnd : Prog :=
  or_ (or_ (or_ (or_ (or_ (sees tDisplay) (sees tStop)) (sees tMove)) (sees tAccept)) (sees tAdd)) (call pIsDivisionStart)

/-- `parse_root_internal` between the checkpoint and the last `finish_at` (oak-cobol parser/parse_top_level.rs:8-30). -/
def main : Prog :=
  loop more
    (ite (sees tIdentification)
      (call pParseIdentificationDivision)
      (ite (sees tEnvironment)
        (call pParseEnvironmentDivision)
        (ite (sees tData)
          (call pParseDataDivision)
          (ite (sees tProcedure)
            (call pParseProcedureDivision)
            bump))))

/-- The parser (`parse_root_internal`, oak-cobol parser/parse_top_level.rs:8-30; `is_ignored`, oak-cobol lexer/token_type.rs:171-172, oak-core language/mod.rs:298-300). -/
def parser : HandParser where
  ign := [tWhitespace, tNewline, tComment]
  fromStart := false
  root := eSourceFile
  main := main
  procs := [parseIdentificationDivision, parseProgramId, parseEnvironmentDivision, parseDataDivision, parseWorkingStorageSection, parseDataItem, parseProcedureDivision, parseDisplayStatement, parseStopStatement, parseMoveStatement, parseAcceptStatement, parseAddStatement, consumePeriod, isDivisionStart, isStatementEnd]

end Oaks.Hand.Cobol
