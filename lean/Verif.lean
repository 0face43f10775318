import Verif.Base.FMap
import Verif.Base.Run
import Verif.Base.Sort
import Verif.Base.Str
import Verif.Base.Utf8
import Verif.Model.Arena
import Verif.Model.Chunks
import Verif.Model.Comment
import Verif.Model.Csv
import Verif.Model.Cursor
import Verif.Model.CursorRuns
import Verif.Model.Definition
import Verif.Model.Diagnostic
import Verif.Model.DiskVfs
import Verif.Model.Errors
import Verif.Model.Flat
import Verif.Model.Formatter
import Verif.Model.Geometry
import Verif.Model.Golden
import Verif.Model.Graph
import Verif.Model.GraphLayout
import Verif.Model.Hand.Ada
import Verif.Model.Hand.Apl
import Verif.Model.Hand.Bash
import Verif.Model.Hand.Bat
import Verif.Model.Hand.Cmd
import Verif.Model.Hand.Cobol
import Verif.Model.Hand.Coq
import Verif.Model.Hand.Css
import Verif.Model.Hand.Dart
import Verif.Model.Hand.Fsharp
import Verif.Model.Hand.Handlebars
import Verif.Model.Hand.Haskell
import Verif.Model.Hand.Html
import Verif.Model.Hand.J
import Verif.Model.Hand.Jasmin
import Verif.Model.Hand.Julia
import Verif.Model.Hand.LlvmIr
import Verif.Model.Hand.Matlab
import Verif.Model.Hand.Msil
import Verif.Model.Hand.Nginx
import Verif.Model.Hand.Nix
import Verif.Model.Hand.Notedown
import Verif.Model.Hand.ObjectiveC
import Verif.Model.Hand.Ocaml
import Verif.Model.Hand.OrgMode
import Verif.Model.Hand.Perl
import Verif.Model.Hand.Powershell
import Verif.Model.Hand.Prolog
import Verif.Model.Hand.Protobuf
import Verif.Model.Hand.R
import Verif.Model.Hand.Svelte
import Verif.Model.Hand.Tailwind
import Verif.Model.Hand.Tcl
import Verif.Model.Hand.Typst
import Verif.Model.Hand.Vhdl
import Verif.Model.Hand.Voc
import Verif.Model.Hand.Wat
import Verif.Model.Hand.Wgsl
import Verif.Model.HandLex.Actionscript
import Verif.Model.HandLex.Ada
import Verif.Model.HandLex.Apl
import Verif.Model.HandLex.AsciiDoc
import Verif.Model.HandLex.Bat
import Verif.Model.HandLex.C
import Verif.Model.HandLex.Clojure
import Verif.Model.HandLex.Cmd
import Verif.Model.HandLex.Coq
import Verif.Model.HandLex.Cpp
import Verif.Model.HandLex.Crystal
import Verif.Model.HandLex.Csharp
import Verif.Model.HandLex.Css
import Verif.Model.HandLex.D
import Verif.Model.HandLex.Dart
import Verif.Model.HandLex.Delphi
import Verif.Model.HandLex.Dhall
import Verif.Model.HandLex.Django
import Verif.Model.HandLex.Dockerfile
import Verif.Model.HandLex.Elm
import Verif.Model.HandLex.Fortran
import Verif.Model.HandLex.Go
import Verif.Model.HandLex.Graphql
import Verif.Model.HandLex.Haskell
import Verif.Model.HandLex.Hlsl
import Verif.Model.HandLex.Idl
import Verif.Model.HandLex.J
import Verif.Model.HandLex.Jasm
import Verif.Model.HandLex.Jasmin
import Verif.Model.HandLex.Java
import Verif.Model.HandLex.Javadoc
import Verif.Model.HandLex.Julia
import Verif.Model.HandLex.Kotlin
import Verif.Model.HandLex.Lean
import Verif.Model.HandLex.Lua
import Verif.Model.HandLex.Matlab
import Verif.Model.HandLex.Mermaid
import Verif.Model.HandLex.Msil
import Verif.Model.HandLex.Nginx
import Verif.Model.HandLex.Nim
import Verif.Model.HandLex.Nix
import Verif.Model.HandLex.ObjectiveC
import Verif.Model.HandLex.Ocaml
import Verif.Model.HandLex.OrgMode
import Verif.Model.HandLex.Pascal
import Verif.Model.HandLex.Perl
import Verif.Model.HandLex.Php
import Verif.Model.HandLex.Powershell
import Verif.Model.HandLex.Prolog
import Verif.Model.HandLex.Protobuf
import Verif.Model.HandLex.Purescript
import Verif.Model.HandLex.Rbq
import Verif.Model.HandLex.Smalltalk
import Verif.Model.HandLex.Solidity
import Verif.Model.HandLex.Sql
import Verif.Model.HandLex.Swift
import Verif.Model.HandLex.Tailwind
import Verif.Model.HandLex.Tex
import Verif.Model.HandLex.Toml
import Verif.Model.HandLex.Twig
import Verif.Model.HandLex.Typescript
import Verif.Model.HandLex.Vala
import Verif.Model.HandLex.Verilog
import Verif.Model.HandLex.Vhdl
import Verif.Model.HandLex.Vlang
import Verif.Model.HandLex.Voml
import Verif.Model.HandLex.Wat
import Verif.Model.HandLex.Wgsl
import Verif.Model.HandLex.WitComponent
import Verif.Model.HandLex.Wolfram
import Verif.Model.HandLex.Zig
import Verif.Model.HandPratt.Actionscript
import Verif.Model.HandPratt.C
import Verif.Model.HandPratt.Cpp
import Verif.Model.HandPratt.Csharp
import Verif.Model.HandPratt.Elixir
import Verif.Model.HandPratt.Go
import Verif.Model.HandPratt.Javascript
import Verif.Model.HandPratt.Kotlin
import Verif.Model.HandPratt.Lua
import Verif.Model.HandPratt.Mojo
import Verif.Model.HandPratt.Php
import Verif.Model.HandPratt.Ruby
import Verif.Model.HandPratt.Rust
import Verif.Model.HandPratt.Scala
import Verif.Model.HandPratt.Sql
import Verif.Model.HandPratt.Swift
import Verif.Model.HandPratt.Wolfram
import Verif.Model.HandPratt.Zig
import Verif.Model.Hierarchy
import Verif.Model.Highlight
import Verif.Model.Index
import Verif.Model.Ini
import Verif.Model.Json
import Verif.Model.JsonSerde
import Verif.Model.LexAgain
import Verif.Model.LexCode
import Verif.Model.Lexer
import Verif.Model.LineMap
import Verif.Model.Lsp
import Verif.Model.Mcp
import Verif.Model.Parser
import Verif.Model.Pratt
import Verif.Model.Printer
import Verif.Model.Prog
import Verif.Model.Prs
import Verif.Model.ReadText
import Verif.Model.Regex
import Verif.Model.Repl
import Verif.Model.Rules
import Verif.Model.Scan
import Verif.Model.Session
import Verif.Model.Simd
import Verif.Model.Source
import Verif.Model.SourceBuffer
import Verif.Model.SourceRuns
import Verif.Model.Svg
import Verif.Model.Toml
import Verif.Model.Tree
import Verif.Model.TreeLayout
import Verif.Model.Vfs
import Verif.Model.Visit
import Verif.Model.Xml
import Verif.Model.XmlSerde
import Verif.Proofs.Arena
import Verif.Proofs.Chunkify
import Verif.Proofs.Comment
import Verif.Proofs.CsvDoc
import Verif.Proofs.CsvLex
import Verif.Proofs.CsvParse
import Verif.Proofs.Cursor
import Verif.Proofs.CursorBytes
import Verif.Proofs.CursorRuns
import Verif.Proofs.Diagnostic
import Verif.Proofs.DiagnosticHtml
import Verif.Proofs.DiskVfs
import Verif.Proofs.Edits
import Verif.Proofs.Errors
import Verif.Proofs.Flat
import Verif.Proofs.Formatter
import Verif.Proofs.Golden
import Verif.Proofs.Graph
import Verif.Proofs.GraphCycles
import Verif.Proofs.GraphLayers
import Verif.Proofs.GraphLayout
import Verif.Proofs.HandJudge
import Verif.Proofs.HandSpin
import Verif.Proofs.Hierarchy
import Verif.Proofs.Highlight
import Verif.Proofs.Index
import Verif.Proofs.IniLex
import Verif.Proofs.IniParse
import Verif.Proofs.JsonBuild
import Verif.Proofs.JsonLex
import Verif.Proofs.JsonParse
import Verif.Proofs.JsonSerde
import Verif.Proofs.JsonUnique
import Verif.Proofs.Lawful
import Verif.Proofs.LexChain
import Verif.Proofs.LexChainRightA
import Verif.Proofs.LexChainRightB
import Verif.Proofs.LexCode
import Verif.Proofs.LexCodeBits
import Verif.Proofs.LexCodeCheck
import Verif.Proofs.LexCodeDomain
import Verif.Proofs.LexCodeEnd
import Verif.Proofs.LexCodeHang
import Verif.Proofs.LexCodeSteps
import Verif.Proofs.LexComment
import Verif.Proofs.LexForms
import Verif.Proofs.LexFormsRightA
import Verif.Proofs.LexFormsRightB
import Verif.Proofs.LexPass1
import Verif.Proofs.LexPass2
import Verif.Proofs.LexPass3
import Verif.Proofs.LexPass4
import Verif.Proofs.LexPhrasesRightA
import Verif.Proofs.LexPhrasesRightB
import Verif.Proofs.LexPhrasesRightC
import Verif.Proofs.LexPhrasesRightD
import Verif.Proofs.LexRun
import Verif.Proofs.LexScan
import Verif.Proofs.LexString
import Verif.Proofs.LexSweep
import Verif.Proofs.LexTrace
import Verif.Proofs.LexWords
import Verif.Proofs.LexWordsRightA
import Verif.Proofs.LexWordsRightB
import Verif.Proofs.LexWordsRightC
import Verif.Proofs.LexWordsRightD
import Verif.Proofs.Lexer
import Verif.Proofs.LineMap
import Verif.Proofs.Lsp
import Verif.Proofs.OpParsers
import Verif.Proofs.Parser
import Verif.Proofs.ParserAt
import Verif.Proofs.Pratt
import Verif.Proofs.PrattJudge
import Verif.Proofs.PrattJudge2
import Verif.Proofs.Printer
import Verif.Proofs.Prog
import Verif.Proofs.ProgBare
import Verif.Proofs.ProgCheck
import Verif.Proofs.ProgClimb
import Verif.Proofs.ProgCover
import Verif.Proofs.ProgKinds
import Verif.Proofs.ProgRun
import Verif.Proofs.ProgSim
import Verif.Proofs.ProgStill
import Verif.Proofs.ProgTrace
import Verif.Proofs.Prs
import Verif.Proofs.RegexBuild
import Verif.Proofs.RegexLex
import Verif.Proofs.RegexParse
import Verif.Proofs.Repl
import Verif.Proofs.Rope
import Verif.Proofs.Rules
import Verif.Proofs.Scan
import Verif.Proofs.ScanEval
import Verif.Proofs.ScanRuns
import Verif.Proofs.Search
import Verif.Proofs.Simd
import Verif.Proofs.Svg
import Verif.Proofs.Table
import Verif.Proofs.TextIn
import Verif.Proofs.Toml
import Verif.Proofs.Tree
import Verif.Proofs.TreeLayout
import Verif.Proofs.Vfs
import Verif.Proofs.VfsThreads
import Verif.Proofs.Visit
import Verif.Proofs.XmlBuild
import Verif.Proofs.XmlDoc
import Verif.Proofs.XmlLex
import Verif.Proofs.XmlParse
import Verif.Proofs.XmlPiece
import Verif.Proofs.XmlSerde
import Verif.Proofs.XmlSerdeTyped
import Verif.Proofs.XmlTrip
import Verif.Proofs.XmlWrite
import Verif.Props.Arena
import Verif.Props.Chunks
import Verif.Props.Comment
import Verif.Props.Csv
import Verif.Props.Cursor
import Verif.Props.Definition
import Verif.Props.Diagnostic
import Verif.Props.DiskVfs
import Verif.Props.Errors
import Verif.Props.Flat
import Verif.Props.Formatter
import Verif.Props.Geometry
import Verif.Props.Golden
import Verif.Props.Graph
import Verif.Props.GraphLayout
import Verif.Props.Hand
import Verif.Props.HandLex
import Verif.Props.HandOps
import Verif.Props.HandPratt
import Verif.Props.Hierarchy
import Verif.Props.Highlight
import Verif.Props.Index
import Verif.Props.Ini
import Verif.Props.Json
import Verif.Props.JsonBuild
import Verif.Props.JsonParse
import Verif.Props.JsonSerde
import Verif.Props.LexAgain
import Verif.Props.LexChain
import Verif.Props.LexChainTable
import Verif.Props.LexForms
import Verif.Props.LexFormsTable
import Verif.Props.LexPhrases
import Verif.Props.LexPhrasesTable
import Verif.Props.LexWords
import Verif.Props.LexWordsTable
import Verif.Props.Lexer
import Verif.Props.LineMap
import Verif.Props.Lsp
import Verif.Props.Mcp
import Verif.Props.Parser
import Verif.Props.Pratt
import Verif.Props.Printer
import Verif.Props.ReadText
import Verif.Props.Regex
import Verif.Props.Repl
import Verif.Props.Rules
import Verif.Props.Scan
import Verif.Props.Session
import Verif.Props.Source
import Verif.Props.SourceBuffer
import Verif.Props.Svg
import Verif.Props.Toml
import Verif.Props.Tree
import Verif.Props.TreeLayout
import Verif.Props.Vfs
import Verif.Props.Xml
import Verif.Props.XmlSerde
import Verif.Props.XmlTree
import Verif.Spec.Arena
import Verif.Spec.Chunks
import Verif.Spec.Comment
import Verif.Spec.Csv
import Verif.Spec.Cursor
import Verif.Spec.Definition
import Verif.Spec.Diagnostic
import Verif.Spec.DiskVfs
import Verif.Spec.Errors
import Verif.Spec.Formatter
import Verif.Spec.Geometry
import Verif.Spec.Golden
import Verif.Spec.Graph
import Verif.Spec.GraphLayout
import Verif.Spec.HandLex
import Verif.Spec.Hierarchy
import Verif.Spec.Highlight
import Verif.Spec.Index
import Verif.Spec.Ini
import Verif.Spec.Json
import Verif.Spec.JsonSerde
import Verif.Spec.LexChain
import Verif.Spec.LexForms
import Verif.Spec.LexPhrases
import Verif.Spec.LexWords
import Verif.Spec.Lexer
import Verif.Spec.LineMap
import Verif.Spec.Lsp
import Verif.Spec.Mcp
import Verif.Spec.OpDraw
import Verif.Spec.OpTables
import Verif.Spec.Parser
import Verif.Spec.Pieces
import Verif.Spec.Pratt
import Verif.Spec.Printer
import Verif.Spec.ReadText
import Verif.Spec.Regex
import Verif.Spec.Repl
import Verif.Spec.Rules
import Verif.Spec.Scan
import Verif.Spec.Search
import Verif.Spec.Source
import Verif.Spec.Svg
import Verif.Spec.Text
import Verif.Spec.Toml
import Verif.Spec.Tree
import Verif.Spec.TreeLayout
import Verif.Spec.Vfs
import Verif.Spec.Words
import Verif.Spec.Xml
import Verif.Spec.XmlSerde
import Verif.Spec.XmlTree
