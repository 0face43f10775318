# Which code each model definition follows

Generated from the comments of `lean/Verif/Model`. A definition's own comment states its simplifications.

### Model/Arena.lean

* `chunkSize` – arena.rs:47
* `Heap` – arena.rs:62-64
* `Arena` – arena.rs:71-84
* `Arena.new` – arena.rs:91-95
* `alignUp` – arena.rs:224, 267
* `Heap.allocChunk` – arena.rs:277-296
* `Arena.retire` – arena.rs:243-251
* `allocSlow` – arena.rs:241-274
* `allocRaw` – arena.rs:210-233
* `Heap.recycle` – arena.rs:325-344
* `Heap.recycleAll` – arena.rs:312-314
* `Arena.drop` – arena.rs:299-317
* `Mem` – memory/arena.rs:86-317
* `Mem.empty` – memory/arena.rs:62-64
* `Mem.newArena` – memory/arena.rs:91-95
* `Mem.alloc` – memory/arena.rs:210-233
* `Mem.dropArena` – memory/arena.rs:299-317
* `addMetadata` – memory/arena.rs:98-102
* `getMetadata` – memory/arena.rs:105-108

### Model/Chunks.lean

* `CodeChunk` – oak-semantic-search/src/lib.rs:37-47
* `enterChunk` – oak-semantic-search/src/lib.rs:69-83
* `collectChunks` – oak-semantic-search/src/lib.rs:68-89, 98-100
* `Searcher` – oak-semantic-search/src/lib.rs:50
* `Searcher.indexCode` – oak-semantic-search/src/lib.rs:98-110
* `Searcher.search` – oak-semantic-search/src/lib.rs:114-117

### Model/Comment.lean

* `CKind` – comment/mod.rs:23-30
* `Comment` – comment/mod.rs:34-45
* `trimWs` – comment/mod.rs:93, 99, 110, 119
* `CKind.marker` – comment/mod.rs:82-86
* `CKind.suffix` – comment/mod.rs:88-91
* `blockRow` – comment/mod.rs:107-112
* `Comment.formatted` – comment/mod.rs:81-124
* `commentsIn` – comment/mod.rs:155-172
* `commentsBefore` – comment/mod.rs:160-162
* `commentsAfter` – comment/mod.rs:165-167
* `trailingComments` – comment/mod.rs:170-172
* `sortComments` – comment/mod.rs:180-182
* `processComments` – comment/mod.rs:228-245
* `insertLoop` – comment/mod.rs:250-256
* `insertAt` – comment/mod.rs:248-257
* `insertFirst` – comment/mod.rs:262-268
* `insertTrailing` – comment/mod.rs:260-269

### Model/Csv.lean

* `CsvLexer` – lexer/mod.rs:10-14
* `CsvLexer.default` – lexer/mod.rs:28-30
* `newline` – lexer/token_type.rs:12
* `field` – lexer/token_type.rs:15
* `comma` – lexer/token_type.rs:21
* `eof` – lexer/token_type.rs:28
* `error` – lexer/token_type.rs:30
* `skipWhitespace` – lexer/mod.rs:43-64
* `lexNewline` – lexer/mod.rs:67-92
* `quotedLoop` – lexer/mod.rs:101-116
* `lexQuoted` – lexer/mod.rs:95-127
* `lexUnquoted` – lexer/mod.rs:130-151
* `lexComma` – lexer/mod.rs:154-170
* `step` – lexer/mod.rs:174-200
* `run` – lexer/mod.rs:173-201
* `lex` – lexer/mod.rs:17-24
* `ign` – lexer/token_type.rs:37-39
* `record` – parser/element_type.rs:13
* `fieldNode` – parser/element_type.rs:15
* `notAtEnd` – state.rs:374-376
* `bumpIf` – parse_top_level.rs:15-17, 39-44
* `parseField` – parse_top_level.rs:37-47
* `recordLoop` – parse_top_level.rs:28-31
* `parseRecord` – parse_top_level.rs:23-35
* `rootLoop` – parse_top_level.rs:13-18
* `parseRoot` – parse_top_level.rs:9-21
* `parse` – parser/mod.rs:25-28; parser/mod.rs:77-120

### Model/Cursor.lean

* `Cur` – cursor.rs:19-24
* `newAt` – cursor.rs:39-44
* `setPosition` – cursor.rs:55-59
* `ensureChunk` – cursor.rs:68-78
* `rest` – cursor.rs:81-84
* `chunkEnd` – cursor.rs:87-90
* `nextBoundary` – cursor.rs:105-108, 384-387
* `peekChar` – cursor.rs:93-117
* `getCharAt` – source/mod.rs:121-123
* `peekNextN` – cursor.rs:120-131
* `peekNextChar` – cursor.rs:134-137
* `tailBytes` – cursor.rs:144-145
* `skipWith` – cursor.rs:140-241
* `skipAsciiWhitespace` – cursor.rs:140-163
* `skipAsciiDigits` – cursor.rs:166-189
* `skipAsciiIdentContinue` – cursor.rs:192-215
* `skipUntil` – cursor.rs:218-241
* `peekByte` – cursor.rs:245-257
* `advanceBytes` – cursor.rs:260-263
* `advanceChar` – cursor.rs:266-270
* `advanceByte` – cursor.rs:274-278
* `scanChars` – cursor.rs:304-315
* `tailText` – cursor.rs:287-297
* `takeWhile` – cursor.rs:281-331
* `scanBytes` – cursor.rs:351-361
* `takeWhileByte` – cursor.rs:335-370
* `gather` – cursor.rs:399-403
* `startsWith` – cursor.rs:373-405
* `consumeIfStartsWith` – cursor.rs:408-414
* `findStrLoop` – cursor.rs:425-451
* `findStr` – cursor.rs:417-453
* `findCharLoop` – source/mod.rs:161-172
* `findCharFrom` – source/mod.rs:158-173
* `findStrFrom` – source/mod.rs:185-188
* `getTextFrom` – source/mod.rs:141-146

### Model/CursorRuns.lean

* `rangeOf` – cursor.rs:141,162
* `Cur.step` – cursor.rs:40-454
* `Cur.run` – cursor.rs:40-454
* `Cur.readBytes` – cursor.rs:274

### Model/Definition.lean

* `FileWorld` – oak-resolver/src/lib.rs:44-62
* `pathJoin` – oak-resolver/src/lib.rs:47, 57
* `resolveRoots` – oak-resolver/src/lib.rs:56-61
* `resolveImport` – oak-resolver/src/lib.rs:41-64
* `Workspace` – workspace.rs:8-15
* `Workspace.new` – workspace.rs:19-21
* `initFolder` – workspace.rs:26-33, 35-42
* `Workspace.initialize` – workspace.rs:24-45
* `Workspace.add` – workspace.rs:48-54
* `Workspace.remove` – workspace.rs:57-59
* `Location` – oak-lsp/src/types.rs:39-46
* `definitionOf` – service.rs:177-199
* `definition` – service.rs:156-201
* `documentSymbolsRequest` – service.rs:99-115
* `workspaceSymbolsRequest` – service.rs:121-123

### Model/Diagnostic.lean

* `DLabel` – oak-diagnostic/src/lib.rs:29-37
* `Severity` – oak-diagnostic/src/lib.rs:18-25
* `Diag` – oak-diagnostic/src/lib.rs:41-56
* `ErrKind` – oak-diagnostic/src/lib.rs:137-165; errors/mod.rs:146-150
* `errorLabel` – oak-diagnostic/src/lib.rs:140-142
* `errorLabels` – oak-diagnostic/src/lib.rs:130-168
* `splitInclusive` – oak-diagnostic/src/lib.rs:211, 356, 463
* `chompLine` – oak-diagnostic/src/lib.rs:211
* `rustLines` – oak-diagnostic/src/lib.rs:211, 356, 463
* `padLeft` – oak-diagnostic/src/lib.rs:289, 411
* `Chars` – oak-diagnostic/src/lib.rs:248-263
* `Chars.of` – oak-diagnostic/src/lib.rs:255-263
* `SnipPos` – oak-diagnostic/src/lib.rs:269-276, 392-399, 498-505
* `snipPos` – oak-diagnostic/src/lib.rs:268-275, 391-398, 497-504
* `underlineLen` – oak-diagnostic/src/lib.rs:292, 413, 523
* `times` – oak-diagnostic/src/lib.rs:278, 291-293
* `urlStr` – oak-diagnostic/src/lib.rs:281, 404, 508
* `plainMsg` – oak-diagnostic/src/lib.rs:416-421, 438-443
* `plainRow` – oak-diagnostic/src/lib.rs:425-449
* `plainSingle` – oak-diagnostic/src/lib.rs:410-422
* `plainSnippet` – oak-diagnostic/src/lib.rs:389-452
* `sevName` – oak-diagnostic/src/lib.rs:214-218, 359-363, 464-468
* `renderPlain` – oak-diagnostic/src/lib.rs:352-385
* `blue` – oak-diagnostic/src/lib.rs:283-335
* `labelColor` – oak-diagnostic/src/lib.rs:295, 308
* `consoleRow` – oak-diagnostic/src/lib.rs:309-333
* `consoleSingle` – oak-diagnostic/src/lib.rs:288-304
* `consoleSnippet` – oak-diagnostic/src/lib.rs:266-336
* `sevColor` – oak-diagnostic/src/lib.rs:219-223
* `renderConsole` – oak-diagnostic/src/lib.rs:207-245
* `htmlMsg` – oak-diagnostic/src/lib.rs:526-529, 546-549
* `htmlNum` – oak-diagnostic/src/lib.rs:520, 537, 540, 552
* `htmlRow` – oak-diagnostic/src/lib.rs:533-555
* `htmlSingle` – oak-diagnostic/src/lib.rs:519-530
* `htmlBar` – oak-diagnostic/src/lib.rs:516, 557
* `htmlSnippet` – oak-diagnostic/src/lib.rs:496-560
* `renderHtml` – oak-diagnostic/src/lib.rs:459-492
* `LspDiag` – oak-diagnostic/src/lib.rs:590-615
* `lspRange` – oak-diagnostic/src/lib.rs:574-575, 601-602
* `lspRelated` – oak-diagnostic/src/lib.rs:599-613
* `renderLsp` – oak-diagnostic/src/lib.rs:571-618

### Model/DiskVfs.lean

* `Entry` – disk.rs:42, 67-77
* `Place` – disk.rs:25-28
* `Disk` – disk.rs:6
* `look` – disk.rs:42, 61, 67, 87
* `walk` – disk.rs:42, 61, 67, 87, 92, 107, 109, 116
* `DiskVfs` – disk.rs:9-16
* `DiskVfs.new` – disk.rs:20-22
* `isAbs` – disk.rs:27, 32
* `joinPath` – disk.rs:27
* `DiskVfs.path` – disk.rs:25-28
* `joinNames` – disk.rs:32
* `stripPrefix` – disk.rs:32
* `DiskVfs.uri` – disk.rs:31-34
* `wantsDir` – disk.rs:42, 61, 67, 87, 107, 109, 116
* `DiskVfs.start` – disk.rs:42
* `DiskVfs.locate` – disk.rs:42, 61, 67, 87, 107, 109, 116
* `DiskVfs.stat` – disk.rs:42, 61, 67, 87
* `DiskVfs.getSource` – disk.rs:41-45
* `DiskVfs.getUri` – disk.rs:48-51
* `DiskVfs.getId` – disk.rs:54-57
* `DiskVfs.exist` – disk.rs:60-62
* `DiskVfs.metadata` – disk.rs:65-82
* `namesIn` – disk.rs:92
* `DiskVfs.readDir` – disk.rs:85-98
* `makeDirs` – disk.rs:107
* `putFile` – disk.rs:109
* `DiskVfs.fsWrite` – disk.rs:109
* `DiskVfs.writeFile` – disk.rs:104-111
* `DiskVfs.removeFile` – disk.rs:114-118

### Model/Errors.lean

* `IoErr` – mod.rs:111
* `OakErr` – mod.rs:107-273
* `key` – mod.rs:277-303
* `showSource` – display.rs:23
* `showPlace` – display.rs:27
* `body` – display.rs:21-66
* `display` – display.rs:18-67; display.rs:10-14; mod.rs:80-84
* `withSourceId` – mod.rs:461-474
* `clone` – mod.rs:477-513
* `OakDiagnostics` – mod.rs:27-35
* `OakDiagnostics.hasErrors` – mod.rs:54-56

### Model/Flat.lean

* `FlatParser` – language/mod.rs:298-300; parser/parse_top_level.rs:6-12; parser/parse_top_level.rs:9-15
* `loop` – parser/parse_top_level.rs:8-10; parser/parse_top_level.rs:11-13
* `parse` – parser/parse_top_level.rs:5-14; parser/parse_top_level.rs:8-16; parser/mod.rs:77-120

### Model/Formatter.lean

* `FmtStop` – errors/mod.rs:1-5
* `liftRun` – formatter/mod.rs:109-152
* `FmtCtx` – formatter/mod.rs:36-48
* `FmtCtx.new` – formatter/mod.rs:52-56
* `FmtCtx.enter` – formatter/mod.rs:59-62
* `isInsideLoop` – formatter/mod.rs:65-74
* `FmtCtx.isInside` – formatter/mod.rs:65-74
* `FmtCtx.parentKind` – formatter/mod.rs:77-79
* `FmtRule` – rules/mod.rs:10-41
* `sliceOf` – formatter/mod.rs:150; builtin_rules/mod.rs:36
* `formatToken` – formatter/mod.rs:143-152
* `formatChild` – formatter/mod.rs:125-128
* `formatChildren` – formatter/mod.rs:122-131
* `formatNode` – formatter/mod.rs:117-140
* `FormatOutput` – formatter/mod.rs:11-16
* `formatTree` – formatter/mod.rs:108-114
* `FmtRoles` – builtin_rules/mod.rs:12, 26, 35; language/mod.rs:468-470
* `indentRule` – builtin_rules/mod.rs:10-21
* `statementRule` – builtin_rules/mod.rs:24-30
* `commaRule` – builtin_rules/mod.rs:33-43
* `builtinRules` – builtin_rules/mod.rs:6-45
* `formatterRules` – formatter/mod.rs:93-102; rules/mod.rs:38-40

### Model/Geometry.lean

* `Pt` – geometry/mod.rs:7-10
* `Pt.translate` – geometry/mod.rs:27-29
* `Pt.scale` – geometry/mod.rs:31-33
* `Sz` – geometry/mod.rs:60-63
* `Sz.scale` – geometry/mod.rs:82-84
* `Rct` – geometry/mod.rs:99-102
* `fromXywh` – geometry/mod.rs:109-111
* `minX` – geometry/mod.rs:138-140
* `minY` – geometry/mod.rs:142-144
* `maxX` – geometry/mod.rs:146-148
* `maxY` – geometry/mod.rs:150-152
* `fromPoints` – geometry/mod.rs:113-120
* `center` – geometry/mod.rs:154-156
* `containsPoint` – geometry/mod.rs:174-176
* `intersects` – geometry/mod.rs:178-180
* `union` – geometry/mod.rs:182-189
* `translate` – geometry/mod.rs:191-193
* `scale` – geometry/mod.rs:195-197
* `expand` – geometry/mod.rs:199-201
* `Trf` – geometry/mod.rs:212-219
* `identity` – geometry/mod.rs:222-224
* `translate` – geometry/mod.rs:226-228
* `scale` – geometry/mod.rs:230-232
* `apply` – geometry/mod.rs:241-243
* `compose` – geometry/mod.rs:245-254

### Model/Golden.lean

* `FPath` – lexing.rs:28, 100
* `Files` – lexing.rs:102
* `Files.get` – lib.rs:17-28
* `Files.put` – lib.rs:39-44; lexing.rs:237-239
* `Files.rename` – lexing.rs:223
* `lastDot` – lexing.rs:107, 217
* `extension` – lexing.rs:107
* `withExtension` – lexing.rs:217, 221
* `isOutput` – lexing.rs:112
* `findFiles` – lexing.rs:99-124; parsing.rs:96-120; building.rs:95-119
* `Job` – lexing.rs:144-175; parsing.rs:135-167
* `TestErr` – lexing.rs:171, 229-232; parsing.rs:196
* `Tester` – lexing.rs:217; parsing.rs:169; building.rs:172; parsing.rs:187-198
* `lexerTester` – lexing.rs:27-31
* `parserTester` – parsing.rs:23-27
* `builderTester` – building.rs:24-28
* `Tester.expected` – lexing.rs:217
* `Tester.migrate` – lexing.rs:220-225
* `Tester.compare` – lexing.rs:228-241; parsing.rs:179-198
* `Tester.testFile` – lexing.rs:125-244; parsing.rs:122-210; building.rs:121-203
* `Tester.testAll` – lexing.rs:85-88
* `Tester.runTests` – lexing.rs:75-97; parsing.rs:72-94; building.rs:71-93
* `TokenData` – lexing.rs:50-55
* `LexerResult` – lexing.rs:38-43
* `tokenData` – lexing.rs:204-210
* `lexerResult` – lexing.rs:187-214
* `Label` – parsing.rs:47
* `Ast` – parsing.rs:46-51
* `leafTotals` – parsing.rs:215-226
* `leavesChild` – parsing.rs:228-230
* `toAst` – parsing.rs:212-233
* `astNodes` – parsing.rs:218-220
* `countNodes` – parsing.rs:235-237
* `countList` – parsing.rs:236
* `ParserResult` – parsing.rs:34-39
* `parserResult` – parsing.rs:141-162

### Model/Graph.lean

* `Graph` – graph/mod.rs:92-96
* `neighborsOf` – graph/mod.rs:115-120
* `getNeighbors` – graph/mod.rs:111-124
* `getDegree` – graph/mod.rs:126-128
* `connLoop` – graph/mod.rs:139-151
* `isConnected` – graph/mod.rs:130-154
* `DfsState` – graph/mod.rs:171
* `cycleFrom` – graph/mod.rs:182-184
* `dfsCycles` – graph/mod.rs:171-190
* `findCycles` – graph/mod.rs:156-169
* `bump` – graph/mod.rs:518
* `lower` – graph/mod.rs:545-547
* `takeNode` – graph/mod.rs:540-549
* `minEntry` – graph/mod.rs:530
* `currentLayer` – graph/mod.rs:523-536
* `layerLoop` – graph/mod.rs:522-553
* `topologicalLayers` – graph/mod.rs:507-556

### Model/GraphLayout.lean

* `GNode` – graph/mod.rs:11-19
* `GEdge` – graph/mod.rs:47-57
* `VGraph` – graph/mod.rs:91-96
* `GraphCfg` – graph/mod.rs:560-573
* `GraphCfg.std` – graph/mod.rs:575-579
* `GraphCfg.sizeOf` – graph/mod.rs:351, 389, 431, 471
* `addGNode` – graph/mod.rs:353-359, 391-397, 433-439, 473-479
* `addStraight` – graph/mod.rs:364-369, 401-406, 444-449, 483-488
* `ceilSqrt` – graph/mod.rs:463
* `gridRect` – graph/mod.rs:467-472
* `gridLoop` – graph/mod.rs:466-480
* `gridLayout` – graph/mod.rs:455-491
* `VGraph.plain` – graph/mod.rs:507
* `layerRect` – graph/mod.rs:424-432
* `layerNodes` – graph/mod.rs:428-440
* `layersLoop` – graph/mod.rs:423-441
* `layersLayout` – graph/mod.rs:412-452
* `around` – graph/mod.rs:352, 390
* `circleLoop` – graph/mod.rs:386-398
* `circularLayout` – graph/mod.rs:375-409
* `distanceTo` – geometry/mod.rs:21-25
* `push` – graph/mod.rs:306-307, 324-325
* `pushPair` – graph/mod.rs:306-307, 324-325
* `repel` – graph/mod.rs:296-308
* `repelFrom` – graph/mod.rs:295-309
* `repelAll` – graph/mod.rs:293-310
* `attractAll` – graph/mod.rs:313-328
* `newVelocity` – graph/mod.rs:333-341
* `Motion` – graph/mod.rs:272-273
* `moveAll` – graph/mod.rs:331-345
* `forces` – graph/mod.rs:285-328
* `simulate` – graph/mod.rs:284-346
* `startLoop` – graph/mod.rs:276-281
* `forceNodes` – graph/mod.rs:349-361
* `forceLayout` – graph/mod.rs:265-372
* `organicLayout` – graph/mod.rs:494-504
* `GraphAlg` – graph/mod.rs:583-589
* `layoutGraph` – graph/mod.rs:254-262

### Model/Hand/Ada.lean

* `tWhitespace` – lexer/token_type.rs:9
* `tNewline` – lexer/token_type.rs:10
* `tComment` – lexer/token_type.rs:11
* `tIdentifier` – lexer/token_type.rs:16
* `tBody` – lexer/token_type.rs:29
* `tEnd` – lexer/token_type.rs:39
* `tFunction` – lexer/token_type.rs:44
* `tIs` – lexer/token_type.rs:50
* `tPackage` – lexer/token_type.rs:62
* `tPragma` – lexer/token_type.rs:63
* `tProcedure` – lexer/token_type.rs:65
* `tReturn` – lexer/token_type.rs:73
* `tWith` – lexer/token_type.rs:89
* `tDot` – lexer/token_type.rs:107
* `tSemicolon` – lexer/token_type.rs:111
* `tLeftParen` – lexer/token_type.rs:116
* `tRightParen` – lexer/token_type.rs:117
* `tEof` – lexer/token_type.rs:128
* `eRoot` – parser/element_type.rs:15
* `eContextClause` – parser/element_type.rs:19
* `ePragma` – parser/element_type.rs:21
* `eSubprogramDeclaration` – parser/element_type.rs:23
* `ePackageDeclaration` – parser/element_type.rs:25
* `pParseContextClause` – parser/mod.rs:24-41
* `pParsePackageDeclaration` – parser/mod.rs:43-71
* `pParseSubprogramDeclaration` – parser/mod.rs:73-113
* `pParsePragma` – parser/mod.rs:115-131
* `parseContextClause` – parser/mod.rs:24-41
* `parsePackageDeclaration` – parser/mod.rs:43-71
* `parseSubprogramDeclaration` – parser/mod.rs:73-113
* `parsePragma` – parser/mod.rs:115-131
* `main` – parser/mod.rs:135-160
* `parser` – parser/mod.rs:135-160; lexer/token_type.rs:228-234; language/mod.rs:298-300

### Model/Hand/Apl.lean

* `tWhitespace` – lexer/token_type.rs:9
* `tNewline` – lexer/token_type.rs:10
* `tComment` – lexer/token_type.rs:11
* `tStringLiteral` – lexer/token_type.rs:13
* `tNumberLiteral` – lexer/token_type.rs:14
* `tIdentifier` – lexer/token_type.rs:15
* `tLeftArrow` – lexer/token_type.rs:18
* `tDiamond` – lexer/token_type.rs:20
* `tLeftParen` – lexer/token_type.rs:73
* `tRightParen` – lexer/token_type.rs:74
* `tLeftBrace` – lexer/token_type.rs:77
* `tRightBrace` – lexer/token_type.rs:78
* `tEof` – lexer/token_type.rs:81
* `eRoot` – parser/element_type.rs:15
* `eStatement` – parser/element_type.rs:17
* `eExpression` – parser/element_type.rs:19
* `eAssignment` – parser/element_type.rs:21
* `pParseStatement` – parser/mod.rs:25-41
* `pParseExpression` – parser/mod.rs:44-78
* `parseStatement` – parser/mod.rs:25-41
* `parseExpression` – parser/mod.rs:44-78
* `main` – parser/mod.rs:82-107
* `parser` – parser/mod.rs:82-107; lexer/token_type.rs:103-109; language/mod.rs:298-300

### Model/Hand/Bash.lean

* `tWhitespace` – lexer/token_type.rs:11
* `tNewline` – lexer/token_type.rs:13
* `tComment` – lexer/token_type.rs:15
* `tKeyword` – lexer/token_type.rs:25
* `tDelimiter` – lexer/token_type.rs:29
* `tEof` – lexer/token_type.rs:45
* `eRoot` – parser/element_type.rs:13
* `eCommandStatement` – parser/element_type.rs:15
* `pParseStatement` – parser/mod.rs:27-42
* `pParseCommand` – parser/mod.rs:44-51
* `parseStatement` – parser/mod.rs:27-42
* `parseCommand` – parser/mod.rs:44-51
* `main` – parser/mod.rs:55-71
* `parser` – parser/mod.rs:55-71; lexer/token_type.rs:52-54

### Model/Hand/Bat.lean

* `tWhitespace` – lexer/token_type.rs:11
* `tNewline` – lexer/token_type.rs:13
* `tComment` – lexer/token_type.rs:15
* `tEof` – lexer/token_type.rs:39
* `eRoot` – parser/element_type.rs:13
* `main` – parser/mod.rs:29-38
* `parser` – parser/mod.rs:29-38; lexer/token_type.rs:50-56; language/mod.rs:298-300

### Model/Hand/Cmd.lean

* `tWhitespace` – lexer/token_type.rs:11
* `tNewline` – lexer/token_type.rs:13
* `tComment` – lexer/token_type.rs:15
* `tEof` – lexer/token_type.rs:39
* `eRoot` – parser/element_type.rs:13
* `main` – parser/mod.rs:29-38
* `parser` – parser/mod.rs:29-38; lexer/token_type.rs:50-56; language/mod.rs:298-300

### Model/Hand/Cobol.lean

* `tWhitespace` – lexer/token_type.rs:10
* `tNewline` – lexer/token_type.rs:11
* `tComment` – lexer/token_type.rs:12
* `tIdentifier` – lexer/token_type.rs:15
* `tStringLiteral` – lexer/token_type.rs:16
* `tNumberLiteral` – lexer/token_type.rs:17
* `tAccept` – lexer/token_type.rs:21
* `tAdd` – lexer/token_type.rs:22
* `tDisplay` – lexer/token_type.rs:29
* `tMove` – lexer/token_type.rs:37
* `tStop` – lexer/token_type.rs:48
* `tData` – lexer/token_type.rs:55
* `tDivision` – lexer/token_type.rs:56
* `tSection` – lexer/token_type.rs:57
* `tWorkingStorage` – lexer/token_type.rs:58
* `tFileSection` – lexer/token_type.rs:59
* `tLinkageSection` – lexer/token_type.rs:60
* `tIdentification` – lexer/token_type.rs:69
* `tProgram` – lexer/token_type.rs:70
* `tEnvironment` – lexer/token_type.rs:71
* `tProcedure` – lexer/token_type.rs:75
* `tPic` – lexer/token_type.rs:78
* `tPicture` – lexer/token_type.rs:79
* `tValue` – lexer/token_type.rs:80
* `tPeriod` – lexer/token_type.rs:148
* `eSourceFile` – parser/element_type.rs:13
* `eIdentificationDivision` – parser/element_type.rs:15
* `eProgramIdParagraph` – parser/element_type.rs:17
* `eEnvironmentDivision` – parser/element_type.rs:19
* `eDataDivision` – parser/element_type.rs:21
* `eProcedureDivision` – parser/element_type.rs:23
* `eDisplayStatement` – parser/element_type.rs:25
* `eAcceptStatement` – parser/element_type.rs:27
* `eAddStatement` – parser/element_type.rs:29
* `eStopStatement` – parser/element_type.rs:31
* `eMoveStatement` – parser/element_type.rs:33
* `eWorkingStorageSection` – parser/element_type.rs:37
* `eDataItem` – parser/element_type.rs:39
* `pParseIdentificationDivision` – parser/parse_top_level.rs:32-50
* `pParseProgramId` – parser/parse_top_level.rs:52-62
* `pParseEnvironmentDivision` – parser/parse_top_level.rs:64-76
* `pParseDataDivision` – parser/parse_top_level.rs:78-95
* `pParseWorkingStorageSection` – parser/parse_top_level.rs:97-114
* `pParseDataItem` – parser/parse_top_level.rs:116-138
* `pParseProcedureDivision` – parser/parse_top_level.rs:140-169
* `pParseDisplayStatement` – parser/parse_top_level.rs:171-187
* `pParseStopStatement` – parser/parse_top_level.rs:189-199
* `pParseMoveStatement` – parser/parse_top_level.rs:201-214
* `pParseAcceptStatement` – parser/parse_top_level.rs:216-228
* `pParseAddStatement` – parser/parse_top_level.rs:230-244
* `pConsumePeriod` – parser/parse_top_level.rs:246-250
* `pIsDivisionStart` – parser/parse_top_level.rs:252-254
* `pIsStatementEnd` – parser/parse_top_level.rs:256-258
* `parseIdentificationDivision` – parser/parse_top_level.rs:32-50
* `parseProgramId` – parser/parse_top_level.rs:52-62
* `parseEnvironmentDivision` – parser/parse_top_level.rs:64-76
* `parseDataDivision` – parser/parse_top_level.rs:78-95
* `parseWorkingStorageSection` – parser/parse_top_level.rs:97-114
* `parseDataItem` – parser/parse_top_level.rs:116-138
* `parseProcedureDivision` – parser/parse_top_level.rs:140-169
* `parseDisplayStatement` – parser/parse_top_level.rs:171-187
* `parseStopStatement` – parser/parse_top_level.rs:189-199
* `parseMoveStatement` – parser/parse_top_level.rs:201-214
* `parseAcceptStatement` – parser/parse_top_level.rs:216-228
* `parseAddStatement` – parser/parse_top_level.rs:230-244
* `consumePeriod` – parser/parse_top_level.rs:246-250
* `isDivisionStart` – parser/parse_top_level.rs:252-254
* `isStatementEnd` – parser/parse_top_level.rs:256-258
* `main` – parser/parse_top_level.rs:8-30
* `parser` – parser/parse_top_level.rs:8-30; lexer/token_type.rs:171-172; language/mod.rs:298-300

### Model/Hand/Coq.lean

* `tIdentifier` – lexer/token_type.rs:32
* `tTheorem` – lexer/token_type.rs:35
* `tLemma` – lexer/token_type.rs:36
* `tDefinition` – lexer/token_type.rs:41
* `tProof` – lexer/token_type.rs:56
* `tQed` – lexer/token_type.rs:57
* `tAdmitted` – lexer/token_type.rs:59
* `tColon` – lexer/token_type.rs:130
* `tSemicolon` – lexer/token_type.rs:131
* `tDot` – lexer/token_type.rs:133
* `tEof` – lexer/token_type.rs:177
* `eRoot` – parser/element_type.rs:152
* `eDeclaration` – parser/element_type.rs:153
* `eStatement` – parser/element_type.rs:154
* `eExpression` – parser/element_type.rs:155
* `pParseDeclaration` – parser/parse_top_level.rs:29-45
* `pParseProof` – parser/parse_top_level.rs:47-71
* `pParseTerm` – parser/parse_top_level.rs:73-80
* `parseDeclaration` – parser/parse_top_level.rs:29-45
* `parseProof` – parser/parse_top_level.rs:47-71
* `parseTerm` – parser/parse_top_level.rs:73-80
* `main` – parser/parse_top_level.rs:11-27
* `parser` – parser/parse_top_level.rs:11-27; lexer/token_type.rs:11-13

### Model/Hand/Css.lean

* `tWhitespace` – lexer/token_type.rs:10
* `tNewline` – lexer/token_type.rs:12
* `tComment` – lexer/token_type.rs:14
* `tColon` – lexer/token_type.rs:91
* `tSemicolon` – lexer/token_type.rs:93
* `tLeftBrace` – lexer/token_type.rs:126
* `tRightBrace` – lexer/token_type.rs:128
* `tAtImport` – lexer/token_type.rs:135
* `tAtMedia` – lexer/token_type.rs:137
* `tAtRule` – lexer/token_type.rs:153
* `eSourceFile` – parser/element_type.rs:11
* `eRuleSet` – parser/element_type.rs:13
* `eSelectorList` – parser/element_type.rs:15
* `eDeclarationBlock` – parser/element_type.rs:19
* `eDeclaration` – parser/element_type.rs:21
* `eProperty` – parser/element_type.rs:23
* `eValue` – parser/element_type.rs:25
* `eAtRule` – parser/element_type.rs:27
* `pParseAtRule` – parser/mod.rs:50-71
* `pParseRuleset` – parser/mod.rs:74-98
* `pParseSelectors` – parser/mod.rs:101-108
* `pParseDeclaration` – parser/mod.rs:111-134
* `parseAtRule` – parser/mod.rs:50-71
* `parseRuleset` – parser/mod.rs:74-98
* `parseSelectors` – parser/mod.rs:101-108
* `parseDeclaration` – parser/mod.rs:111-134
* `main` – parser/mod.rs:39-47
* `parser` – parser/mod.rs:39-47; lexer/token_type.rs:165-167

### Model/Hand/Dart.lean

* `tWhitespace` – lexer/token_type.rs:18
* `tNewline` – lexer/token_type.rs:20
* `tIdentifier` – lexer/token_type.rs:22
* `tClass` – lexer/token_type.rs:50
* `tDynamic` – lexer/token_type.rs:64
* `tInt` – lexer/token_type.rs:104
* `tVoid` – lexer/token_type.rs:154
* `tEqual` – lexer/token_type.rs:174
* `tLeftParen` – lexer/token_type.rs:248
* `tRightParen` – lexer/token_type.rs:250
* `tLeftBrace` – lexer/token_type.rs:256
* `tRightBrace` – lexer/token_type.rs:258
* `tSemicolon` – lexer/token_type.rs:260
* `tLineComment` – lexer/token_type.rs:270
* `tBlockComment` – lexer/token_type.rs:272
* `tDocComment` – lexer/token_type.rs:274
* `eRoot` – parser/element_type.rs:8
* `eClassDeclaration` – parser/element_type.rs:9
* `eFunctionDeclaration` – parser/element_type.rs:10
* `eVariableDeclaration` – parser/element_type.rs:142
* `main` – parser/parse_top_level.rs:9-69
* `parser` – parser/parse_top_level.rs:9-69; lexer/token_type.rs:285-287

### Model/Hand/Fsharp.lean

* `tWhitespace` – lexer/token_type.rs:13
* `tNewline` – lexer/token_type.rs:14
* `tIdentifier` – lexer/token_type.rs:17
* `tLet` – lexer/token_type.rs:26
* `tRec` – lexer/token_type.rs:27
* `tIf` – lexer/token_type.rs:30
* `tThen` – lexer/token_type.rs:31
* `tElse` – lexer/token_type.rs:32
* `tModule` – lexer/token_type.rs:48
* `tNamespace` – lexer/token_type.rs:49
* `tOpen` – lexer/token_type.rs:50
* `tEqual` – lexer/token_type.rs:144
* `tDot` – lexer/token_type.rs:212
* `tLineComment` – lexer/token_type.rs:221
* `tBlockComment` – lexer/token_type.rs:222
* `eRoot` – parser/element_type.rs:9
* `eExpression` – parser/element_type.rs:10
* `eLet` – parser/element_type.rs:24
* `eIf` – parser/element_type.rs:28
* `eModule` – parser/element_type.rs:46
* `eNamespace` – parser/element_type.rs:47
* `eOpen` – parser/element_type.rs:48
* `pParseNamespace` – parser/parse_top_level.rs:25-37
* `pParseModule` – parser/parse_top_level.rs:39-49
* `pParseOpen` – parser/parse_top_level.rs:51-63
* `pParseBinding` – parser/parse_top_level.rs:65-89
* `pParseExpression` – parser/parse_top_level.rs:91-122
* `parseNamespace` – parser/parse_top_level.rs:25-37
* `parseModule` – parser/parse_top_level.rs:39-49
* `parseOpen` – parser/parse_top_level.rs:51-63
* `parseBinding` – parser/parse_top_level.rs:65-89
* `parseExpression` – parser/parse_top_level.rs:91-122
* `main` – parser/parse_top_level.rs:9-23
* `parser` – parser/parse_top_level.rs:9-23; lexer/token_type.rs:306-308

### Model/Hand/Handlebars.lean

* `tWhitespace` – lexer/token_type.rs:12
* `tNewline` – lexer/token_type.rs:13
* `tOpen` – lexer/token_type.rs:19
* `tClose` – lexer/token_type.rs:20
* `tOpenUnescaped` – lexer/token_type.rs:21
* `tCloseUnescaped` – lexer/token_type.rs:22
* `tOpenRawBlock` – lexer/token_type.rs:23
* `tCloseRawBlock` – lexer/token_type.rs:24
* `tOpenEndRawBlock` – lexer/token_type.rs:25
* `tOpenBlock` – lexer/token_type.rs:26
* `tOpenInverseBlock` – lexer/token_type.rs:27
* `tCloseBlock` – lexer/token_type.rs:28
* `tOpenPartial` – lexer/token_type.rs:29
* `tOpenComment` – lexer/token_type.rs:30
* `tOpenCommentBlock` – lexer/token_type.rs:31
* `tCloseCommentBlock` – lexer/token_type.rs:32
* `tElse` – lexer/token_type.rs:35
* `tIdentifier` – lexer/token_type.rs:38
* `tStringLiteral` – lexer/token_type.rs:39
* `tNumberLiteral` – lexer/token_type.rs:40
* `tBooleanLiteral` – lexer/token_type.rs:41
* `tDot` – lexer/token_type.rs:42
* `tSlash` – lexer/token_type.rs:43
* `tEqual` – lexer/token_type.rs:47
* `tLeftParen` – lexer/token_type.rs:48
* `tRightParen` – lexer/token_type.rs:49
* `tContent` – lexer/token_type.rs:55
* `eRoot` – parser/element_type.rs:56
* `eMustache` – parser/element_type.rs:57
* `eBlock` – parser/element_type.rs:58
* `eInverseBlock` – parser/element_type.rs:59
* `ePartial` – parser/element_type.rs:60
* `eCommentNode` – parser/element_type.rs:61
* `eContentNode` – parser/element_type.rs:62
* `eExpression` – parser/element_type.rs:63
* `eSubExpression` – parser/element_type.rs:64
* `ePath` – parser/element_type.rs:65
* `eParameter` – parser/element_type.rs:66
* `eElseBlock` – parser/element_type.rs:67
* `pParseItem` – parser/parse_top_level.rs:21-52
* `pParseMustache` – parser/parse_top_level.rs:54-65
* `pParseMustacheUnescaped` – parser/parse_top_level.rs:67-78
* `pParseBlock` – parser/parse_top_level.rs:80-115
* `pParseInverseBlock` – parser/parse_top_level.rs:117-143
* `pParseElseBlock` – parser/parse_top_level.rs:145-157
* `pParseRawBlock` – parser/parse_top_level.rs:159-184
* `pParsePartial` – parser/parse_top_level.rs:186-202
* `pParseComment` – parser/parse_top_level.rs:204-222
* `pParseExpression` – parser/parse_top_level.rs:224-236
* `pParseParameter` – parser/parse_top_level.rs:238-255
* `pParseValue` – parser/parse_top_level.rs:257-274
* `pParsePath` – parser/parse_top_level.rs:276-287
* `pParseSubExpression` – parser/parse_top_level.rs:289-300
* `pSkipTrivia` – parser/parse_top_level.rs:302-306
* `parseItem` – parser/parse_top_level.rs:21-52
* `parseMustache` – parser/parse_top_level.rs:54-65
* `parseMustacheUnescaped` – parser/parse_top_level.rs:67-78
* `parseBlock` – parser/parse_top_level.rs:80-115
* `parseInverseBlock` – parser/parse_top_level.rs:117-143
* `parseElseBlock` – parser/parse_top_level.rs:145-157
* `parseRawBlock` – parser/parse_top_level.rs:159-184
* `parsePartial` – parser/parse_top_level.rs:186-202
* `parseComment` – parser/parse_top_level.rs:204-222
* `parseExpression` – parser/parse_top_level.rs:224-236
* `parseParameter` – parser/parse_top_level.rs:238-255
* `parseValue` – parser/parse_top_level.rs:257-274
* `parsePath` – parser/parse_top_level.rs:276-287
* `parseSubExpression` – parser/parse_top_level.rs:289-300
* `skipTrivia` – parser/parse_top_level.rs:302-306
* `main` – parser/parse_top_level.rs:11-19
* `parser` – parser/parse_top_level.rs:11-19; lexer/token_type.rs:80-82

### Model/Hand/Haskell.lean

* `tWhitespace` – lexer/token_type.rs:10
* `tNewline` – lexer/token_type.rs:11
* `tComment` – lexer/token_type.rs:12
* `eRoot` – parser/element_type.rs:92
* `pParseItem` – parser/parse_top_level.rs:21-25
* `parseItem` – parser/parse_top_level.rs:21-25
* `main` – parser/parse_top_level.rs:11-19
* `parser` – parser/parse_top_level.rs:11-19; lexer/token_type.rs:196-202; language/mod.rs:298-300

### Model/Hand/Html.lean

* `tTagOpen` – lexer/token_type.rs:10
* `tTagClose` – lexer/token_type.rs:11
* `tTagSlashOpen` – lexer/token_type.rs:12
* `tTagSelfClose` – lexer/token_type.rs:13
* `tTagName` – lexer/token_type.rs:14
* `tAttributeName` – lexer/token_type.rs:15
* `tAttributeValue` – lexer/token_type.rs:16
* `tComment` – lexer/token_type.rs:19
* `tEqual` – lexer/token_type.rs:20
* `tQuote` – lexer/token_type.rs:21
* `tDoctype` – lexer/token_type.rs:22
* `tWhitespace` – lexer/token_type.rs:27
* `tNewline` – lexer/token_type.rs:28
* `eAttribute` – parser/element_type.rs:15
* `eDocument` – parser/element_type.rs:27
* `eElement` – parser/element_type.rs:28
* `pParseTag` – parser/mod.rs:55-99
* `parseTag` – parser/mod.rs:55-99
* `main` – parser/mod.rs:30-49
* `parser` – parser/mod.rs:30-49; lexer/token_type.rs:39-41

### Model/Hand/J.lean

* `tWhitespace` – lexer/token_type.rs:9
* `tNewline` – lexer/token_type.rs:10
* `tComment` – lexer/token_type.rs:11
* `tStringLiteral` – lexer/token_type.rs:13
* `tNumberLiteral` – lexer/token_type.rs:14
* `tIdentifier` – lexer/token_type.rs:15
* `tIsGlobal` – lexer/token_type.rs:24
* `tIsLocal` – lexer/token_type.rs:25
* `tLeftParen` – lexer/token_type.rs:45
* `tRightParen` – lexer/token_type.rs:46
* `tEof` – lexer/token_type.rs:53
* `eRoot` – parser/element_type.rs:15
* `eCompilationUnit` – parser/element_type.rs:17
* `eSentence` – parser/element_type.rs:20
* `eAssignment` – parser/element_type.rs:23
* `eExpression` – parser/element_type.rs:26
* `eGroup` – parser/element_type.rs:41
* `pParseSentence` – parser/mod.rs:42-58
* `pParseAssignment` – parser/mod.rs:61-73
* `pParseExpression` – parser/mod.rs:76-112
* `parseSentence` – parser/mod.rs:42-58
* `parseAssignment` – parser/mod.rs:61-73
* `parseExpression` – parser/mod.rs:76-112
* `main` – parser/mod.rs:25-39
* `parser` – parser/mod.rs:25-39; lexer/token_type.rs:69-71

### Model/Hand/Jasmin.lean

* `eRoot` – parser/element_type.rs:8
* `main` – parser/parse_root.rs:9-15
* `parser` – parser/parse_root.rs:9-15; lexer/token_type.rs:11-13

### Model/Hand/Julia.lean

* `tIf` – lexer/token_type.rs:14
* `tElseIf` – lexer/token_type.rs:15
* `tElse` – lexer/token_type.rs:16
* `tFor` – lexer/token_type.rs:17
* `tIn` – lexer/token_type.rs:19
* `tFunction` – lexer/token_type.rs:22
* `tEnd` – lexer/token_type.rs:23
* `tEqual` – lexer/token_type.rs:44
* `tLeftParen` – lexer/token_type.rs:73
* `tRightParen` – lexer/token_type.rs:74
* `tComma` – lexer/token_type.rs:79
* `tStringLiteral` – lexer/token_type.rs:85
* `tIdentifier` – lexer/token_type.rs:91
* `tComment` – lexer/token_type.rs:94
* `tWhitespace` – lexer/token_type.rs:95
* `tNewline` – lexer/token_type.rs:96
* `eRoot` – parser/element_type.rs:9
* `eIf` – parser/element_type.rs:11
* `eFor` – parser/element_type.rs:14
* `eFunction` – parser/element_type.rs:18
* `eStringLiteral` – parser/element_type.rs:81
* `eIdentifier` – parser/element_type.rs:87
* `eCall` – parser/element_type.rs:88
* `eArgumentList` – parser/element_type.rs:89
* `pSkipTrivia` – parser/mod.rs:22-32
* `pParseStatement` – parser/parse_top_level.rs:23-43
* `pParseIf` – parser/parse_top_level.rs:45-74
* `pParseFor` – parser/parse_top_level.rs:76-106
* `pParseFunction` – parser/parse_top_level.rs:108-145
* `pParseExpression` – parser/parse_top_level.rs:147-185
* `skipTrivia` – parser/mod.rs:22-32
* `parseStatement` – parser/parse_top_level.rs:23-43
* `parseIf` – parser/parse_top_level.rs:45-74
* `parseFor` – parser/parse_top_level.rs:76-106
* `parseFunction` – parser/parse_top_level.rs:108-145
* `parseExpression` – parser/parse_top_level.rs:147-185
* `main` – parser/parse_top_level.rs:9-21
* `parser` – parser/parse_top_level.rs:9-21; lexer/token_type.rs:234-236

### Model/Hand/LlvmIr.lean

* `tComment` – lexer/token_type.rs:23
* `tWhitespace` – lexer/token_type.rs:25
* `tNewline` – lexer/token_type.rs:27
* `tLocalVar` – lexer/token_type.rs:34
* `tGlobalVar` – lexer/token_type.rs:36
* `tEqual` – lexer/token_type.rs:40
* `tComma` – lexer/token_type.rs:42
* `tLParen` – lexer/token_type.rs:44
* `tRParen` – lexer/token_type.rs:46
* `tLBrace` – lexer/token_type.rs:52
* `tRBrace` – lexer/token_type.rs:54
* `tColon` – lexer/token_type.rs:58
* `tKeyword` – lexer/token_type.rs:60
* `eRoot` – parser/element_type.rs:11
* `eIdentifier` – parser/element_type.rs:13
* `eItem` – parser/element_type.rs:58
* `eGlobal` – parser/element_type.rs:60
* `eFunction` – parser/element_type.rs:62
* `eParameter` – parser/element_type.rs:64
* `eBlock` – parser/element_type.rs:66
* `eInstruction` – parser/element_type.rs:68
* `pParseItem` – parser/parse_top_level.rs:19-42
* `pParseGlobal` – parser/parse_top_level.rs:44-76
* `pParseFunction` – parser/parse_top_level.rs:78-163
* `pSkipTrivia` – parser/parse_top_level.rs:165-169
* `parseItem` – parser/parse_top_level.rs:19-42
* `parseGlobal` – parser/parse_top_level.rs:44-76
* `parseFunction` – parser/parse_top_level.rs:78-163
* `skipTrivia` – parser/parse_top_level.rs:165-169
* `main` – parser/parse_top_level.rs:9-17
* `parser` – parser/parse_top_level.rs:9-17; lexer/token_type.rs:67-72

### Model/Hand/Matlab.lean

* `tFunction` – lexer/token_type.rs:49
* `tIf` – lexer/token_type.rs:51
* `tSemicolon` – lexer/token_type.rs:108
* `eScript` – parser/element_type.rs:100
* `eFunctionDef` – parser/element_type.rs:101
* `eExpression` – parser/element_type.rs:104
* `eStatement` – parser/element_type.rs:105
* `pParseStatement` – parser/mod.rs:45-60
* `pParseFunctionDef` – parser/mod.rs:62-67
* `pParseIfStatement` – parser/mod.rs:69-73
* `pParseExpression` – parser/mod.rs:75-79
* `parseStatement` – parser/mod.rs:45-60
* `parseFunctionDef` – parser/mod.rs:62-67
* `parseIfStatement` – parser/mod.rs:69-73
* `parseExpression` – parser/mod.rs:75-79
* `main` – parser/mod.rs:35-43
* `parser` – parser/mod.rs:35-43; lexer/token_type.rs:21-23

### Model/Hand/Msil.lean

* `tAssemblyKeyword` – lexer/token_type.rs:43
* `tExternKeyword` – lexer/token_type.rs:44
* `tModuleKeyword` – lexer/token_type.rs:45
* `tClassKeyword` – lexer/token_type.rs:46
* `tMethodKeyword` – lexer/token_type.rs:47
* `tPublicKeyword` – lexer/token_type.rs:48
* `tPrivateKeyword` – lexer/token_type.rs:49
* `tStaticKeyword` – lexer/token_type.rs:50
* `tKeyword` – lexer/token_type.rs:51
* `tLeftBrace` – lexer/token_type.rs:53
* `tRightBrace` – lexer/token_type.rs:54
* `tIdentifierToken` – lexer/token_type.rs:67
* `tWhitespace` – lexer/token_type.rs:72
* `tCommentToken` – lexer/token_type.rs:73
* `eRoot` – parser/element_type.rs:9
* `eAssembly` – parser/element_type.rs:10
* `eAssemblyExtern` – parser/element_type.rs:11
* `eModule` – parser/element_type.rs:12
* `eClass` – parser/element_type.rs:13
* `eMethod` – parser/element_type.rs:14
* `eIdentifier` – parser/element_type.rs:19
* `pSkipTrivia` – parser/parse_top_level.rs:9-18
* `pParseAssembly` – parser/parse_top_level.rs:44-81
* `pParseModule` – parser/parse_top_level.rs:83-95
* `pParseClass` – parser/parse_top_level.rs:97-145
* `pParseMethod` – parser/parse_top_level.rs:147-175
* `skipTrivia` – parser/parse_top_level.rs:9-18
* `parseAssembly` – parser/parse_top_level.rs:44-81
* `parseModule` – parser/parse_top_level.rs:83-95
* `parseClass` – parser/parse_top_level.rs:97-145
* `parseMethod` – parser/parse_top_level.rs:147-175
* `main` – parser/parse_top_level.rs:20-42
* `parser` – parser/parse_top_level.rs:20-42; lexer/token_type.rs:11-13

### Model/Hand/Nginx.lean

* `tServerKeyword` – lexer/token_type.rs:19
* `tLocationKeyword` – lexer/token_type.rs:20
* `tUpstreamKeyword` – lexer/token_type.rs:21
* `tHttpKeyword` – lexer/token_type.rs:22
* `tEventsKeyword` – lexer/token_type.rs:23
* `tLeftBrace` – lexer/token_type.rs:31
* `tRightBrace` – lexer/token_type.rs:32
* `tSemicolon` – lexer/token_type.rs:33
* `tWhitespace` – lexer/token_type.rs:43
* `tNewline` – lexer/token_type.rs:44
* `tCommentToken` – lexer/token_type.rs:45
* `eRoot` – parser/element_type.rs:8
* `eDirective` – parser/element_type.rs:9
* `eBlock` – parser/element_type.rs:10
* `eParameter` – parser/element_type.rs:11
* `eComment` – parser/element_type.rs:13
* `pParseDirective` – parser/mod.rs:23-49
* `pParseBlock` – parser/mod.rs:51-72
* `parseDirective` – parser/mod.rs:23-49
* `parseBlock` – parser/mod.rs:51-72
* `main` – parser/mod.rs:74-81
* `parser` – parser/mod.rs:74-81; lexer/token_type.rs:75-76; language/mod.rs:298-300

### Model/Hand/Nix.lean

* `tWhitespace` – lexer/token_type.rs:75
* `tNewline` – lexer/token_type.rs:76
* `tComment` – lexer/token_type.rs:77
* `tIdentifier` – lexer/token_type.rs:84
* `tLet` – lexer/token_type.rs:87
* `tIn` – lexer/token_type.rs:88
* `tIf` – lexer/token_type.rs:89
* `tThen` – lexer/token_type.rs:90
* `tElse` – lexer/token_type.rs:91
* `tAssign` – lexer/token_type.rs:118
* `tLeftBrace` – lexer/token_type.rs:124
* `tRightBrace` – lexer/token_type.rs:125
* `tLeftBracket` – lexer/token_type.rs:126
* `tRightBracket` – lexer/token_type.rs:127
* `tSemicolon` – lexer/token_type.rs:128
* `tColon` – lexer/token_type.rs:129
* `eRoot` – parser/element_type.rs:71
* `eSet` – parser/element_type.rs:72
* `eList` – parser/element_type.rs:73
* `eLetIn` – parser/element_type.rs:75
* `eIfThenElse` – parser/element_type.rs:76
* `eBinding` – parser/element_type.rs:78
* `pParseExpr` – parser/mod.rs:23-39
* `pParseSet` – parser/mod.rs:41-49
* `pParseList` – parser/mod.rs:51-59
* `pParseLetIn` – parser/mod.rs:61-72
* `pParseIfThenElse` – parser/mod.rs:74-87
* `pParseBinding` – parser/mod.rs:89-98
* `parseExpr` – parser/mod.rs:23-39
* `parseSet` – parser/mod.rs:41-49
* `parseList` – parser/mod.rs:51-59
* `parseLetIn` – parser/mod.rs:61-72
* `parseIfThenElse` – parser/mod.rs:74-87
* `parseBinding` – parser/mod.rs:89-98
* `main` – parser/mod.rs:102-113
* `parser` – parser/mod.rs:102-113; lexer/token_type.rs:53-55

### Model/Hand/Notedown.lean

* `tNewline` – lexer/token_type.rs:29
* `tAsterisk` – lexer/token_type.rs:98
* `tBacktick` – lexer/token_type.rs:100
* `tHash` – lexer/token_type.rs:102
* `tPipe` – lexer/token_type.rs:103
* `tDash` – lexer/token_type.rs:104
* `tPlus` – lexer/token_type.rs:105
* `eRoot` – parser/element_type.rs:10
* `eHeading` – parser/element_type.rs:11
* `eListItem` – parser/element_type.rs:13
* `eTable` – parser/element_type.rs:14
* `eTableRow` – parser/element_type.rs:15
* `eCodeBlock` – parser/element_type.rs:16
* `eParagraph` – parser/element_type.rs:17
* `eTokenTableCell` – parser/element_type.rs:26
* `pParseBlock` – parser/mod.rs:45-54
* `pParseHeading` – parser/mod.rs:56-78
* `pParseListItem` – parser/mod.rs:80-87
* `pParseTable` – parser/mod.rs:89-95
* `pParseTableRow` – parser/mod.rs:97-116
* `pParseCodeBlock` – parser/mod.rs:118-130
* `pParseParagraph` – parser/mod.rs:132-141
* `parseBlock` – parser/mod.rs:45-54
* `parseHeading` – parser/mod.rs:56-78
* `parseListItem` – parser/mod.rs:80-87
* `parseTable` – parser/mod.rs:89-95
* `parseTableRow` – parser/mod.rs:97-116
* `parseCodeBlock` – parser/mod.rs:118-130
* `parseParagraph` – parser/mod.rs:132-141
* `main` – parser/mod.rs:36-43
* `parser` – parser/mod.rs:36-43; lexer/token_type.rs:11-13

### Model/Hand/ObjectiveC.lean

* `tInterfaceKeyword` – lexer/token_type.rs:39
* `tImplementationKeyword` – lexer/token_type.rs:40
* `tEndKeyword` – lexer/token_type.rs:41
* `tProtocolKeyword` – lexer/token_type.rs:45
* `tImportKeyword` – lexer/token_type.rs:47
* `tIncludeKeyword` – lexer/token_type.rs:48
* `tSemicolon` – lexer/token_type.rs:80
* `tAt` – lexer/token_type.rs:100
* `tWhitespace` – lexer/token_type.rs:110
* `tNewline` – lexer/token_type.rs:111
* `tCommentToken` – lexer/token_type.rs:112
* `eRoot` – parser/element_type.rs:8
* `eInterfaceDeclaration` – parser/element_type.rs:9
* `eImplementationDeclaration` – parser/element_type.rs:10
* `eProtocolDeclaration` – parser/element_type.rs:11
* `eError` – parser/element_type.rs:16
* `pParseItem` – parser/mod.rs:24-49
* `pParseInterface` – parser/mod.rs:51-62
* `pParseImplementation` – parser/mod.rs:64-75
* `pParseProtocol` – parser/mod.rs:77-88
* `pParseImport` – parser/mod.rs:90-99
* `parseItem` – parser/mod.rs:24-49
* `parseInterface` – parser/mod.rs:51-62
* `parseImplementation` – parser/mod.rs:64-75
* `parseProtocol` – parser/mod.rs:77-88
* `parseImport` – parser/mod.rs:90-99
* `main` – parser/mod.rs:103-114
* `parser` – parser/mod.rs:103-114; lexer/token_type.rs:9-14

### Model/Hand/Ocaml.lean

* `tWhitespace` – lexer/token_type.rs:126
* `tNewline` – lexer/token_type.rs:127
* `tComment` – lexer/token_type.rs:128
* `tLet` – lexer/token_type.rs:155
* `tModule` – lexer/token_type.rs:158
* `tRec` – lexer/token_type.rs:166
* `tType` – lexer/token_type.rs:173
* `tEqual` – lexer/token_type.rs:193
* `tSemicolon` – lexer/token_type.rs:210
* `eRoot` – parser/element_type.rs:8
* `eModuleDef` – parser/element_type.rs:9
* `eLetBinding` – parser/element_type.rs:10
* `eTypeDefinition` – parser/element_type.rs:13
* `eExpression` – parser/element_type.rs:14
* `pParseItem` – parser/mod.rs:23-31
* `pParseLetBinding` – parser/mod.rs:33-48
* `pParseModuleDef` – parser/mod.rs:50-63
* `pParseTypeDefinition` – parser/mod.rs:65-72
* `pParseExpression` – parser/mod.rs:74-86
* `parseItem` – parser/mod.rs:23-31
* `parseLetBinding` – parser/mod.rs:33-48
* `parseModuleDef` – parser/mod.rs:50-63
* `parseTypeDefinition` – parser/mod.rs:65-72
* `parseExpression` – parser/mod.rs:74-86
* `main` – parser/mod.rs:88-96
* `parser` – parser/mod.rs:88-96; lexer/token_type.rs:11-13

### Model/Hand/OrgMode.lean

* `tStar` – lexer/token_type.rs:62
* `tPlus` – lexer/token_type.rs:63
* `tMinus` – lexer/token_type.rs:64
* `tHash` – lexer/token_type.rs:65
* `tLeftBracket` – lexer/token_type.rs:68
* `tRightBracket` – lexer/token_type.rs:69
* `tEqual` – lexer/token_type.rs:76
* `tUnderscore` – lexer/token_type.rs:77
* `tTilde` – lexer/token_type.rs:78
* `tSlash` – lexer/token_type.rs:79
* `tWhitespace` – lexer/token_type.rs:85
* `tNewline` – lexer/token_type.rs:86
* `tComment` – lexer/token_type.rs:87
* `eDocument` – parser/element_type.rs:8
* `eHeading` – parser/element_type.rs:9
* `eParagraph` – parser/element_type.rs:11
* `eList` – parser/element_type.rs:12
* `eListItem` – parser/element_type.rs:13
* `eBlock` – parser/element_type.rs:17
* `eLink` – parser/element_type.rs:26
* `eInlineCode` – parser/element_type.rs:27
* `eBold` – parser/element_type.rs:28
* `eItalic` – parser/element_type.rs:29
* `eUnderline` – parser/element_type.rs:30
* `eStrikethrough` – parser/element_type.rs:31
* `eVerbatim` – parser/element_type.rs:32
* `pIsAtStartOfLine` – parser/mod.rs:24-31
* `pParseItem` – parser/mod.rs:33-79
* `pParseList` – parser/mod.rs:81-91
* `pParseInlineContent` – parser/mod.rs:93-123
* `pParseListItem` – parser/mod.rs:125-130
* `pParseHeading` – parser/mod.rs:132-140
* `pParseBlock` – parser/mod.rs:142-149
* `pParseParagraph` – parser/mod.rs:151-158
* `pParseBold` – parser/mod.rs:160-170
* `pParseItalic` – parser/mod.rs:172-182
* `pParseUnderline` – parser/mod.rs:184-194
* `pParseLink` – parser/mod.rs:196-224
* `pParseInlineCode` – parser/mod.rs:226-236
* `pParseVerbatim` – parser/mod.rs:238-248
* `pParseStrikethrough` – parser/mod.rs:250-260
* `isAtStartOfLine` – parser/mod.rs:24-31
* `parseItem` – parser/mod.rs:33-79
* `parseList` – parser/mod.rs:81-91
* `parseInlineContent` – parser/mod.rs:93-123
* `parseListItem` – parser/mod.rs:125-130
* `parseHeading` – parser/mod.rs:132-140
* `parseBlock` – parser/mod.rs:142-149
* `parseParagraph` – parser/mod.rs:151-158
* `parseBold` – parser/mod.rs:160-170
* `parseItalic` – parser/mod.rs:172-182
* `parseUnderline` – parser/mod.rs:184-194
* `parseLink` – parser/mod.rs:196-224
* `parseInlineCode` – parser/mod.rs:226-236
* `parseVerbatim` – parser/mod.rs:238-248
* `parseStrikethrough` – parser/mod.rs:250-260
* `main` – parser/mod.rs:264-274
* `parser` – parser/mod.rs:264-274; lexer/token_type.rs:98-100

### Model/Hand/Perl.lean

* `tWhitespace` – lexer/token_type.rs:235
* `tNewline` – lexer/token_type.rs:237
* `tComment` – lexer/token_type.rs:240
* `eRoot` – parser/element_type.rs:8
* `pParseStatement` – parser/mod.rs:27-35
* `parseStatement` – parser/mod.rs:27-35
* `main` – parser/parse_top_level.rs:9-17
* `parser` – parser/parse_top_level.rs:9-17; lexer/token_type.rs:54-55; language/mod.rs:298-300

### Model/Hand/Powershell.lean

* `tWhitespace` – lexer/token_type.rs:12
* `tNewline` – lexer/token_type.rs:13
* `tComment` – lexer/token_type.rs:14
* `tClass` – lexer/token_type.rs:20
* `tFunction` – lexer/token_type.rs:35
* `tIf` – lexer/token_type.rs:36
* `tLeftParen` – lexer/token_type.rs:88
* `tRightParen` – lexer/token_type.rs:89
* `tLeftBrace` – lexer/token_type.rs:90
* `tRightBrace` – lexer/token_type.rs:91
* `tSemicolon` – lexer/token_type.rs:94
* `tIdentifier` – lexer/token_type.rs:119
* `eRoot` – parser/element_type.rs:123
* `eFunctionDef` – parser/element_type.rs:124
* `eClassDef` – parser/element_type.rs:125
* `eIfStatement` – parser/element_type.rs:126
* `eExpressionStatement` – parser/element_type.rs:139
* `pParseProgram` – parser/mod.rs:19-34
* `pParseFunction` – parser/mod.rs:36-44
* `pParseClass` – parser/mod.rs:46-54
* `pParseIf` – parser/mod.rs:56-66
* `pParseBlock` – parser/mod.rs:68-74
* `pParseStatement` – parser/mod.rs:76-85
* `parseProgram` – parser/mod.rs:19-34
* `parseFunction` – parser/mod.rs:36-44
* `parseClass` – parser/mod.rs:46-54
* `parseIf` – parser/mod.rs:56-66
* `parseBlock` – parser/mod.rs:68-74
* `parseStatement` – parser/mod.rs:76-85
* `main` – parser/mod.rs:89-96
* `parser` – parser/mod.rs:89-96; lexer/token_type.rs:154-156

### Model/Hand/Prolog.lean

* `tDot` – lexer/token_type.rs:81
* `tColonMinus` – lexer/token_type.rs:87
* `tQuestionMinus` – lexer/token_type.rs:88
* `eClause` – parser/element_type.rs:65
* `eQuery` – parser/element_type.rs:68
* `eDirective` – parser/element_type.rs:69
* `eRoot` – parser/element_type.rs:74
* `pParseDirective` – parser/mod.rs:23-31
* `pParseQuery` – parser/mod.rs:33-41
* `pParseClause` – parser/mod.rs:43-50
* `parseDirective` – parser/mod.rs:23-31
* `parseQuery` – parser/mod.rs:33-41
* `parseClause` – parser/mod.rs:43-50
* `main` – parser/mod.rs:52-66
* `parser` – parser/mod.rs:52-66; lexer/token_type.rs:21-23

### Model/Hand/Protobuf.lean

* `tStringLiteral` – lexer/token_type.rs:33
* `tIdentifier` – lexer/token_type.rs:38
* `tSyntax` – lexer/token_type.rs:41
* `tPackage` – lexer/token_type.rs:42
* `tImport` – lexer/token_type.rs:43
* `tOption` – lexer/token_type.rs:44
* `tMessage` – lexer/token_type.rs:45
* `tEnum` – lexer/token_type.rs:46
* `tService` – lexer/token_type.rs:47
* `tPublic` – lexer/token_type.rs:60
* `tWeak` – lexer/token_type.rs:61
* `tAssign` – lexer/token_type.rs:81
* `tSemicolon` – lexer/token_type.rs:82
* `tLeftBrace` – lexer/token_type.rs:91
* `tRightBrace` – lexer/token_type.rs:92
* `eRoot` – parser/element_type.rs:8
* `eSyntaxDef` – parser/element_type.rs:17
* `ePackageDef` – parser/element_type.rs:18
* `eImportDef` – parser/element_type.rs:19
* `eOptionDef` – parser/element_type.rs:20
* `eMessageDef` – parser/element_type.rs:21
* `eEnumDef` – parser/element_type.rs:22
* `eServiceDef` – parser/element_type.rs:23
* `pParseProgram` – parser/mod.rs:32-59
* `pParseSyntax` – parser/mod.rs:61-68
* `pParsePackage` – parser/mod.rs:70-76
* `pParseImport` – parser/mod.rs:78-87
* `pParseOption` – parser/mod.rs:89-97
* `pParseMessage` – parser/mod.rs:99-109
* `pParseEnum` – parser/mod.rs:111-121
* `pParseService` – parser/mod.rs:123-133
* `parseProgram` – parser/mod.rs:32-59
* `parseSyntax` – parser/mod.rs:61-68
* `parsePackage` – parser/mod.rs:70-76
* `parseImport` – parser/mod.rs:78-87
* `parseOption` – parser/mod.rs:89-97
* `parseMessage` – parser/mod.rs:99-109
* `parseEnum` – parser/mod.rs:111-121
* `parseService` – parser/mod.rs:123-133
* `main` – parser/mod.rs:26-30
* `parser` – parser/mod.rs:26-30; lexer/token_type.rs:11-13

### Model/Hand/R.lean

* `tNewline` – lexer/token_type.rs:36
* `tStringLiteral` – lexer/token_type.rs:42
* `tIntegerLiteral` – lexer/token_type.rs:43
* `tFloatLiteral` – lexer/token_type.rs:44
* `tBooleanLiteral` – lexer/token_type.rs:45
* `tIdentifier` – lexer/token_type.rs:56
* `tFunction` – lexer/token_type.rs:67
* `tLeftArrow` – lexer/token_type.rs:93
* `tLeftParen` – lexer/token_type.rs:101
* `tRightParen` – lexer/token_type.rs:102
* `tLeftBrace` – lexer/token_type.rs:105
* `tRightBrace` – lexer/token_type.rs:106
* `tComma` – lexer/token_type.rs:107
* `tSemicolon` – lexer/token_type.rs:108
* `eFunction` – parser/element_type.rs:42
* `eRoot` – parser/element_type.rs:93
* `eAssignment` – parser/element_type.rs:96
* `eLiteralExpression` – parser/element_type.rs:99
* `eIdentifierExpression` – parser/element_type.rs:100
* `eCallExpression` – parser/element_type.rs:101
* `eBlockExpression` – parser/element_type.rs:103
* `pParseStatement` – parser/parse_top_level.rs:20-64
* `pParseExpression` – parser/parse_top_level.rs:66-94
* `parseStatement` – parser/parse_top_level.rs:20-64
* `parseExpression` – parser/parse_top_level.rs:66-94
* `main` – parser/parse_top_level.rs:9-18
* `parser` – parser/parse_top_level.rs:9-18; lexer/token_type.rs:17-19

### Model/Hand/Svelte.lean

* `tWhitespace` – lexer/token_type.rs:15
* `tComment` – lexer/token_type.rs:17
* `tOpenBrace` – lexer/token_type.rs:20
* `tCloseBrace` – lexer/token_type.rs:22
* `tHash` – lexer/token_type.rs:24
* `tSlash` – lexer/token_type.rs:26
* `tColon` – lexer/token_type.rs:28
* `tAt` – lexer/token_type.rs:30
* `tTagOpen` – lexer/token_type.rs:56
* `tTagClose` – lexer/token_type.rs:58
* `tTagSelfClose` – lexer/token_type.rs:60
* `tTagEndOpen` – lexer/token_type.rs:62
* `tIdentifier` – lexer/token_type.rs:71
* `tStringLiteral` – lexer/token_type.rs:73
* `tEq` – lexer/token_type.rs:78
* `eRoot` – parser/element_type.rs:10
* `eElement` – parser/element_type.rs:12
* `eStartTag` – parser/element_type.rs:14
* `eEndTag` – parser/element_type.rs:16
* `eAttribute` – parser/element_type.rs:18
* `eDirective` – parser/element_type.rs:20
* `eInterpolation` – parser/element_type.rs:24
* `eControlBlock` – parser/element_type.rs:26
* `eMiddleBlock` – parser/element_type.rs:28
* `eSnippet` – parser/element_type.rs:30
* `eComment` – parser/element_type.rs:32
* `eText` – parser/element_type.rs:34
* `eError` – parser/element_type.rs:36
* `pParseNode` – parser/mod.rs:39-68
* `pParseElement` – parser/mod.rs:70-111
* `pParseAttribute` – parser/mod.rs:113-138
* `pParseControlBlock` – parser/mod.rs:140-205
* `pParseMiddleBlock` – parser/mod.rs:207-217
* `pParseEndBlock` – parser/mod.rs:219-229
* `pParseSpecialTag` – parser/mod.rs:231-240
* `pParseInterpolation` – parser/mod.rs:242-250
* `pParseText` – parser/mod.rs:252-260
* `parseNode` – parser/mod.rs:39-68
* `parseElement` – parser/mod.rs:70-111
* `parseAttribute` – parser/mod.rs:113-138
* `parseControlBlock` – parser/mod.rs:140-205
* `parseMiddleBlock` – parser/mod.rs:207-217
* `parseEndBlock` – parser/mod.rs:219-229
* `parseSpecialTag` – parser/mod.rs:231-240
* `parseInterpolation` – parser/mod.rs:242-250
* `parseText` – parser/mod.rs:252-260
* `main` – parser/mod.rs:29-37
* `parser` – parser/mod.rs:29-37; lexer/token_type.rs:96-98

### Model/Hand/Tailwind.lean

* `tComment` – lexer/token_type.rs:18
* `tDoubleLeftBrace` – lexer/token_type.rs:34
* `tDoubleRightBrace` – lexer/token_type.rs:35
* `tLeftBracePercent` – lexer/token_type.rs:36
* `tPercentRightBrace` – lexer/token_type.rs:37
* `tWhitespace` – lexer/token_type.rs:58
* `eRoot` – parser/element_type.rs:8
* `eVariable` – parser/element_type.rs:12
* `eTag` – parser/element_type.rs:15
* `pParseVariable` – parser/parse_top_level.rs:29-40
* `pParseTag` – parser/parse_top_level.rs:43-54
* `parseVariable` – parser/parse_top_level.rs:29-40
* `parseTag` – parser/parse_top_level.rs:43-54
* `main` – parser/parse_top_level.rs:10-26
* `parser` – parser/parse_top_level.rs:10-26; lexer/token_type.rs:125-127

### Model/Hand/Tcl.lean

* `tIdentifier` – lexer/token_type.rs:38
* `tLeftBracket` – lexer/token_type.rs:78
* `tRightBracket` – lexer/token_type.rs:79
* `tSemicolon` – lexer/token_type.rs:82
* `tDollar` – lexer/token_type.rs:84
* `tWhitespace` – lexer/token_type.rs:87
* `tNewline` – lexer/token_type.rs:88
* `tComment` – lexer/token_type.rs:89
* `eRoot` – parser/element_type.rs:10
* `eCommand` – parser/element_type.rs:11
* `eSimpleWord` – parser/element_type.rs:13
* `eVariableWord` – parser/element_type.rs:14
* `eScriptWord` – parser/element_type.rs:15
* `pParseCommand` – parser/parse_top_level.rs:34-52
* `pParseWord` – parser/parse_top_level.rs:54-89
* `parseCommand` – parser/parse_top_level.rs:34-52
* `parseWord` – parser/parse_top_level.rs:54-89
* `main` – parser/parse_top_level.rs:9-32
* `parser` – parser/parse_top_level.rs:9-32; lexer/token_type.rs:11-13

### Model/Hand/Typst.lean

* `tImport` – lexer/token_type.rs:62
* `tInclude` – lexer/token_type.rs:63
* `tSet` – lexer/token_type.rs:66
* `tShow` – lexer/token_type.rs:67
* `tLet` – lexer/token_type.rs:74
* `tIf` – lexer/token_type.rs:75
* `tElse` – lexer/token_type.rs:76
* `tFor` – lexer/token_type.rs:77
* `tWhile` – lexer/token_type.rs:78
* `tPlus` – lexer/token_type.rs:86
* `tMinus` – lexer/token_type.rs:87
* `tStar` – lexer/token_type.rs:88
* `tEqual` – lexer/token_type.rs:91
* `tLeftBracket` – lexer/token_type.rs:107
* `tRightBracket` – lexer/token_type.rs:108
* `tHash` – lexer/token_type.rs:113
* `tDollar` – lexer/token_type.rs:115
* `tUnderscore` – lexer/token_type.rs:116
* `tBacktick` – lexer/token_type.rs:117
* `tIdentifier` – lexer/token_type.rs:122
* `tWhitespace` – lexer/token_type.rs:127
* `tNewline` – lexer/token_type.rs:128
* `eRoot` – parser/element_type.rs:8
* `eHeading` – parser/element_type.rs:9
* `eQuote` – parser/element_type.rs:10
* `eMath` – parser/element_type.rs:11
* `eStrong` – parser/element_type.rs:12
* `eEmphasis` – parser/element_type.rs:13
* `eListItem` – parser/element_type.rs:14
* `eEnumItem` – parser/element_type.rs:15
* `eRaw` – parser/element_type.rs:16
* `pParseItem` – parser/parse_top_level.rs:19-141
* `parseItem` – parser/parse_top_level.rs:19-141
* `main` – parser/parse_top_level.rs:9-17
* `parser` – parser/parse_top_level.rs:9-17; lexer/token_type.rs:11-13

### Model/Hand/Vhdl.lean

* `tWhitespace` – lexer/token_type.rs:13
* `tComment` – lexer/token_type.rs:14
* `tIdentifier` – lexer/token_type.rs:15
* `tEntityKw` – lexer/token_type.rs:26
* `tArchitectureKw` – lexer/token_type.rs:27
* `tEndKw` – lexer/token_type.rs:29
* `tLibraryKw` – lexer/token_type.rs:38
* `tUseKw` – lexer/token_type.rs:39
* `tPackageKw` – lexer/token_type.rs:40
* `tBodyKw` – lexer/token_type.rs:41
* `tIsKw` – lexer/token_type.rs:76
* `tOfKw` – lexer/token_type.rs:77
* `tSemicolon` – lexer/token_type.rs:147
* `eRoot` – parser/element_type.rs:148
* `eEntityDeclaration` – parser/element_type.rs:149
* `eArchitectureBody` – parser/element_type.rs:150
* `ePackageDeclaration` – parser/element_type.rs:151
* `ePackageBody` – parser/element_type.rs:152
* `eLibraryClause` – parser/element_type.rs:154
* `eUseClause` – parser/element_type.rs:155
* `pParseLibraryClause` – parser/parse_top_level.rs:35-43
* `pParseUseClause` – parser/parse_top_level.rs:45-53
* `pParseEntityDeclaration` – parser/parse_top_level.rs:55-73
* `pParseArchitectureBody` – parser/parse_top_level.rs:75-95
* `pParsePackageDeclaration` – parser/parse_top_level.rs:97-133
* `parseLibraryClause` – parser/parse_top_level.rs:35-43
* `parseUseClause` – parser/parse_top_level.rs:45-53
* `parseEntityDeclaration` – parser/parse_top_level.rs:55-73
* `parseArchitectureBody` – parser/parse_top_level.rs:75-95
* `parsePackageDeclaration` – parser/parse_top_level.rs:97-133
* `main` – parser/parse_top_level.rs:8-33
* `parser` – parser/parse_top_level.rs:8-33; lexer/token_type.rs:168-169; language/mod.rs:298-300

### Model/Hand/Voc.lean

* `tIdentifier` – lexer/token_type.rs:13
* `tKeyword` – lexer/token_type.rs:14
* `tStringLiteral` – lexer/token_type.rs:15
* `tTagOpen` – lexer/token_type.rs:40
* `tTagClose` – lexer/token_type.rs:41
* `tTagSelfClose` – lexer/token_type.rs:42
* `tTagSlash` – lexer/token_type.rs:43
* `tAttrEq` – lexer/token_type.rs:44
* `tInterpolationStart` – lexer/token_type.rs:98
* `tInterpolationEnd` – lexer/token_type.rs:99
* `tTemplateControlStart` – lexer/token_type.rs:100
* `tTemplateControlEnd` – lexer/token_type.rs:101
* `tWhitespace` – lexer/token_type.rs:105
* `tComment` – lexer/token_type.rs:107
* `tEof` – lexer/token_type.rs:109
* `eSourceFile` – parser/element_type.rs:10
* `eTag` – parser/element_type.rs:11
* `eAttribute` – parser/element_type.rs:12
* `eInterpolation` – parser/element_type.rs:13
* `eTemplateControl` – parser/element_type.rs:14
* `pParseComponentRoot` – parser/parse_top_level.rs:33-49
* `pParseTag` – parser/parse_top_level.rs:51-82
* `pParseAttribute` – parser/parse_top_level.rs:84-96
* `pParseInterpolation` – parser/parse_top_level.rs:98-109
* `pParseTemplateControl` – parser/parse_top_level.rs:111-121
* `parseComponentRoot` – parser/parse_top_level.rs:33-49
* `parseTag` – parser/parse_top_level.rs:51-82
* `parseAttribute` – parser/parse_top_level.rs:84-96
* `parseInterpolation` – parser/parse_top_level.rs:98-109
* `parseTemplateControl` – parser/parse_top_level.rs:111-121
* `main` – parser/parse_top_level.rs:9-22
* `parser` – parser/parse_top_level.rs:9-22; lexer/token_type.rs:116-118

### Model/Hand/Wat.lean

* `tModuleKw` – lexer/token_type.rs:41
* `tLeftParen` – lexer/token_type.rs:229
* `tRightParen` – lexer/token_type.rs:230
* `eRoot` – parser/element_type.rs:243
* `eModule` – parser/element_type.rs:245
* `eItem` – parser/element_type.rs:246
* `pParseItem` – parser/parse_top_level.rs:19-39
* `parseItem` – parser/parse_top_level.rs:19-39
* `main` – parser/parse_top_level.rs:9-17
* `parser` – parser/parse_top_level.rs:9-17; lexer/token_type.rs:11-13

### Model/Hand/Wgsl.lean

* `tIdentifier` – lexer/token_type.rs:38
* `tFnKw` – lexer/token_type.rs:79
* `tVarKw` – lexer/token_type.rs:80
* `tLetKw` – lexer/token_type.rs:81
* `tStructKw` – lexer/token_type.rs:137
* `tAssign` – lexer/token_type.rs:187
* `tArrow` – lexer/token_type.rs:188
* `tLeftParen` – lexer/token_type.rs:191
* `tRightParen` – lexer/token_type.rs:192
* `tLeftBrace` – lexer/token_type.rs:193
* `tRightBrace` – lexer/token_type.rs:194
* `tSemicolon` – lexer/token_type.rs:197
* `tColon` – lexer/token_type.rs:200
* `eRoot` – parser/element_type.rs:191
* `eFunction` – parser/element_type.rs:192
* `eStruct` – parser/element_type.rs:193
* `eVariable` – parser/element_type.rs:194
* `eBlock` – parser/element_type.rs:195
* `pParseFunction` – parser/parse_top_level.rs:28-45
* `pParseStruct` – parser/parse_top_level.rs:47-57
* `pParseVariable` – parser/parse_top_level.rs:59-79
* `pParseBlock` – parser/parse_top_level.rs:81-89
* `parseFunction` – parser/parse_top_level.rs:28-45
* `parseStruct` – parser/parse_top_level.rs:47-57
* `parseVariable` – parser/parse_top_level.rs:59-79
* `parseBlock` – parser/parse_top_level.rs:81-89
* `main` – parser/parse_top_level.rs:9-26
* `parser` – parser/parse_top_level.rs:9-26; lexer/token_type.rs:11-13

### Model/HandLex/Actionscript.lean

* `skipWhitespace` – examples/oak-actionscript/src/lexer/mod.rs:81-83
* `skipComment` – examples/oak-actionscript/src/lexer/mod.rs:85-87
* `lexStringLiteral` – examples/oak-actionscript/src/lexer/mod.rs:112-114
* `lexCharLiteral` – examples/oak-actionscript/src/lexer/mod.rs:116-118
* `lexNumberLiteral` – examples/oak-actionscript/src/lexer/mod.rs:89-110
* `lexIdentifierOrKeyword` – examples/oak-actionscript/src/lexer/mod.rs:120-186
* `lexOperatorOrDelimiter` – examples/oak-actionscript/src/lexer/mod.rs:188-459
* `run_` – examples/oak-actionscript/src/lexer/mod.rs:43-78

### Model/HandLex/Ada.lean

* `skipWhitespace` – examples/oak-ada/src/lexer/mod.rs:87-89
* `skipComment` – examples/oak-ada/src/lexer/mod.rs:91-106
* `lexStringLiteral` – examples/oak-ada/src/lexer/mod.rs:108-133
* `lexCharLiteral` – examples/oak-ada/src/lexer/mod.rs:135-158
* `lexNumberLiteral` – examples/oak-ada/src/lexer/mod.rs:160-199
* `lexIdentifierOrKeyword` – examples/oak-ada/src/lexer/mod.rs:201-296
* `lexOperators` – examples/oak-ada/src/lexer/mod.rs:298-362
* `lexSingleCharTokens` – examples/oak-ada/src/lexer/mod.rs:364-387
* `run_` – examples/oak-ada/src/lexer/mod.rs:40-84

### Model/HandLex/Apl.lean

* `skipWhitespace` – examples/oak-apl/src/lexer/mod.rs:79-81
* `skipComment` – examples/oak-apl/src/lexer/mod.rs:83-97
* `lexStringLiteral` – examples/oak-apl/src/lexer/mod.rs:99-123
* `lexNumberLiteral` – examples/oak-apl/src/lexer/mod.rs:125-185
* `lexIdentifier` – examples/oak-apl/src/lexer/mod.rs:187-205
* `lexSymbols` – examples/oak-apl/src/lexer/mod.rs:207-274
* `run_` – examples/oak-apl/src/lexer/mod.rs:40-76

### Model/HandLex/AsciiDoc.lean

* `skipWhitespace` – examples/oak-ascii-doc/src/lexer/mod.rs:96-98
* `skipComment` – examples/oak-ascii-doc/src/lexer/mod.rs:100-102
* `lexHeader` – examples/oak-ascii-doc/src/lexer/mod.rs:105-139
* `lexBold` – examples/oak-ascii-doc/src/lexer/mod.rs:142-151
* `lexItalic` – examples/oak-ascii-doc/src/lexer/mod.rs:154-165
* `lexMonospace` – examples/oak-ascii-doc/src/lexer/mod.rs:168-179
* `lexCodeBlock` – examples/oak-ascii-doc/src/lexer/mod.rs:182-192
* `lexLink` – examples/oak-ascii-doc/src/lexer/mod.rs:195-205
* `lexListItem` – examples/oak-ascii-doc/src/lexer/mod.rs:208-222
* `lexDelimiter` – examples/oak-ascii-doc/src/lexer/mod.rs:225-245
* `lexText` – examples/oak-ascii-doc/src/lexer/mod.rs:248-264
* `run_` – examples/oak-ascii-doc/src/lexer/mod.rs:41-93

### Model/HandLex/Bat.lean

* `run_` – examples/oak-bat/src/lexer/mod.rs:32-41

### Model/HandLex/C.lean

* `skipWhitespace` – examples/oak-c/src/lexer/mod.rs:87-108
* `skipComment` – examples/oak-c/src/lexer/mod.rs:110-134
* `lexNewline` – examples/oak-c/src/lexer/mod.rs:136-155
* `lexString` – examples/oak-c/src/lexer/mod.rs:157-181
* `lexChar` – examples/oak-c/src/lexer/mod.rs:183-207
* `lexNumber` – examples/oak-c/src/lexer/mod.rs:209-226
* `lexKeywordOrIdentifier` – examples/oak-c/src/lexer/mod.rs:228-296
* `operator2` – examples/oak-c/src/lexer/mod.rs:317-319
* `lexOperatorOrDelimiter` – examples/oak-c/src/lexer/mod.rs:298-355; mod.rs:436-466
* `lexPreprocessor` – examples/oak-c/src/lexer/mod.rs:357-371
* `lexText` – examples/oak-c/src/lexer/mod.rs:373-384
* `run_` – examples/oak-c/src/lexer/mod.rs:41-84

### Model/HandLex/Clojure.lean

* `lexWhitespace` – examples/oak-clojure/src/lexer/mod.rs:100-106
* `lexComment` – examples/oak-clojure/src/lexer/mod.rs:108-120
* `lexString` – examples/oak-clojure/src/lexer/mod.rs:122-143
* `lexCharacter` – examples/oak-clojure/src/lexer/mod.rs:145-154
* `lexNumber` – examples/oak-clojure/src/lexer/mod.rs:156-164
* `lexKeyword` – examples/oak-clojure/src/lexer/mod.rs:166-175
* `lexRegex` – examples/oak-clojure/src/lexer/mod.rs:195-215
* `lexDispatch` – examples/oak-clojure/src/lexer/mod.rs:177-193
* `lexSymbol` – examples/oak-clojure/src/lexer/mod.rs:217-225
* `run_` – examples/oak-clojure/src/lexer/mod.rs:34-96

### Model/HandLex/Cmd.lean

* `run_` – examples/oak-cmd/src/lexer/mod.rs:32-41

### Model/HandLex/Coq.lean

* `lexComment` – examples/oak-coq/src/lexer/mod.rs:307-333
* `lexString` – examples/oak-coq/src/lexer/mod.rs:335-352
* `lexInternal` – examples/oak-coq/src/lexer/mod.rs:33-305

### Model/HandLex/Cpp.lean

* `skipWhitespace` – examples/oak-cpp/src/lexer/mod.rs:25-39
* `lexNewline` – examples/oak-cpp/src/lexer/mod.rs:42-61
* `lexComment` – examples/oak-cpp/src/lexer/mod.rs:64-100
* `lexString` – examples/oak-cpp/src/lexer/mod.rs:103-141
* `lexCharacter` – examples/oak-cpp/src/lexer/mod.rs:144-182
* `number` – examples/oak-cpp/src/lexer/mod.rs:190-266
* `lexNumber` – examples/oak-cpp/src/lexer/mod.rs:185-275
* `lexKeywordOrIdentifier` – examples/oak-cpp/src/lexer/mod.rs:278-309
* `lexPreprocessor` – examples/oak-cpp/src/lexer/mod.rs:484-502
* `lexOperator` – examples/oak-cpp/src/lexer/mod.rs:312-455
* `lexDelimiter` – examples/oak-cpp/src/lexer/mod.rs:458-481
* `run_` – examples/oak-cpp/src/lexer/mod.rs:516-567

### Model/HandLex/Crystal.lean

* `skipWhitespace` – examples/oak-crystal/src/lexer/mod.rs:83-97
* `lexNewline` – examples/oak-crystal/src/lexer/mod.rs:100-119
* `lexComment` – examples/oak-crystal/src/lexer/mod.rs:122-142
* `lexString` – examples/oak-crystal/src/lexer/mod.rs:145-178
* `lexNumber` – examples/oak-crystal/src/lexer/mod.rs:181-202
* `lexKeywordOrIdentifier` – examples/oak-crystal/src/lexer/mod.rs:205-264
* `lexOperator` – examples/oak-crystal/src/lexer/mod.rs:267-469
* `lexDelimiter` – examples/oak-crystal/src/lexer/mod.rs:472-562
* `run_` – examples/oak-crystal/src/lexer/mod.rs:33-80

### Model/HandLex/Csharp.lean

* `skipWhitespace` – examples/oak-csharp/src/lexer/mod.rs:23-42
* `lexNewline` – examples/oak-csharp/src/lexer/mod.rs:45-64
* `lexComment` – examples/oak-csharp/src/lexer/mod.rs:67-109
* `lexString` – examples/oak-csharp/src/lexer/mod.rs:112-159
* `lexNumber` – examples/oak-csharp/src/lexer/mod.rs:162-195
* `lexKeywordOrIdentifier` – examples/oak-csharp/src/lexer/mod.rs:198-305
* `lexOperator` – examples/oak-csharp/src/lexer/mod.rs:308-457
* `lexDelimiter` – examples/oak-csharp/src/lexer/mod.rs:460-486
* `run_` – examples/oak-csharp/src/lexer/mod.rs:488-534

### Model/HandLex/Css.lean

* `skipWhitespace` – examples/oak-css/src/lexer/mod.rs:22-36
* `lexNewline` – examples/oak-css/src/lexer/mod.rs:39-58
* `lexComment` – examples/oak-css/src/lexer/mod.rs:61-86
* `lexString` – examples/oak-css/src/lexer/mod.rs:89-122
* `lexUrl` – examples/oak-css/src/lexer/mod.rs:125-187
* `lexColor` – examples/oak-css/src/lexer/mod.rs:190-222
* `lexNumber` – examples/oak-css/src/lexer/mod.rs:225-282
* `lexAtRule` – examples/oak-css/src/lexer/mod.rs:307-338
* `lexIdentifier` – examples/oak-css/src/lexer/mod.rs:285-304
* `lexDelimiter` – examples/oak-css/src/lexer/mod.rs:341-364
* `lexOperator` – examples/oak-css/src/lexer/mod.rs:367-395
* `run_` – examples/oak-css/src/lexer/mod.rs:398-460

### Model/HandLex/D.lean

* `skipWhitespace` – examples/oak-d/src/lexer/mod.rs:89-104
* `lexNewline` – examples/oak-d/src/lexer/mod.rs:106-124
* `lexLineComment` – examples/oak-d/src/lexer/mod.rs:358-374
* `lexBlockComment` – examples/oak-d/src/lexer/mod.rs:376-398
* `lexNestedComment` – examples/oak-d/src/lexer/mod.rs:400-433
* `lexIdentifierOrKeyword` – examples/oak-d/src/lexer/mod.rs:126-252
* `lexNumber` – examples/oak-d/src/lexer/mod.rs:254-299
* `lexString` – examples/oak-d/src/lexer/mod.rs:301-329
* `lexCharacter` – examples/oak-d/src/lexer/mod.rs:331-356
* `lexOperator` – examples/oak-d/src/lexer/mod.rs:435-618
* `lexDelimiter` – examples/oak-d/src/lexer/mod.rs:620-686
* `run_` – examples/oak-d/src/lexer/mod.rs:31-87

### Model/HandLex/Dart.lean

* `skipWhitespace` – examples/oak-dart/src/lexer/mod.rs:67-82
* `skipComment` – examples/oak-dart/src/lexer/mod.rs:84-117
* `lexIdentifierOrKeyword` – examples/oak-dart/src/lexer/mod.rs:119-206
* `lexLiteral` – examples/oak-dart/src/lexer/mod.rs:208-251
* `lexOperatorOrDelimiter` – examples/oak-dart/src/lexer/mod.rs:253-384
* `run_` – examples/oak-dart/src/lexer/mod.rs:31-65

### Model/HandLex/Delphi.lean

* `skipWhitespace` – examples/oak-delphi/src/lexer/mod.rs:65-84
* `skipComment` – examples/oak-delphi/src/lexer/mod.rs:86-134
* `lexStringLiteral` – examples/oak-delphi/src/lexer/mod.rs:136-156
* `lexNumberLiteral` – examples/oak-delphi/src/lexer/mod.rs:158-219
* `lexIdentifierOrKeyword` – examples/oak-delphi/src/lexer/mod.rs:221-289
* `lexOperators` – examples/oak-delphi/src/lexer/mod.rs:291-329
* `lexSingleCharTokens` – examples/oak-delphi/src/lexer/mod.rs:331-352
* `run_` – examples/oak-delphi/src/lexer/mod.rs:20-63

### Model/HandLex/Dhall.lean

* `skipWhitespace` – examples/oak-dhall/src/lexer/mod.rs:71-73
* `skipComment` – examples/oak-dhall/src/lexer/mod.rs:75-77
* `lexStringLiteral` – examples/oak-dhall/src/lexer/mod.rs:79-81
* `lexNumberLiteral` – examples/oak-dhall/src/lexer/mod.rs:83-101
* `lexIdentifierOrKeyword` – examples/oak-dhall/src/lexer/mod.rs:103-151
* `lexOperators` – examples/oak-dhall/src/lexer/mod.rs:153-187
* `lexSingleCharTokens` – examples/oak-dhall/src/lexer/mod.rs:189-224
* `run_` – examples/oak-dhall/src/lexer/mod.rs:34-69

### Model/HandLex/Django.lean

* `skipWhitespace` – examples/oak-django/src/lexer/mod.rs:86-88
* `skipComment` – examples/oak-django/src/lexer/mod.rs:91-109
* `lexString` – examples/oak-django/src/lexer/mod.rs:112-114
* `lexStringManual` – examples/oak-django/src/lexer/mod.rs:260-296
* `lexNumber` – examples/oak-django/src/lexer/mod.rs:202-256
* `lexIdentifierOrKeyword` – examples/oak-django/src/lexer/mod.rs:139-198
* `lexDjangoTags` – examples/oak-django/src/lexer/mod.rs:299-365
* `lexOperator` – examples/oak-django/src/lexer/mod.rs:368-460
* `lexDelimiter` – examples/oak-django/src/lexer/mod.rs:463-488
* `lexHtmlText` – examples/oak-django/src/lexer/mod.rs:491-516
* `run_` – examples/oak-django/src/lexer/mod.rs:40-83

### Model/HandLex/Dockerfile.lean

* `skipWhitespace` – examples/oak-dockerfile/src/lexer/mod.rs:83-85
* `lexNewline` – examples/oak-dockerfile/src/lexer/mod.rs:88-106
* `lexComment` – examples/oak-dockerfile/src/lexer/mod.rs:109-123
* `lexIdentifierOrInstruction` – examples/oak-dockerfile/src/lexer/mod.rs:126-173
* `lexNumber` – examples/oak-dockerfile/src/lexer/mod.rs:176-191
* `lexString` – examples/oak-dockerfile/src/lexer/mod.rs:194-221
* `lexPath` – examples/oak-dockerfile/src/lexer/mod.rs:224-239
* `lexOperatorsAndDelimiters` – examples/oak-dockerfile/src/lexer/mod.rs:242-265
* `lexOther` – examples/oak-dockerfile/src/lexer/mod.rs:268-276
* `run_` – examples/oak-dockerfile/src/lexer/mod.rs:36-80

### Model/HandLex/Elm.lean

* `skipWhitespace` – examples/oak-elm/src/lexer/mod.rs:80-82
* `skipComment` – examples/oak-elm/src/lexer/mod.rs:84-86
* `lexStringLiteral` – examples/oak-elm/src/lexer/mod.rs:88-90
* `lexCharLiteral` – examples/oak-elm/src/lexer/mod.rs:92-94
* `lexNumberLiteral` – examples/oak-elm/src/lexer/mod.rs:96-139
* `lexIdentifierOrKeyword` – examples/oak-elm/src/lexer/mod.rs:141-174
* `lexOperators` – examples/oak-elm/src/lexer/mod.rs:176-238
* `run_` – examples/oak-elm/src/lexer/mod.rs:41-77

### Model/HandLex/Fortran.lean

* `lexNewline` – examples/oak-fortran/src/lexer/mod.rs:77-95
* `skipWhitespace` – examples/oak-fortran/src/lexer/mod.rs:97-111
* `skipComment` – examples/oak-fortran/src/lexer/mod.rs:113-128
* `lexStringLiteral` – examples/oak-fortran/src/lexer/mod.rs:130-152
* `lexCharLiteral` – examples/oak-fortran/src/lexer/mod.rs:154-177
* `lexNumberLiteral` – examples/oak-fortran/src/lexer/mod.rs:179-228
* `lexIdentifierOrKeyword` – examples/oak-fortran/src/lexer/mod.rs:230-310
* `lexOperatorOrSingleChar` – examples/oak-fortran/src/lexer/mod.rs:312-423
* `run_` – examples/oak-fortran/src/lexer/mod.rs:30-75

### Model/HandLex/Go.lean

* `skipWhitespace` – examples/oak-go/src/lexer/mod.rs:67-82
* `skipComment` – examples/oak-go/src/lexer/mod.rs:84-107
* `lexIdentifierOrKeyword` – examples/oak-go/src/lexer/mod.rs:109-160
* `lexLiteral` – examples/oak-go/src/lexer/mod.rs:162-242
* `lexOperatorOrDelimiter` – examples/oak-go/src/lexer/mod.rs:244-393
* `run_` – examples/oak-go/src/lexer/mod.rs:30-65

### Model/HandLex/Graphql.lean

* `skipWhitespace` – examples/oak-graphql/src/lexer/mod.rs:78-80
* `skipComment` – examples/oak-graphql/src/lexer/mod.rs:83-85
* `lexStringLiteral` – examples/oak-graphql/src/lexer/mod.rs:88-115
* `lexNumberLiteral` – examples/oak-graphql/src/lexer/mod.rs:118-199
* `lexIdentifierOrKeyword` – examples/oak-graphql/src/lexer/mod.rs:202-232
* `lexOperators` – examples/oak-graphql/src/lexer/mod.rs:265-276
* `lexSingleCharTokens` – examples/oak-graphql/src/lexer/mod.rs:279-314
* `run_` – examples/oak-graphql/src/lexer/mod.rs:39-75

### Model/HandLex/Haskell.lean

* `skipWhitespace` – examples/oak-haskell/src/lexer/mod.rs:19-37
* `lexNewline` – examples/oak-haskell/src/lexer/mod.rs:39-58
* `lexSingleLineComment` – examples/oak-haskell/src/lexer/mod.rs:60-82
* `lexMultiLineComment` – examples/oak-haskell/src/lexer/mod.rs:84-117
* `lexIdentifierOrKeyword` – examples/oak-haskell/src/lexer/mod.rs:119-149
* `lexNumber` – examples/oak-haskell/src/lexer/mod.rs:178-216
* `lexString` – examples/oak-haskell/src/lexer/mod.rs:218-247
* `lexChar` – examples/oak-haskell/src/lexer/mod.rs:249-280
* `lexOperators` – examples/oak-haskell/src/lexer/mod.rs:282-422
* `lexDelimiters` – examples/oak-haskell/src/lexer/mod.rs:424-462
* `lex` – examples/oak-haskell/src/lexer/mod.rs:466-526

### Model/HandLex/Hlsl.lean

* `skipWhitespace` – examples/oak-hlsl/src/lexer/mod.rs:76-95
* `lexNewline` – examples/oak-hlsl/src/lexer/mod.rs:98-117
* `lexComment` – examples/oak-hlsl/src/lexer/mod.rs:120-159
* `lexPreprocessor` – examples/oak-hlsl/src/lexer/mod.rs:162-217
* `lexString` – examples/oak-hlsl/src/lexer/mod.rs:220-249
* `lexNumberBlock2` – examples/oak-hlsl/src/lexer/mod.rs:252-335
* `lexNumberBlock` – examples/oak-hlsl/src/lexer/mod.rs:252-335
* `lexNumber` – examples/oak-hlsl/src/lexer/mod.rs:252-335
* `lexIdentifierOrKeywordBlock` – examples/oak-hlsl/src/lexer/mod.rs:338-484
* `lexIdentifierOrKeyword` – examples/oak-hlsl/src/lexer/mod.rs:338-484
* `lexOperatorOrDelimiter` – examples/oak-hlsl/src/lexer/mod.rs:487-726
* `run_` – examples/oak-hlsl/src/lexer/mod.rs:25-73

### Model/HandLex/Idl.lean

* `skipWhitespace` – examples/oak-idl/src/lexer/mod.rs:81-83
* `skipComment` – examples/oak-idl/src/lexer/mod.rs:86-118
* `lexStringLiteral` – examples/oak-idl/src/lexer/mod.rs:121-149
* `lexNumberLiteral` – examples/oak-idl/src/lexer/mod.rs:152-226
* `lexIdentifierOrKeyword` – examples/oak-idl/src/lexer/mod.rs:229-311
* `lexPreprocessor` – examples/oak-idl/src/lexer/mod.rs:314-373
* `lexOperators` – examples/oak-idl/src/lexer/mod.rs:376-430
* `lexSingleCharTokens` – examples/oak-idl/src/lexer/mod.rs:433-456
* `run_` – examples/oak-idl/src/lexer/mod.rs:38-78

### Model/HandLex/J.lean

* `skipWhitespace` – examples/oak-j/src/lexer/mod.rs:79-81
* `skipComment` – examples/oak-j/src/lexer/mod.rs:84-97
* `lexStringLiteral` – examples/oak-j/src/lexer/mod.rs:100-120
* `lexNumberLiteral` – examples/oak-j/src/lexer/mod.rs:123-142
* `lexIdentifier` – examples/oak-j/src/lexer/mod.rs:145-163
* `lexOperators` – examples/oak-j/src/lexer/mod.rs:166-215
* `run_` – examples/oak-j/src/lexer/mod.rs:40-76

### Model/HandLex/Jasm.lean

* `skipWhitespace` – examples/oak-jasm/src/lexer/mod.rs:76-94
* `lexNewline` – examples/oak-jasm/src/lexer/mod.rs:97-106
* `skipComment` – examples/oak-jasm/src/lexer/mod.rs:109-111
* `lexStringLiteral` – examples/oak-jasm/src/lexer/mod.rs:114-116
* `lexNumberLiteral` – examples/oak-jasm/src/lexer/mod.rs:119-172
* `lexIdentifierOrKeyword` – examples/oak-jasm/src/lexer/mod.rs:175-204
* `lexPunctuation` – examples/oak-jasm/src/lexer/mod.rs:277-302
* `run_` – examples/oak-jasm/src/lexer/mod.rs:35-73

### Model/HandLex/Jasmin.lean

* `skipWhitespace` – examples/oak-jasmin/src/lexer/mod.rs:109-130
* `skipComment` – examples/oak-jasmin/src/lexer/mod.rs:133-149
* `lexString` – examples/oak-jasmin/src/lexer/mod.rs:152-179
* `lexNumber` – examples/oak-jasmin/src/lexer/mod.rs:182-219
* `lexIdentifierOrKeyword` – examples/oak-jasmin/src/lexer/mod.rs:222-252
* `lexOperatorOrDelimiter` – examples/oak-jasmin/src/lexer/mod.rs:255-280
* `run_` – examples/oak-jasmin/src/lexer/mod.rs:283-323

### Model/HandLex/Java.lean

* `skipWhitespace` – examples/oak-java/src/lexer/mod.rs:81-98
* `lexNewline` – examples/oak-java/src/lexer/mod.rs:101-112
* `skipComment` – examples/oak-java/src/lexer/mod.rs:115-147
* `lexStringLiteral` – examples/oak-java/src/lexer/mod.rs:150-181
* `lexCharLiteral` – examples/oak-java/src/lexer/mod.rs:184-211
* `lexNumberLiteral` – examples/oak-java/src/lexer/mod.rs:214-283
* `lexIdentifierOrKeyword` – examples/oak-java/src/lexer/mod.rs:286-316
* `lexOperatorOrDelimiter` – examples/oak-java/src/lexer/mod.rs:380-618
* `run_` – examples/oak-java/src/lexer/mod.rs:31-78

### Model/HandLex/Javadoc.lean

* `skipWhitespace` – examples/oak-javadoc/src/lexer/mod.rs:23-37
* `lexNewline` – examples/oak-javadoc/src/lexer/mod.rs:40-59
* `lexCommentStart` – examples/oak-javadoc/src/lexer/mod.rs:62-89
* `lexCommentEnd` – examples/oak-javadoc/src/lexer/mod.rs:92-111
* `lexTag` – examples/oak-javadoc/src/lexer/mod.rs:114-157
* `lexHtmlTag` – examples/oak-javadoc/src/lexer/mod.rs:160-227
* `lexAsterisk` – examples/oak-javadoc/src/lexer/mod.rs:250-261
* `lexText` – examples/oak-javadoc/src/lexer/mod.rs:230-247
* `run_` – examples/oak-javadoc/src/lexer/mod.rs:277-326

### Model/HandLex/Julia.lean

* `skipWhitespace` – examples/oak-julia/src/lexer/mod.rs:34-48
* `lexNewline` – examples/oak-julia/src/lexer/mod.rs:51-70
* `lexComment` – examples/oak-julia/src/lexer/mod.rs:278-325
* `lexTripleString` – examples/oak-julia/src/lexer/mod.rs:246-275
* `lexString` – examples/oak-julia/src/lexer/mod.rs:199-243
* `lexNumber` – examples/oak-julia/src/lexer/mod.rs:111-196
* `lexIdentifierOrKeyword` – examples/oak-julia/src/lexer/mod.rs:73-108
* `lexOperator` – examples/oak-julia/src/lexer/mod.rs:328-496
* `lexDelimiter` – examples/oak-julia/src/lexer/mod.rs:499-522
* `run_` – examples/oak-julia/src/lexer/mod.rs:527-579

### Model/HandLex/Kotlin.lean

* `skipWhitespace` – examples/oak-kotlin/src/lexer/mod.rs:39-53
* `lexNewline` – examples/oak-kotlin/src/lexer/mod.rs:56-75
* `lexComment` – examples/oak-kotlin/src/lexer/mod.rs:78-133
* `lexString` – examples/oak-kotlin/src/lexer/mod.rs:136-225
* `lexNumber` – examples/oak-kotlin/src/lexer/mod.rs:228-282
* `lexIdentifierOrKeyword` – examples/oak-kotlin/src/lexer/mod.rs:285-367
* `lexSpecialChar` – examples/oak-kotlin/src/lexer/mod.rs:370-500
* `run_` – examples/oak-kotlin/src/lexer/mod.rs:515-558

### Model/HandLex/Lean.lean

* `skipWhitespace` – examples/oak-lean/src/lexer/mod.rs:36-50
* `lexNewline` – examples/oak-lean/src/lexer/mod.rs:53-72
* `lexComment` – examples/oak-lean/src/lexer/mod.rs:75-138
* `lexString` – examples/oak-lean/src/lexer/mod.rs:141-171
* `lexChar` – examples/oak-lean/src/lexer/mod.rs:174-204
* `lexNumber` – examples/oak-lean/src/lexer/mod.rs:207-254
* `lexIdentifierOrKeyword` – examples/oak-lean/src/lexer/mod.rs:257-329
* `lexOperatorOrDelimiter` – examples/oak-lean/src/lexer/mod.rs:332-371
* `run_` – examples/oak-lean/src/lexer/mod.rs:373-388

### Model/HandLex/Lua.lean

* `skipWhitespace` – examples/oak-lua/src/lexer/mod.rs:72-86
* `lexNewline` – examples/oak-lua/src/lexer/mod.rs:89-108
* `lexComment` – examples/oak-lua/src/lexer/mod.rs:111-167
* `lexString` – examples/oak-lua/src/lexer/mod.rs:170-235
* `lexNumber` – examples/oak-lua/src/lexer/mod.rs:238-299
* `lexIdentifierOrKeyword` – examples/oak-lua/src/lexer/mod.rs:302-319
* `lexOperatorOrDelimiter` – examples/oak-lua/src/lexer/mod.rs:351-513
* `run_` – examples/oak-lua/src/lexer/mod.rs:25-69

### Model/HandLex/Matlab.lean

* `skipWhitespace` – examples/oak-matlab/src/lexer/mod.rs:82-99
* `lexNewline` – examples/oak-matlab/src/lexer/mod.rs:101-110
* `lexComment` – examples/oak-matlab/src/lexer/mod.rs:217-244
* `lexStringBlock` – examples/oak-matlab/src/lexer/mod.rs:185-215
* `lexString` – examples/oak-matlab/src/lexer/mod.rs:185-215
* `lexNumberBlock2` – examples/oak-matlab/src/lexer/mod.rs:152-183
* `lexNumberBlock` – examples/oak-matlab/src/lexer/mod.rs:152-183
* `lexNumber` – examples/oak-matlab/src/lexer/mod.rs:152-183
* `lexIdentifierBlock` – examples/oak-matlab/src/lexer/mod.rs:112-150
* `lexIdentifier` – examples/oak-matlab/src/lexer/mod.rs:112-150
* `lexOperator` – examples/oak-matlab/src/lexer/mod.rs:246-266
* `lexDelimiter` – examples/oak-matlab/src/lexer/mod.rs:268-282
* `run_` – examples/oak-matlab/src/lexer/mod.rs:34-80

### Model/HandLex/Mermaid.lean

* `skipWhitespace` – examples/oak-mermaid/src/lexer/mod.rs:54-71
* `run_` – examples/oak-mermaid/src/lexer/mod.rs:33-52

### Model/HandLex/Msil.lean

* `skipWhitespace` – examples/oak-msil/src/lexer/mod.rs:68-82
* `lexNewline` – examples/oak-msil/src/lexer/mod.rs:85-104
* `lexComment` – examples/oak-msil/src/lexer/mod.rs:107-126
* `lexString` – examples/oak-msil/src/lexer/mod.rs:233-261
* `lexNumber` – examples/oak-msil/src/lexer/mod.rs:199-230
* `lexIdentifier` – examples/oak-msil/src/lexer/mod.rs:129-196
* `lexDelimiter` – examples/oak-msil/src/lexer/mod.rs:264-291
* `run_` – examples/oak-msil/src/lexer/mod.rs:22-65

### Model/HandLex/Nginx.lean

* `skipWhitespace` – examples/oak-nginx/src/lexer/mod.rs:20-39
* `lexNewline` – examples/oak-nginx/src/lexer/mod.rs:42-61
* `lexComment` – examples/oak-nginx/src/lexer/mod.rs:64-84
* `lexString` – examples/oak-nginx/src/lexer/mod.rs:87-118
* `httpPrefix` – examples/oak-nginx/src/lexer/mod.rs:208-209
* `lexUrl` – examples/oak-nginx/src/lexer/mod.rs:203-226
* `lexPath` – examples/oak-nginx/src/lexer/mod.rs:179-200
* `lexNumber` – examples/oak-nginx/src/lexer/mod.rs:121-176
* `lexIdentifier` – examples/oak-nginx/src/lexer/mod.rs:229-270
* `lexDelimiter` – examples/oak-nginx/src/lexer/mod.rs:273-291
* `run_` – examples/oak-nginx/src/lexer/mod.rs:293-341

### Model/HandLex/Nim.lean

* `skipWhitespace` – examples/oak-nim/src/lexer/mod.rs:21-40
* `lexNewline` – examples/oak-nim/src/lexer/mod.rs:43-62
* `lexComment` – examples/oak-nim/src/lexer/mod.rs:65-92
* `lexString` – examples/oak-nim/src/lexer/mod.rs:95-123
* `lexChar` – examples/oak-nim/src/lexer/mod.rs:126-154
* `lexNumber` – examples/oak-nim/src/lexer/mod.rs:157-199
* `lexIdentifier` – examples/oak-nim/src/lexer/mod.rs:202-264
* `lexOperator` – examples/oak-nim/src/lexer/mod.rs:267-400
* `run_` – examples/oak-nim/src/lexer/mod.rs:402-416

### Model/HandLex/Nix.lean

* `skipWhitespace` – examples/oak-nix/src/lexer/mod.rs:73-92
* `lexNewline` – examples/oak-nix/src/lexer/mod.rs:95-114
* `lexComment` – examples/oak-nix/src/lexer/mod.rs:117-137
* `lexString` – examples/oak-nix/src/lexer/mod.rs:140-168
* `lexNumber` – examples/oak-nix/src/lexer/mod.rs:171-190
* `lexIdentifier` – examples/oak-nix/src/lexer/mod.rs:193-234
* `lexOperator` – examples/oak-nix/src/lexer/mod.rs:237-405
* `run_` – examples/oak-nix/src/lexer/mod.rs:25-57

### Model/HandLex/ObjectiveC.lean

* `skipWhitespace` – examples/oak-objective-c/src/lexer/mod.rs:82-99
* `skipComment` – examples/oak-objective-c/src/lexer/mod.rs:101-140
* `lexStringLiteral` – examples/oak-objective-c/src/lexer/mod.rs:142-198
* `lexCharLiteral` – examples/oak-objective-c/src/lexer/mod.rs:200-229
* `lexNumberLiteral` – examples/oak-objective-c/src/lexer/mod.rs:231-309
* `lexIdentifierOrKeyword` – examples/oak-objective-c/src/lexer/mod.rs:311-377
* `lexOperators` – examples/oak-objective-c/src/lexer/mod.rs:379-420
* `lexSingleCharTokens` – examples/oak-objective-c/src/lexer/mod.rs:422-445
* `run_` – examples/oak-objective-c/src/lexer/mod.rs:32-79

### Model/HandLex/Ocaml.lean

* `skipWhitespace` – examples/oak-ocaml/src/lexer/mod.rs:82-84
* `skipComment` – examples/oak-ocaml/src/lexer/mod.rs:86-88
* `lexStringLiteral` – examples/oak-ocaml/src/lexer/mod.rs:90-118
* `lexCharLiteral` – examples/oak-ocaml/src/lexer/mod.rs:120-149
* `lexNumberLiteral` – examples/oak-ocaml/src/lexer/mod.rs:151-219
* `lexIdentifierOrKeyword` – examples/oak-ocaml/src/lexer/mod.rs:221-295
* `lexOperators` – examples/oak-ocaml/src/lexer/mod.rs:297-357
* `lexSingleCharTokens` – examples/oak-ocaml/src/lexer/mod.rs:359-379
* `run_` – examples/oak-ocaml/src/lexer/mod.rs:39-79

### Model/HandLex/OrgMode.lean

* `skipWhitespace` – examples/oak-org-mode/src/lexer/mod.rs:29-31
* `skipComment` – examples/oak-org-mode/src/lexer/mod.rs:33-35
* `lexString` – examples/oak-org-mode/src/lexer/mod.rs:37-39
* `lexPriority` – examples/oak-org-mode/src/lexer/mod.rs:72-94
* `lexNumberOrDate` – examples/oak-org-mode/src/lexer/mod.rs:96-122
* `lexTextOrKeyword` – examples/oak-org-mode/src/lexer/mod.rs:41-70
* `lexSymbols` – examples/oak-org-mode/src/lexer/mod.rs:124-163
* `run_` – examples/oak-org-mode/src/lexer/mod.rs:165-225

### Model/HandLex/Pascal.lean

* `skipWhitespace` – examples/oak-pascal/src/lexer/mod.rs:27-29
* `skipComment` – examples/oak-pascal/src/lexer/mod.rs:31-68
* `lexString` – examples/oak-pascal/src/lexer/mod.rs:70-94
* `lexIdentifierOrKeyword` – examples/oak-pascal/src/lexer/mod.rs:96-164
* `lexNumber` – examples/oak-pascal/src/lexer/mod.rs:166-198
* `lexOperatorsAndPunctuation` – examples/oak-pascal/src/lexer/mod.rs:200-313
* `run_` – examples/oak-pascal/src/lexer/mod.rs:328-373

### Model/HandLex/Perl.lean

* `skipWhitespace` – examples/oak-perl/src/lexer/mod.rs:32-34
* `skipComment` – examples/oak-perl/src/lexer/mod.rs:37-39
* `lexString` – examples/oak-perl/src/lexer/mod.rs:42-82
* `lexVariable` – examples/oak-perl/src/lexer/mod.rs:85-123
* `lexIdentifierOrKeyword` – examples/oak-perl/src/lexer/mod.rs:126-204
* `lexNumber` – examples/oak-perl/src/lexer/mod.rs:207-239
* `lexOperatorsAndPunctuation` – examples/oak-perl/src/lexer/mod.rs:242-463
* `run_` – examples/oak-perl/src/lexer/mod.rs:479-529

### Model/HandLex/Php.lean

* `skipWhitespace` – examples/oak-php/src/lexer/mod.rs:79-98
* `lexNewline` – examples/oak-php/src/lexer/mod.rs:100-119
* `lexComment` – examples/oak-php/src/lexer/mod.rs:121-177
* `lexString` – examples/oak-php/src/lexer/mod.rs:179-219
* `lexNumber` – examples/oak-php/src/lexer/mod.rs:221-280
* `lexIdentifierOrKeyword` – examples/oak-php/src/lexer/mod.rs:282-384
* `lexOperatorsAndPunctuation` – examples/oak-php/src/lexer/mod.rs:386-658
* `run_` – examples/oak-php/src/lexer/mod.rs:34-77

### Model/HandLex/Powershell.lean

* `skipWhitespace` – examples/oak-powershell/src/lexer/mod.rs:76-95
* `lexNewline` – examples/oak-powershell/src/lexer/mod.rs:97-116
* `lexComment` – examples/oak-powershell/src/lexer/mod.rs:118-173
* `lexString` – examples/oak-powershell/src/lexer/mod.rs:175-216
* `lexNumber` – examples/oak-powershell/src/lexer/mod.rs:218-277
* `lexVariable` – examples/oak-powershell/src/lexer/mod.rs:279-317
* `lexIdentifierOrKeyword` – examples/oak-powershell/src/lexer/mod.rs:319-387
* `lexOperatorsAndPunctuation` – examples/oak-powershell/src/lexer/mod.rs:389-593
* `run_` – examples/oak-powershell/src/lexer/mod.rs:23-74

### Model/HandLex/Prolog.lean

* `skipWhitespace` – examples/oak-prolog/src/lexer/mod.rs:69-83
* `lexNewline` – examples/oak-prolog/src/lexer/mod.rs:85-104
* `lexComment` – examples/oak-prolog/src/lexer/mod.rs:106-150
* `lexString` – examples/oak-prolog/src/lexer/mod.rs:152-192
* `lexNumber` – examples/oak-prolog/src/lexer/mod.rs:194-238
* `lexAtomOrKeyword` – examples/oak-prolog/src/lexer/mod.rs:240-274
* `lexVariable` – examples/oak-prolog/src/lexer/mod.rs:276-296
* `lexOperatorsAndPunctuation` – examples/oak-prolog/src/lexer/mod.rs:298-476
* `run_` – examples/oak-prolog/src/lexer/mod.rs:20-67

### Model/HandLex/Protobuf.lean

* `skipWhitespace` – examples/oak-protobuf/src/lexer/mod.rs:77-91
* `lexNewline` – examples/oak-protobuf/src/lexer/mod.rs:93-112
* `lexComment` – examples/oak-protobuf/src/lexer/mod.rs:114-158
* `lexStringLiteralBlock` – examples/oak-protobuf/src/lexer/mod.rs:160-200
* `lexStringLiteral` – examples/oak-protobuf/src/lexer/mod.rs:160-200
* `lexNumberLiteralBlock2` – examples/oak-protobuf/src/lexer/mod.rs:202-253
* `lexNumberLiteralBlock` – examples/oak-protobuf/src/lexer/mod.rs:202-253
* `lexNumberLiteral` – examples/oak-protobuf/src/lexer/mod.rs:202-253
* `lexIdentifierOrKeywordBlock` – examples/oak-protobuf/src/lexer/mod.rs:255-326
* `lexIdentifierOrKeyword` – examples/oak-protobuf/src/lexer/mod.rs:255-326
* `lexOperatorsAndDelimiters` – examples/oak-protobuf/src/lexer/mod.rs:328-390
* `run_` – examples/oak-protobuf/src/lexer/mod.rs:24-75

### Model/HandLex/Purescript.lean

* `skipWhitespace` – examples/oak-purescript/src/lexer/mod.rs:84-98
* `lexNewline` – examples/oak-purescript/src/lexer/mod.rs:101-120
* `lexComment` – examples/oak-purescript/src/lexer/mod.rs:123-184
* `lexIdentifierOrKeyword` – examples/oak-purescript/src/lexer/mod.rs:187-244
* `lexNumberLiteral` – examples/oak-purescript/src/lexer/mod.rs:247-310
* `lexStringLiteral` – examples/oak-purescript/src/lexer/mod.rs:313-344
* `lexCharLiteral` – examples/oak-purescript/src/lexer/mod.rs:347-378
* `lexOperator` – examples/oak-purescript/src/lexer/mod.rs:381-495
* `lexDelimiter` – examples/oak-purescript/src/lexer/mod.rs:498-538
* `run_` – examples/oak-purescript/src/lexer/mod.rs:31-81

### Model/HandLex/Rbq.lean

* `lexString` – examples/oak-rbq/src/lexer/mod.rs:73-84
* `lexNumber` – examples/oak-rbq/src/lexer/mod.rs:86-93
* `lexPunctuation` – examples/oak-rbq/src/lexer/mod.rs:95-116
* `lexOperator` – examples/oak-rbq/src/lexer/mod.rs:118-168
* `lexIdentOrKeyword` – examples/oak-rbq/src/lexer/mod.rs:170-191
* `run_` – examples/oak-rbq/src/lexer/mod.rs:41-71

### Model/HandLex/Smalltalk.lean

* `skipWhitespace` – examples/oak-smalltalk/src/lexer/mod.rs:80-99
* `lexNewline` – examples/oak-smalltalk/src/lexer/mod.rs:102-121
* `lexComment` – examples/oak-smalltalk/src/lexer/mod.rs:124-144
* `lexNumber` – examples/oak-smalltalk/src/lexer/mod.rs:176-202
* `lexIdentifier` – examples/oak-smalltalk/src/lexer/mod.rs:147-173
* `lexPunctuation` – examples/oak-smalltalk/src/lexer/mod.rs:205-236
* `run_` – examples/oak-smalltalk/src/lexer/mod.rs:36-77

### Model/HandLex/Solidity.lean

* `skipWhitespace` – examples/oak-solidity/src/lexer/mod.rs:84-103
* `lexNewline` – examples/oak-solidity/src/lexer/mod.rs:106-125
* `lexLineComment` – examples/oak-solidity/src/lexer/mod.rs:128-156
* `lexBlockComment` – examples/oak-solidity/src/lexer/mod.rs:159-191
* `lexIdentifierOrKeyword` – examples/oak-solidity/src/lexer/mod.rs:194-222
* `lexNumber` – examples/oak-solidity/src/lexer/mod.rs:275-348
* `lexString` – examples/oak-solidity/src/lexer/mod.rs:351-394
* `lexOperator` – examples/oak-solidity/src/lexer/mod.rs:397-546
* `lexDelimiter` – examples/oak-solidity/src/lexer/mod.rs:549-573
* `run_` – examples/oak-solidity/src/lexer/mod.rs:30-81

### Model/HandLex/Sql.lean

* `skipWhitespace` – examples/oak-sql/src/lexer/mod.rs:116-119
* `lexNewline` – examples/oak-sql/src/lexer/mod.rs:95-114
* `skipComment` – examples/oak-sql/src/lexer/mod.rs:121-149
* `lexOperators` – examples/oak-sql/src/lexer/mod.rs:349-376
* `skipComment2` – examples/oak-sql/src/lexer/mod.rs:121-149
* `lexOperators2` – examples/oak-sql/src/lexer/mod.rs:349-376
* `lexStringLiteral` – examples/oak-sql/src/lexer/mod.rs:151-188
* `lexNumberLiteral` – examples/oak-sql/src/lexer/mod.rs:190-258
* `lexIdentifierOrKeyword` – examples/oak-sql/src/lexer/mod.rs:260-347
* `lexOperators3` – examples/oak-sql/src/lexer/mod.rs:349-376
* `lexSingleCharTokens` – examples/oak-sql/src/lexer/mod.rs:378-397
* `run_` – examples/oak-sql/src/lexer/mod.rs:38-92

### Model/HandLex/Swift.lean

* `skipWhitespace` – examples/oak-swift/src/lexer/mod.rs:32-51
* `lexNewline` – examples/oak-swift/src/lexer/mod.rs:54-73
* `lexComment` – examples/oak-swift/src/lexer/mod.rs:76-126
* `lexStringLiteral` – examples/oak-swift/src/lexer/mod.rs:378-429
* `lexNumberLiteral` – examples/oak-swift/src/lexer/mod.rs:261-375
* `lexIdentifierOrKeyword` – examples/oak-swift/src/lexer/mod.rs:129-258
* `lexOperator` – examples/oak-swift/src/lexer/mod.rs:432-632
* `lexDelimiter` – examples/oak-swift/src/lexer/mod.rs:635-664
* `run_` – examples/oak-swift/src/lexer/mod.rs:668-716

### Model/HandLex/Tailwind.lean

* `skipWhitespace` – examples/oak-tailwind/src/lexer/mod.rs:70-89
* `skipComment` – examples/oak-tailwind/src/lexer/mod.rs:91-106
* `lexString` – examples/oak-tailwind/src/lexer/mod.rs:108-137
* `lexNumber` – examples/oak-tailwind/src/lexer/mod.rs:139-156
* `lexPunctuation` – examples/oak-tailwind/src/lexer/mod.rs:158-220
* `lexIdentifier` – examples/oak-tailwind/src/lexer/mod.rs:222-251
* `run_` – examples/oak-tailwind/src/lexer/mod.rs:36-68

### Model/HandLex/Tex.lean

* `skipWhitespace` – examples/oak-tex/src/lexer/mod.rs:78-80
* `skipComment` – examples/oak-tex/src/lexer/mod.rs:82-84
* `lexCommand` – examples/oak-tex/src/lexer/mod.rs:86-200
* `lexMathDelimiters` – examples/oak-tex/src/lexer/mod.rs:202-216
* `lexBracesAndBrackets` – examples/oak-tex/src/lexer/mod.rs:218-238
* `lexSpecialChars` – examples/oak-tex/src/lexer/mod.rs:240-274
* `lexNumber` – examples/oak-tex/src/lexer/mod.rs:276-299
* `lexText` – examples/oak-tex/src/lexer/mod.rs:301-321
* `run_` – examples/oak-tex/src/lexer/mod.rs:36-76

### Model/HandLex/Toml.lean

* `skipWhitespace` – examples/oak-toml/src/lexer/mod.rs:76-95
* `skipComment` – examples/oak-toml/src/lexer/mod.rs:98-117
* `lexString` – examples/oak-toml/src/lexer/mod.rs:120-166
* `lexNumber` – examples/oak-toml/src/lexer/mod.rs:169-200
* `lexPunctuation` – examples/oak-toml/src/lexer/mod.rs:203-265
* `lexIdentifier` – examples/oak-toml/src/lexer/mod.rs:268-290
* `lexPunctuation2` – examples/oak-toml/src/lexer/mod.rs:203-265
* `run_` – examples/oak-toml/src/lexer/mod.rs:36-73

### Model/HandLex/Twig.lean

* `skipWhitespace` – examples/oak-twig/src/lexer/mod.rs:65-84
* `skipComment` – examples/oak-twig/src/lexer/mod.rs:86-101
* `lexString` – examples/oak-twig/src/lexer/mod.rs:103-132
* `lexNumber` – examples/oak-twig/src/lexer/mod.rs:134-156
* `lexPunctuation` – examples/oak-twig/src/lexer/mod.rs:158-220
* `lexIdentifier` – examples/oak-twig/src/lexer/mod.rs:222-251
* `run_` – examples/oak-twig/src/lexer/mod.rs:31-63

### Model/HandLex/Typescript.lean

* `skipWhitespace` – examples/oak-typescript/src/lexer/mod.rs:84-103
* `lexNewline` – examples/oak-typescript/src/lexer/mod.rs:105-125
* `skipComment` – examples/oak-typescript/src/lexer/mod.rs:127-159
* `lexStringLiteral` – examples/oak-typescript/src/lexer/mod.rs:161-190
* `lexTemplateLiteral` – examples/oak-typescript/src/lexer/mod.rs:192-219
* `lexNumericLiteral` – examples/oak-typescript/src/lexer/mod.rs:221-278
* `lexIdentifierOrKeyword` – examples/oak-typescript/src/lexer/mod.rs:280-307
* `lexOperatorOrPunctuation` – examples/oak-typescript/src/lexer/mod.rs:313-396
* `run_` – examples/oak-typescript/src/lexer/mod.rs:35-82

### Model/HandLex/Vala.lean

* `skipWhitespace` – examples/oak-vala/src/lexer/mod.rs:81-83
* `skipComment` – examples/oak-vala/src/lexer/mod.rs:85-87
* `lexStringLiteral` – examples/oak-vala/src/lexer/mod.rs:89-91
* `lexCharLiteral` – examples/oak-vala/src/lexer/mod.rs:93-95
* `lexNumberLiteral` – examples/oak-vala/src/lexer/mod.rs:97-225
* `lexIdentifierOrKeyword` – examples/oak-vala/src/lexer/mod.rs:227-340
* `lexOperators` – examples/oak-vala/src/lexer/mod.rs:342-406
* `lexSingleCharTokens` – examples/oak-vala/src/lexer/mod.rs:408-430
* `run_` – examples/oak-vala/src/lexer/mod.rs:37-79

### Model/HandLex/Verilog.lean

* `skipWhitespace` – examples/oak-verilog/src/lexer/mod.rs:79-81
* `skipComment` – examples/oak-verilog/src/lexer/mod.rs:84-116
* `lexStringLiteral` – examples/oak-verilog/src/lexer/mod.rs:119-147
* `lexNumberLiteral` – examples/oak-verilog/src/lexer/mod.rs:150-192
* `lexIdentifierOrKeyword` – examples/oak-verilog/src/lexer/mod.rs:195-244
* `lexOperators` – examples/oak-verilog/src/lexer/mod.rs:247-296
* `lexSingleCharTokens` – examples/oak-verilog/src/lexer/mod.rs:299-337
* `run_` – examples/oak-verilog/src/lexer/mod.rs:37-76

### Model/HandLex/Vhdl.lean

* `skipWhitespace` – examples/oak-vhdl/src/lexer/mod.rs:80-97
* `skipComment` – examples/oak-vhdl/src/lexer/mod.rs:100-116
* `lexStringLiteral` – examples/oak-vhdl/src/lexer/mod.rs:119-199
* `lexNumberLiteral` – examples/oak-vhdl/src/lexer/mod.rs:202-284
* `lexIdentifierOrKeyword` – examples/oak-vhdl/src/lexer/mod.rs:287-409
* `lexOperators` – examples/oak-vhdl/src/lexer/mod.rs:412-516
* `lexSingleCharTokens` – examples/oak-vhdl/src/lexer/mod.rs:519-551
* `run_` – examples/oak-vhdl/src/lexer/mod.rs:33-77

### Model/HandLex/Vlang.lean

* `skipWhitespace` – examples/oak-vlang/src/lexer/mod.rs:24-43
* `lexNewline` – examples/oak-vlang/src/lexer/mod.rs:46-65
* `lexComment` – examples/oak-vlang/src/lexer/mod.rs:68-106
* `lexString` – examples/oak-vlang/src/lexer/mod.rs:109-149
* `lexNumber` – examples/oak-vlang/src/lexer/mod.rs:152-234
* `lexIdentifierOrKeyword` – examples/oak-vlang/src/lexer/mod.rs:237-324
* `lexOperator` – examples/oak-vlang/src/lexer/mod.rs:327-568
* `lex` – examples/oak-vlang/src/lexer/mod.rs:572-614

### Model/HandLex/Voml.lean

* `skipWhitespace` – examples/oak-voml/src/lexer/mod.rs:22-41
* `lexNewline` – examples/oak-voml/src/lexer/mod.rs:44-63
* `lexComment` – examples/oak-voml/src/lexer/mod.rs:66-104
* `lexString` – examples/oak-voml/src/lexer/mod.rs:107-147
* `lexNumber` – examples/oak-voml/src/lexer/mod.rs:150-232
* `lexIdentifierOrKeyword` – examples/oak-voml/src/lexer/mod.rs:235-322
* `lexOperator` – examples/oak-voml/src/lexer/mod.rs:325-566
* `lex` – examples/oak-voml/src/lexer/mod.rs:570-612

### Model/HandLex/Wat.lean

* `skipWhitespace` – examples/oak-wat/src/lexer/mod.rs:74-76
* `skipComment` – examples/oak-wat/src/lexer/mod.rs:79-81
* `lexStringLiteral` – examples/oak-wat/src/lexer/mod.rs:84-86
* `lexNumberLiteral` – examples/oak-wat/src/lexer/mod.rs:89-116
* `lexIdentifierOrKeyword` – examples/oak-wat/src/lexer/mod.rs:119-220
* `lexPunctuation` – examples/oak-wat/src/lexer/mod.rs:223-240
* `lexText` – examples/oak-wat/src/lexer/mod.rs:243-253
* `run_` – examples/oak-wat/src/lexer/mod.rs:36-71

### Model/HandLex/Wgsl.lean

* `skipWhitespace` – examples/oak-wgsl/src/lexer/mod.rs:20-39
* `lexNewline` – examples/oak-wgsl/src/lexer/mod.rs:42-61
* `lexComment` – examples/oak-wgsl/src/lexer/mod.rs:64-120
* `lexString` – examples/oak-wgsl/src/lexer/mod.rs:123-154
* `lexNumber` – examples/oak-wgsl/src/lexer/mod.rs:157-270
* `lexIdentOrKeyword` – examples/oak-wgsl/src/lexer/mod.rs:273-352
* `lexPunctuation` – examples/oak-wgsl/src/lexer/mod.rs:355-541
* `lexText` – examples/oak-wgsl/src/lexer/mod.rs:544-555
* `run_` – examples/oak-wgsl/src/lexer/mod.rs:557-599

### Model/HandLex/WitComponent.lean

* `skipWhitespace` – examples/oak-wit-component/src/lexer/mod.rs:80-82
* `skipComment` – examples/oak-wit-component/src/lexer/mod.rs:84-86
* `lexStringLiteral` – examples/oak-wit-component/src/lexer/mod.rs:88-90
* `lexNumberLiteral` – examples/oak-wit-component/src/lexer/mod.rs:92-113
* `lexIdentifierOrKeyword` – examples/oak-wit-component/src/lexer/mod.rs:115-184
* `lexPunctuation` – examples/oak-wit-component/src/lexer/mod.rs:186-273
* `lexText` – examples/oak-wit-component/src/lexer/mod.rs:275-285
* `run_` – examples/oak-wit-component/src/lexer/mod.rs:36-78

### Model/HandLex/Wolfram.lean

* `skipWhitespace` – examples/oak-wolfram/src/lexer/mod.rs:77-96
* `skipComment` – examples/oak-wolfram/src/lexer/mod.rs:98-100
* `lexStringLiteral` – examples/oak-wolfram/src/lexer/mod.rs:102-104
* `lexNumberLiteral` – examples/oak-wolfram/src/lexer/mod.rs:106-174
* `lexIdentifierOrKeyword` – examples/oak-wolfram/src/lexer/mod.rs:176-234
* `lexOperators` – examples/oak-wolfram/src/lexer/mod.rs:236-307
* `lexSingleCharTokens` – examples/oak-wolfram/src/lexer/mod.rs:309-335
* `run_` – examples/oak-wolfram/src/lexer/mod.rs:39-75

### Model/HandLex/Zig.lean

* `skipWhitespace` – examples/oak-zig/src/lexer/mod.rs:90-92
* `skipComment` – examples/oak-zig/src/lexer/mod.rs:95-125
* `lexStringLiteral` – examples/oak-zig/src/lexer/mod.rs:128-191
* `lexCharLiteral` – examples/oak-zig/src/lexer/mod.rs:194-216
* `lexNumberLiteral` – examples/oak-zig/src/lexer/mod.rs:219-284
* `lexIdentifierOrKeyword` – examples/oak-zig/src/lexer/mod.rs:287-302
* `lexBuiltin` – examples/oak-zig/src/lexer/mod.rs:412-426
* `lexOperators` – examples/oak-zig/src/lexer/mod.rs:429-472
* `lexSingleCharTokens` – examples/oak-zig/src/lexer/mod.rs:475-510
* `run_` – examples/oak-zig/src/lexer/mod.rs:36-87

### Model/HandPratt/Actionscript.lean

* `tWhitespace` – lexer/token_type.rs:11
* `tNewline` – lexer/token_type.rs:12
* `tComment` – lexer/token_type.rs:13
* `tIdentifier` – lexer/token_type.rs:14
* `tStringLiteral` – lexer/token_type.rs:15
* `tCharLiteral` – lexer/token_type.rs:16
* `tNumberLiteral` – lexer/token_type.rs:17
* `tBooleanLiteral` – lexer/token_type.rs:18
* `tNullLiteral` – lexer/token_type.rs:19
* `tClass` – lexer/token_type.rs:24
* `tConst` – lexer/token_type.rs:25
* `tElse` – lexer/token_type.rs:30
* `tExtends` – lexer/token_type.rs:31
* `tFalse` – lexer/token_type.rs:32
* `tFor` – lexer/token_type.rs:34
* `tFunction` – lexer/token_type.rs:35
* `tIf` – lexer/token_type.rs:36
* `tImport` – lexer/token_type.rs:38
* `tInstanceof` – lexer/token_type.rs:40
* `tInterface` – lexer/token_type.rs:41
* `tIs` – lexer/token_type.rs:43
* `tNull` – lexer/token_type.rs:46
* `tPackage` – lexer/token_type.rs:47
* `tReturn` – lexer/token_type.rs:51
* `tTrue` – lexer/token_type.rs:57
* `tVar` – lexer/token_type.rs:61
* `tWhile` – lexer/token_type.rs:63
* `tPlus` – lexer/token_type.rs:85
* `tMinus` – lexer/token_type.rs:86
* `tStar` – lexer/token_type.rs:87
* `tSlash` – lexer/token_type.rs:88
* `tPercent` – lexer/token_type.rs:89
* `tEqual` – lexer/token_type.rs:90
* `tEqualEqual` – lexer/token_type.rs:91
* `tEqualEqualEqual` – lexer/token_type.rs:92
* `tNotEqual` – lexer/token_type.rs:93
* `tNotEqualEqual` – lexer/token_type.rs:94
* `tLessThan` – lexer/token_type.rs:95
* `tLessEqual` – lexer/token_type.rs:96
* `tGreaterThan` – lexer/token_type.rs:97
* `tGreaterEqual` – lexer/token_type.rs:98
* `tLogicalAnd` – lexer/token_type.rs:99
* `tLogicalOr` – lexer/token_type.rs:100
* `tLogicalNot` – lexer/token_type.rs:101
* `tBitwiseAnd` – lexer/token_type.rs:102
* `tBitwiseOr` – lexer/token_type.rs:103
* `tBitwiseXor` – lexer/token_type.rs:104
* `tBitwiseNot` – lexer/token_type.rs:105
* `tLeftShift` – lexer/token_type.rs:106
* `tRightShift` – lexer/token_type.rs:107
* `tUnsignedRightShift` – lexer/token_type.rs:108
* `tPlusAssign` – lexer/token_type.rs:111
* `tMinusAssign` – lexer/token_type.rs:112
* `tStarAssign` – lexer/token_type.rs:113
* `tSlashAssign` – lexer/token_type.rs:114
* `tPercentAssign` – lexer/token_type.rs:115
* `tLeftShiftAssign` – lexer/token_type.rs:116
* `tRightShiftAssign` – lexer/token_type.rs:117
* `tUnsignedRightShiftAssign` – lexer/token_type.rs:118
* `tBitwiseAndAssign` – lexer/token_type.rs:119
* `tBitwiseOrAssign` – lexer/token_type.rs:120
* `tBitwiseXorAssign` – lexer/token_type.rs:121
* `tColon` – lexer/token_type.rs:123
* `tDot` – lexer/token_type.rs:124
* `tLeftParen` – lexer/token_type.rs:126
* `tRightParen` – lexer/token_type.rs:127
* `tLeftBrace` – lexer/token_type.rs:128
* `tRightBrace` – lexer/token_type.rs:129
* `tLeftBracket` – lexer/token_type.rs:130
* `tRightBracket` – lexer/token_type.rs:131
* `tSemicolon` – lexer/token_type.rs:132
* `tComma` – lexer/token_type.rs:133
* `eClass` – parser/element_type.rs:21
* `eFunction` – parser/element_type.rs:32
* `eImport` – parser/element_type.rs:35
* `eInterface` – parser/element_type.rs:38
* `ePackage` – parser/element_type.rs:44
* `eVariable` – parser/element_type.rs:142
* `eParameterList` – parser/element_type.rs:147
* `eBinaryExpression` – parser/element_type.rs:158
* `eUnaryExpression` – parser/element_type.rs:159
* `eIfStatement` – parser/element_type.rs:160
* `eForStatement` – parser/element_type.rs:161
* `eWhileStatement` – parser/element_type.rs:162
* `eReturnStatement` – parser/element_type.rs:167
* `eError` – parser/element_type.rs:170
* `eLiteralExpression` – parser/element_type.rs:171
* `eIdentifierExpression` – parser/element_type.rs:172
* `eParenthesizedExpression` – parser/element_type.rs:173
* `eSourceFile` – parser/element_type.rs:174
* `eBlockExpression` – parser/element_type.rs:175
* `eCallExpression` – parser/element_type.rs:181
* `eIndexExpression` – parser/element_type.rs:182
* `eFieldExpression` – parser/element_type.rs:183
* `pPrimary` – parser/mod.rs:21-43
* `pPrefix` – parser/mod.rs:45-56
* `pParseStatement` – parser/parse_top_level.rs:23-43
* `pParseFunction` – parser/parse_top_level.rs:45-57
* `pParseParamList` – parser/parse_top_level.rs:59-69
* `pParseBlock` – parser/parse_top_level.rs:71-81
* `pParseImportStatement` – parser/parse_top_level.rs:83-92
* `pParsePackageDeclaration` – parser/parse_top_level.rs:94-103
* `pParseClassDeclaration` – parser/parse_top_level.rs:105-115
* `pParseInterfaceDeclaration` – parser/parse_top_level.rs:117-124
* `pParseVariableDeclaration` – parser/parse_top_level.rs:126-140
* `pParseIfStatement` – parser/parse_top_level.rs:142-154
* `pParseWhileStatement` – parser/parse_top_level.rs:156-165
* `pParseForStatement` – parser/parse_top_level.rs:167-178
* `pParseReturnStatement` – parser/parse_top_level.rs:180-189
* `levels` – parser/mod.rs:58-126
* `pPratt` – parser/pratt.rs:237-243
* `primary` – parser/mod.rs:21-43
* `prefix_` – parser/mod.rs:45-56
* `parseStatement` – parser/parse_top_level.rs:23-43
* `parseFunction` – parser/parse_top_level.rs:45-57
* `parseParamList` – parser/parse_top_level.rs:59-69
* `parseBlock` – parser/parse_top_level.rs:71-81
* `parseImportStatement` – parser/parse_top_level.rs:83-92
* `parsePackageDeclaration` – parser/parse_top_level.rs:94-103
* `parseClassDeclaration` – parser/parse_top_level.rs:105-115
* `parseInterfaceDeclaration` – parser/parse_top_level.rs:117-124
* `parseVariableDeclaration` – parser/parse_top_level.rs:126-140
* `parseIfStatement` – parser/parse_top_level.rs:142-154
* `parseWhileStatement` – parser/parse_top_level.rs:156-165
* `parseForStatement` – parser/parse_top_level.rs:167-178
* `parseReturnStatement` – parser/parse_top_level.rs:180-189
* `infix_` – parser/mod.rs:58-126
* `pratt` – parser/pratt.rs:237-243
* `main` – parser/parse_top_level.rs:10-21
* `parser` – parser/parse_top_level.rs:10-21; lexer/token_type.rs:193-195

### Model/HandPratt/C.lean

* `tLeftParen` – lexer/token_type.rs:10
* `tRightParen` – lexer/token_type.rs:12
* `tLeftBracket` – lexer/token_type.rs:14
* `tRightBracket` – lexer/token_type.rs:16
* `tLeftBrace` – lexer/token_type.rs:18
* `tRightBrace` – lexer/token_type.rs:20
* `tComma` – lexer/token_type.rs:22
* `tSemicolon` – lexer/token_type.rs:24
* `tDot` – lexer/token_type.rs:28
* `tPlus` – lexer/token_type.rs:32
* `tMinus` – lexer/token_type.rs:34
* `tStar` – lexer/token_type.rs:36
* `tSlash` – lexer/token_type.rs:38
* `tPercent` – lexer/token_type.rs:40
* `tAssign` – lexer/token_type.rs:42
* `tPlusAssign` – lexer/token_type.rs:44
* `tMinusAssign` – lexer/token_type.rs:46
* `tStarAssign` – lexer/token_type.rs:48
* `tSlashAssign` – lexer/token_type.rs:50
* `tPercentAssign` – lexer/token_type.rs:52
* `tEqual` – lexer/token_type.rs:54
* `tNotEqual` – lexer/token_type.rs:56
* `tLess` – lexer/token_type.rs:58
* `tGreater` – lexer/token_type.rs:60
* `tLessEqual` – lexer/token_type.rs:62
* `tGreaterEqual` – lexer/token_type.rs:64
* `tLogicalAnd` – lexer/token_type.rs:66
* `tLogicalOr` – lexer/token_type.rs:68
* `tAndAssign` – lexer/token_type.rs:84
* `tOrAssign` – lexer/token_type.rs:86
* `tXorAssign` – lexer/token_type.rs:88
* `tLeftShiftAssign` – lexer/token_type.rs:90
* `tRightShiftAssign` – lexer/token_type.rs:92
* `tArrow` – lexer/token_type.rs:98
* `tStatic` – lexer/token_type.rs:104
* `tExtern` – lexer/token_type.rs:106
* `tTypedef` – lexer/token_type.rs:108
* `tVoid` – lexer/token_type.rs:110
* `tChar` – lexer/token_type.rs:112
* `tInt` – lexer/token_type.rs:116
* `tFloat` – lexer/token_type.rs:120
* `tDouble` – lexer/token_type.rs:122
* `tStruct` – lexer/token_type.rs:128
* `tUnion` – lexer/token_type.rs:130
* `tEnum` – lexer/token_type.rs:132
* `tIf` – lexer/token_type.rs:140
* `tElse` – lexer/token_type.rs:142
* `tFor` – lexer/token_type.rs:150
* `tWhile` – lexer/token_type.rs:152
* `tReturn` – lexer/token_type.rs:162
* `tIntegerLiteral` – lexer/token_type.rs:188
* `tFloatLiteral` – lexer/token_type.rs:190
* `tCharLiteral` – lexer/token_type.rs:192
* `tStringLiteral` – lexer/token_type.rs:194
* `tIdentifier` – lexer/token_type.rs:196
* `tWhitespace` – lexer/token_type.rs:198
* `tComment` – lexer/token_type.rs:200
* `eRoot` – parser/element_type.rs:13
* `eFunctionDefinition` – parser/element_type.rs:15
* `eParameterList` – parser/element_type.rs:17
* `eCompoundStatement` – parser/element_type.rs:19
* `eExpressionStatement` – parser/element_type.rs:21
* `eDeclarationStatement` – parser/element_type.rs:23
* `eIfStatement` – parser/element_type.rs:25
* `eWhileStatement` – parser/element_type.rs:27
* `eForStatement` – parser/element_type.rs:29
* `eReturnStatement` – parser/element_type.rs:31
* `eError` – parser/element_type.rs:33
* `eTokenIdentifier` – parser/element_type.rs:11
* `pParseStatement` – parser/mod.rs:27-45
* `pSkipTrivia` – parser/mod.rs:48-57
* `pParseDeclaration` – parser/mod.rs:60-111
* `pParseIfStatement` – parser/mod.rs:113-126
* `pParseWhileStatement` – parser/mod.rs:128-138
* `pParseForStatement` – parser/mod.rs:140-169
* `pParseReturnStatement` – parser/mod.rs:171-181
* `pParseCompoundStatement` – parser/mod.rs:183-192
* `pPrimary` – parser/mod.rs:196-223
* `levels` – parser/mod.rs:225-279
* `pPratt` – parser/pratt.rs:237-243
* `parseStatement` – parser/mod.rs:27-45
* `skipTrivia` – parser/mod.rs:48-57
* `parseDeclaration` – parser/mod.rs:60-111
* `parseIfStatement` – parser/mod.rs:113-126
* `parseWhileStatement` – parser/mod.rs:128-138
* `parseForStatement` – parser/mod.rs:140-169
* `parseReturnStatement` – parser/mod.rs:171-181
* `parseCompoundStatement` – parser/mod.rs:183-192
* `primary` – parser/mod.rs:196-223
* `infix_` – parser/mod.rs:225-279
* `pratt` – parser/pratt.rs:237-243
* `main` – parser/mod.rs:283-292
* `parser` – parser/mod.rs:283-292; lexer/token_type.rs:268-270

### Model/HandPratt/Cpp.lean

* `tWhitespace` – lexer/token_type.rs:12
* `tNewline` – lexer/token_type.rs:14
* `tComment` – lexer/token_type.rs:16
* `tStringLiteral` – lexer/token_type.rs:20
* `tCharacterLiteral` – lexer/token_type.rs:22
* `tIntegerLiteral` – lexer/token_type.rs:24
* `tFloatLiteral` – lexer/token_type.rs:26
* `tBooleanLiteral` – lexer/token_type.rs:28
* `tIdentifier` – lexer/token_type.rs:32
* `tKeyword` – lexer/token_type.rs:34
* `tPlus` – lexer/token_type.rs:38
* `tMinus` – lexer/token_type.rs:40
* `tStar` – lexer/token_type.rs:42
* `tSlash` – lexer/token_type.rs:44
* `tPercent` – lexer/token_type.rs:46
* `tAssign` – lexer/token_type.rs:48
* `tPlusAssign` – lexer/token_type.rs:50
* `tMinusAssign` – lexer/token_type.rs:52
* `tStarAssign` – lexer/token_type.rs:54
* `tSlashAssign` – lexer/token_type.rs:56
* `tPercentAssign` – lexer/token_type.rs:58
* `tEqual` – lexer/token_type.rs:60
* `tNotEqual` – lexer/token_type.rs:62
* `tLess` – lexer/token_type.rs:64
* `tGreater` – lexer/token_type.rs:66
* `tLessEqual` – lexer/token_type.rs:68
* `tGreaterEqual` – lexer/token_type.rs:70
* `tLogicalAnd` – lexer/token_type.rs:72
* `tLogicalOr` – lexer/token_type.rs:74
* `tAndAssign` – lexer/token_type.rs:90
* `tOrAssign` – lexer/token_type.rs:92
* `tXorAssign` – lexer/token_type.rs:94
* `tLeftShiftAssign` – lexer/token_type.rs:96
* `tRightShiftAssign` – lexer/token_type.rs:98
* `tArrow` – lexer/token_type.rs:104
* `tScope` – lexer/token_type.rs:106
* `tSemicolon` – lexer/token_type.rs:112
* `tDot` – lexer/token_type.rs:116
* `tLeftParen` – lexer/token_type.rs:124
* `tRightParen` – lexer/token_type.rs:126
* `tLeftBracket` – lexer/token_type.rs:128
* `tLeftBrace` – lexer/token_type.rs:132
* `tRightBrace` – lexer/token_type.rs:134
* `tPreprocessor` – lexer/token_type.rs:142
* `eSourceFile` – parser/element_type.rs:14
* `eError` – parser/element_type.rs:16
* `pParseStatement` – parser/mod.rs:35-53
* `pParseCompoundStatement` – parser/mod.rs:56-63
* `pPrimary` – parser/mod.rs:82-105
* `pPrefix` – parser/mod.rs:107-109
* `levels` – parser/mod.rs:111-151
* `pPratt` – parser/pratt.rs:237-243
* `parseStatement` – parser/mod.rs:35-53
* `parseCompoundStatement` – parser/mod.rs:56-63
* `primary` – parser/mod.rs:82-105
* `prefix_` – parser/mod.rs:107-109
* `infix_` – parser/mod.rs:111-151
* `pratt` – parser/pratt.rs:237-243
* `main` – parser/mod.rs:68-77
* `parser` – parser/mod.rs:68-77; lexer/token_type.rs:159-160; language/mod.rs:298-300

### Model/HandPratt/Csharp.lean

* `tIdentifier` – lexer/token_type.rs:202
* `tNumber` – lexer/token_type.rs:205
* `tString` – lexer/token_type.rs:207
* `tNumberLiteral` – lexer/token_type.rs:215
* `tStringLiteral` – lexer/token_type.rs:217
* `tAbstract` – lexer/token_type.rs:222
* `tBreak` – lexer/token_type.rs:228
* `tClass` – lexer/token_type.rs:234
* `tContinue` – lexer/token_type.rs:236
* `tDelegate` – lexer/token_type.rs:239
* `tElse` – lexer/token_type.rs:242
* `tEnum` – lexer/token_type.rs:243
* `tEvent` – lexer/token_type.rs:244
* `tFor` – lexer/token_type.rs:251
* `tForeach` – lexer/token_type.rs:252
* `tIf` – lexer/token_type.rs:254
* `tInterface` – lexer/token_type.rs:258
* `tInternal` – lexer/token_type.rs:259
* `tNamespace` – lexer/token_type.rs:263
* `tOverride` – lexer/token_type.rs:269
* `tPrivate` – lexer/token_type.rs:271
* `tProtected` – lexer/token_type.rs:272
* `tPublic` – lexer/token_type.rs:273
* `tReadonly` – lexer/token_type.rs:274
* `tRecord` – lexer/token_type.rs:275
* `tReturn` – lexer/token_type.rs:277
* `tStatic` – lexer/token_type.rs:283
* `tStruct` – lexer/token_type.rs:284
* `tThis` – lexer/token_type.rs:286
* `tUsing` – lexer/token_type.rs:296
* `tVirtual` – lexer/token_type.rs:297
* `tWhile` – lexer/token_type.rs:300
* `tAsKeyword` – lexer/token_type.rs:304
* `tAsyncKeyword` – lexer/token_type.rs:305
* `tFalseKeyword` – lexer/token_type.rs:328
* `tIsKeyword` – lexer/token_type.rs:341
* `tNullKeyword` – lexer/token_type.rs:346
* `tTrueKeyword` – lexer/token_type.rs:369
* `tAddKeyword` – lexer/token_type.rs:384
* `tGetKeyword` – lexer/token_type.rs:390
* `tRemoveKeyword` – lexer/token_type.rs:398
* `tSetKeyword` – lexer/token_type.rs:400
* `tPlus` – lexer/token_type.rs:407
* `tMinus` – lexer/token_type.rs:408
* `tStar` – lexer/token_type.rs:409
* `tSlash` – lexer/token_type.rs:410
* `tPercent` – lexer/token_type.rs:411
* `tEqual` – lexer/token_type.rs:422
* `tNotEqual` – lexer/token_type.rs:423
* `tLess` – lexer/token_type.rs:424
* `tLessEqual` – lexer/token_type.rs:425
* `tGreater` – lexer/token_type.rs:426
* `tGreaterEqual` – lexer/token_type.rs:427
* `tLogicalAnd` – lexer/token_type.rs:428
* `tLogicalOr` – lexer/token_type.rs:429
* `tAssign` – lexer/token_type.rs:439
* `tPlusAssign` – lexer/token_type.rs:440
* `tMinusAssign` – lexer/token_type.rs:441
* `tStarAssign` – lexer/token_type.rs:442
* `tSlashAssign` – lexer/token_type.rs:443
* `tPercentAssign` – lexer/token_type.rs:444
* `tLeftShiftAssign` – lexer/token_type.rs:448
* `tRightShiftAssign` – lexer/token_type.rs:449
* `tQuestionQuestionAssign` – lexer/token_type.rs:450
* `tAndAssign` – lexer/token_type.rs:451
* `tOrAssign` – lexer/token_type.rs:452
* `tXorAssign` – lexer/token_type.rs:453
* `tLeftParen` – lexer/token_type.rs:456
* `tRightParen` – lexer/token_type.rs:457
* `tLeftBracket` – lexer/token_type.rs:458
* `tRightBracket` – lexer/token_type.rs:459
* `tLeftBrace` – lexer/token_type.rs:460
* `tRightBrace` – lexer/token_type.rs:461
* `tSemicolon` – lexer/token_type.rs:463
* `tDot` – lexer/token_type.rs:466
* `eIfStatement` – parser/element_type.rs:274
* `eWhileStatement` – parser/element_type.rs:275
* `eForStatement` – parser/element_type.rs:276
* `eBlock` – parser/element_type.rs:277
* `eReturnStatement` – parser/element_type.rs:278
* `eMethodDeclaration` – parser/element_type.rs:279
* `ePropertyDeclaration` – parser/element_type.rs:280
* `eFieldDeclaration` – parser/element_type.rs:281
* `eIndexerDeclaration` – parser/element_type.rs:282
* `eIdentifierName` – parser/element_type.rs:283
* `eLiteralExpression` – parser/element_type.rs:284
* `eBinaryExpression` – parser/element_type.rs:285
* `eInvocationExpression` – parser/element_type.rs:286
* `eElementAccessExpression` – parser/element_type.rs:287
* `eMemberAccessExpression` – parser/element_type.rs:288
* `eAssignmentExpression` – parser/element_type.rs:289
* `eBreakStatement` – parser/element_type.rs:290
* `eContinueStatement` – parser/element_type.rs:291
* `eExpressionStatement` – parser/element_type.rs:292
* `eForeachStatement` – parser/element_type.rs:293
* `eNamespaceDeclaration` – parser/element_type.rs:294
* `eUsingDirective` – parser/element_type.rs:295
* `eClassDeclaration` – parser/element_type.rs:296
* `eInterfaceDeclaration` – parser/element_type.rs:297
* `eStructDeclaration` – parser/element_type.rs:298
* `eEnumDeclaration` – parser/element_type.rs:299
* `eRecordDeclaration` – parser/element_type.rs:300
* `eDelegateDeclaration` – parser/element_type.rs:301
* `eEventDeclaration` – parser/element_type.rs:302
* `eRoot` – parser/element_type.rs:306
* `pPrimary` – parser/mod.rs:20-49
* `pPrefix` – parser/mod.rs:51-53
* `pParseStatement` – parser/mod.rs:137-183
* `pParseForeachStatement` – parser/mod.rs:185-198
* `pParseNamespaceDeclaration` – parser/mod.rs:200-210
* `pParseUsingDirective` – parser/mod.rs:212-222
* `pParseAccessorBlock` – parser/mod.rs:224-245
* `pParseDeclaration` – parser/mod.rs:247-391
* `pParseIfStatement` – parser/mod.rs:393-406
* `pParseWhileStatement` – parser/mod.rs:408-418
* `pParseForStatement` – parser/mod.rs:420-430
* `pParseBlock` – parser/mod.rs:432-442
* `pParseReturnStatement` – parser/mod.rs:444-454
* `levels` – parser/mod.rs:55-129
* `pPratt` – parser/pratt.rs:237-243
* `primary` – parser/mod.rs:20-49
* `prefix_` – parser/mod.rs:51-53
* `parseStatement` – parser/mod.rs:137-183
* `parseForeachStatement` – parser/mod.rs:185-198
* `parseNamespaceDeclaration` – parser/mod.rs:200-210
* `parseUsingDirective` – parser/mod.rs:212-222
* `parseAccessorBlock` – parser/mod.rs:224-245
* `parseDeclaration` – parser/mod.rs:247-391
* `parseIfStatement` – parser/mod.rs:393-406
* `parseWhileStatement` – parser/mod.rs:408-418
* `parseForStatement` – parser/mod.rs:420-430
* `parseBlock` – parser/mod.rs:432-442
* `parseReturnStatement` – parser/mod.rs:444-454
* `infix_` – parser/mod.rs:55-129
* `pratt` – parser/pratt.rs:237-243
* `main` – parser/mod.rs:458-467
* `parser` – parser/mod.rs:458-467; lexer/token_type.rs:481-483

### Model/HandPratt/Elixir.lean

* `tWhitespace` – lexer/token_type.rs:9
* `tNewline` – lexer/token_type.rs:10
* `tComment` – lexer/token_type.rs:11
* `tIdentifier` – lexer/token_type.rs:12
* `tAtom` – lexer/token_type.rs:13
* `tNumber` – lexer/token_type.rs:15
* `tFloat` – lexer/token_type.rs:16
* `tString` – lexer/token_type.rs:17
* `tCharacter` – lexer/token_type.rs:18
* `tDef` – lexer/token_type.rs:26
* `tDefp` – lexer/token_type.rs:27
* `tDefmodule` – lexer/token_type.rs:28
* `tDo` – lexer/token_type.rs:34
* `tEnd` – lexer/token_type.rs:37
* `tPlus` – lexer/token_type.rs:53
* `tMinus` – lexer/token_type.rs:54
* `tMul` – lexer/token_type.rs:55
* `tDiv` – lexer/token_type.rs:56
* `tDot` – lexer/token_type.rs:57
* `tComma` – lexer/token_type.rs:58
* `tSemicolon` – lexer/token_type.rs:59
* `tLeftParen` – lexer/token_type.rs:61
* `tRightParen` – lexer/token_type.rs:62
* `tLeftBrace` – lexer/token_type.rs:63
* `tRightBrace` – lexer/token_type.rs:64
* `tLeftBracket` – lexer/token_type.rs:65
* `tRightBracket` – lexer/token_type.rs:66
* `tEq` – lexer/token_type.rs:71
* `tEqEq` – lexer/token_type.rs:72
* `tNe` – lexer/token_type.rs:73
* `tLt` – lexer/token_type.rs:74
* `tLe` – lexer/token_type.rs:75
* `tGt` – lexer/token_type.rs:76
* `tGe` – lexer/token_type.rs:77
* `tAndAnd` – lexer/token_type.rs:78
* `tOrOr` – lexer/token_type.rs:79
* `tBang` – lexer/token_type.rs:80
* `tConcat` – lexer/token_type.rs:81
* `tPlusPlus` – lexer/token_type.rs:82
* `tMinusMinus` – lexer/token_type.rs:83
* `tPipeline` – lexer/token_type.rs:84
* `tAt` – lexer/token_type.rs:87
* `tPercent` – lexer/token_type.rs:88
* `eRoot` – parser/element_type.rs:10
* `eModuleDefinition` – parser/element_type.rs:71
* `eFunctionDefinition` – parser/element_type.rs:72
* `eCallExpression` – parser/element_type.rs:73
* `eBinaryExpression` – parser/element_type.rs:74
* `eUnaryExpression` – parser/element_type.rs:75
* `eLiteralExpression` – parser/element_type.rs:76
* `eIdentifierExpression` – parser/element_type.rs:77
* `eAccessExpression` – parser/element_type.rs:79
* `eListLiteral` – parser/element_type.rs:80
* `eTupleLiteral` – parser/element_type.rs:81
* `eMapLiteral` – parser/element_type.rs:82
* `eBlockExpression` – parser/element_type.rs:84
* `eMatchExpression` – parser/element_type.rs:85
* `eError` – parser/element_type.rs:89
* `pPrimary` – parser/mod.rs:35-109
* `pPrefix` – parser/mod.rs:111-121
* `pParseModule` – parser/parse_top_level.rs:32-52
* `pParseFunction` – parser/parse_top_level.rs:54-67
* `levels` – parser/mod.rs:123-172
* `pPratt` – parser/pratt.rs:237-243
* `primary` – parser/mod.rs:35-109
* `prefix_` – parser/mod.rs:111-121
* `parseModule` – parser/parse_top_level.rs:32-52
* `parseFunction` – parser/parse_top_level.rs:54-67
* `infix_` – parser/mod.rs:123-172
* `pratt` – parser/pratt.rs:237-243
* `main` – parser/parse_top_level.rs:9-30
* `parser` – parser/parse_top_level.rs:9-30; lexer/token_type.rs:137-139

### Model/HandPratt/Go.lean

* `tIntLiteral` – lexer/token_type.rs:59
* `tFloatLiteral` – lexer/token_type.rs:60
* `tStringLiteral` – lexer/token_type.rs:61
* `tRuneLiteral` – lexer/token_type.rs:62
* `tBoolLiteral` – lexer/token_type.rs:63
* `tIdentifier` – lexer/token_type.rs:66
* `tConst` – lexer/token_type.rs:72
* `tElse` – lexer/token_type.rs:76
* `tFor` – lexer/token_type.rs:78
* `tFunc` – lexer/token_type.rs:79
* `tIf` – lexer/token_type.rs:82
* `tImport` – lexer/token_type.rs:83
* `tPackage` – lexer/token_type.rs:86
* `tReturn` – lexer/token_type.rs:88
* `tSwitch` – lexer/token_type.rs:91
* `tType` – lexer/token_type.rs:92
* `tVar` – lexer/token_type.rs:93
* `tNilLiteral` – lexer/token_type.rs:118
* `tPlus` – lexer/token_type.rs:123
* `tMinus` – lexer/token_type.rs:124
* `tStar` – lexer/token_type.rs:125
* `tSlash` – lexer/token_type.rs:126
* `tPercent` – lexer/token_type.rs:127
* `tAmpersand` – lexer/token_type.rs:128
* `tPipe` – lexer/token_type.rs:129
* `tCaret` – lexer/token_type.rs:130
* `tLeftShift` – lexer/token_type.rs:131
* `tRightShift` – lexer/token_type.rs:132
* `tAmpersandCaret` – lexer/token_type.rs:133
* `tLogicalAnd` – lexer/token_type.rs:152
* `tLogicalOr` – lexer/token_type.rs:153
* `tArrow` – lexer/token_type.rs:156
* `tEqual` – lexer/token_type.rs:161
* `tLess` – lexer/token_type.rs:162
* `tGreater` – lexer/token_type.rs:163
* `tAssign` – lexer/token_type.rs:164
* `tLogicalNot` – lexer/token_type.rs:165
* `tNotEqual` – lexer/token_type.rs:168
* `tLessEqual` – lexer/token_type.rs:169
* `tGreaterEqual` – lexer/token_type.rs:170
* `tColonAssign` – lexer/token_type.rs:171
* `tLeftParen` – lexer/token_type.rs:176
* `tRightParen` – lexer/token_type.rs:177
* `tLeftBrace` – lexer/token_type.rs:180
* `tRightBrace` – lexer/token_type.rs:181
* `tComma` – lexer/token_type.rs:182
* `tDot` – lexer/token_type.rs:184
* `tSemicolon` – lexer/token_type.rs:185
* `tWhitespace` – lexer/token_type.rs:189
* `tComment` – lexer/token_type.rs:190
* `eSourceFile` – parser/element_type.rs:9
* `ePackageClause` – parser/element_type.rs:10
* `eImportDeclaration` – parser/element_type.rs:11
* `eFunctionDeclaration` – parser/element_type.rs:13
* `eBlock` – parser/element_type.rs:16
* `eVariableDeclaration` – parser/element_type.rs:17
* `eVariableSpec` – parser/element_type.rs:18
* `eConstDeclaration` – parser/element_type.rs:19
* `eTypeDeclaration` – parser/element_type.rs:21
* `eExpressionList` – parser/element_type.rs:29
* `eAssignmentStatement` – parser/element_type.rs:30
* `eShortVarDecl` – parser/element_type.rs:31
* `eReturnStatement` – parser/element_type.rs:32
* `eIfStatement` – parser/element_type.rs:33
* `eForStatement` – parser/element_type.rs:34
* `eSwitchStatement` – parser/element_type.rs:35
* `eCallExpression` – parser/element_type.rs:43
* `eBinaryExpression` – parser/element_type.rs:49
* `eIntLiteral` – parser/element_type.rs:55
* `eFloatLiteral` – parser/element_type.rs:56
* `eStringLiteral` – parser/element_type.rs:57
* `eRuneLiteral` – parser/element_type.rs:58
* `eBoolLiteral` – parser/element_type.rs:59
* `eIdentifier` – parser/element_type.rs:62
* `eNilLiteral` – parser/element_type.rs:114
* `eError` – parser/element_type.rs:190
* `pSkipTrivia` – parser/mod.rs:23-33
* `pParseStatement` – parser/mod.rs:35-78
* `pParsePackageClause` – parser/mod.rs:80-88
* `pParseImportDeclaration` – parser/mod.rs:90-105
* `pParseFunctionDeclaration` – parser/mod.rs:107-128
* `pParseVariableDeclaration` – parser/mod.rs:130-165
* `pParseConstDeclaration` – parser/mod.rs:167-180
* `pParseTypeDeclaration` – parser/mod.rs:182-195
* `pParseIfStatement` – parser/mod.rs:197-224
* `pParseForStatement` – parser/mod.rs:226-259
* `pParseSwitchStatement` – parser/mod.rs:261-271
* `pParseReturnStatement` – parser/mod.rs:273-283
* `pParseBlock` – parser/mod.rs:285-297
* `pPrimary` – parser/mod.rs:301-335
* `pPrefix` – parser/mod.rs:337-350
* `levels` – parser/mod.rs:352-401
* `pPratt` – parser/pratt.rs:237-243
* `skipTrivia` – parser/mod.rs:23-33
* `parseStatement` – parser/mod.rs:35-78
* `parsePackageClause` – parser/mod.rs:80-88
* `parseImportDeclaration` – parser/mod.rs:90-105
* `parseFunctionDeclaration` – parser/mod.rs:107-128
* `parseVariableDeclaration` – parser/mod.rs:130-165
* `parseConstDeclaration` – parser/mod.rs:167-180
* `parseTypeDeclaration` – parser/mod.rs:182-195
* `parseIfStatement` – parser/mod.rs:197-224
* `parseForStatement` – parser/mod.rs:226-259
* `parseSwitchStatement` – parser/mod.rs:261-271
* `parseReturnStatement` – parser/mod.rs:273-283
* `parseBlock` – parser/mod.rs:285-297
* `primary` – parser/mod.rs:301-335
* `prefix_` – parser/mod.rs:337-350
* `infix_` – parser/mod.rs:352-401
* `pratt` – parser/pratt.rs:237-243
* `main` – parser/mod.rs:405-414
* `parser` – parser/mod.rs:405-414; lexer/token_type.rs:198-200

### Model/HandPratt/Javascript.lean

* `tConst` – lexer/token_type.rs:33
* `tElse` – lexer/token_type.rs:45
* `tFalse` – lexer/token_type.rs:53
* `tFor` – lexer/token_type.rs:57
* `tFunction` – lexer/token_type.rs:59
* `tIf` – lexer/token_type.rs:61
* `tLet` – lexer/token_type.rs:73
* `tNull` – lexer/token_type.rs:77
* `tReturn` – lexer/token_type.rs:87
* `tTrue` – lexer/token_type.rs:99
* `tVar` – lexer/token_type.rs:107
* `tWhile` – lexer/token_type.rs:111
* `tPlus` – lexer/token_type.rs:119
* `tMinus` – lexer/token_type.rs:121
* `tStar` – lexer/token_type.rs:123
* `tSlash` – lexer/token_type.rs:125
* `tPercent` – lexer/token_type.rs:127
* `tEqualEqual` – lexer/token_type.rs:149
* `tNotEqual` – lexer/token_type.rs:151
* `tEqualEqualEqual` – lexer/token_type.rs:153
* `tNotEqualEqual` – lexer/token_type.rs:155
* `tAmpersandAmpersand` – lexer/token_type.rs:167
* `tPipePipe` – lexer/token_type.rs:169
* `tEqual` – lexer/token_type.rs:179
* `tPlusEqual` – lexer/token_type.rs:181
* `tMinusEqual` – lexer/token_type.rs:183
* `tStarEqual` – lexer/token_type.rs:185
* `tSlashEqual` – lexer/token_type.rs:187
* `tPercentEqual` – lexer/token_type.rs:189
* `tStarStarEqual` – lexer/token_type.rs:191
* `tLeftShiftEqual` – lexer/token_type.rs:193
* `tRightShiftEqual` – lexer/token_type.rs:195
* `tUnsignedRightShiftEqual` – lexer/token_type.rs:197
* `tAmpersandEqual` – lexer/token_type.rs:199
* `tPipeEqual` – lexer/token_type.rs:201
* `tCaretEqual` – lexer/token_type.rs:203
* `tAmpersandAmpersandEqual` – lexer/token_type.rs:205
* `tPipePipeEqual` – lexer/token_type.rs:207
* `tQuestionQuestionEqual` – lexer/token_type.rs:209
* `tLeftParen` – lexer/token_type.rs:213
* `tRightParen` – lexer/token_type.rs:215
* `tLeftBrace` – lexer/token_type.rs:217
* `tRightBrace` – lexer/token_type.rs:219
* `tSemicolon` – lexer/token_type.rs:225
* `tDot` – lexer/token_type.rs:229
* `tStringLiteral` – lexer/token_type.rs:239
* `tNumericLiteral` – lexer/token_type.rs:241
* `tIdentifierName` – lexer/token_type.rs:257
* `eRoot` – parser/element_type.rs:13
* `eExpression` – parser/element_type.rs:17
* `eError` – parser/element_type.rs:21
* `eFunctionDeclaration` – parser/element_type.rs:24
* `eVariableDeclaration` – parser/element_type.rs:26
* `eIfStatement` – parser/element_type.rs:28
* `eWhileStatement` – parser/element_type.rs:30
* `eForStatement` – parser/element_type.rs:32
* `eReturnStatement` – parser/element_type.rs:34
* `eBlockStatement` – parser/element_type.rs:36
* `eIdentifier` – parser/element_type.rs:39
* `eLiteral` – parser/element_type.rs:41
* `eCallExpression` – parser/element_type.rs:44
* `eMemberExpression` – parser/element_type.rs:46
* `eAssignmentExpression` – parser/element_type.rs:48
* `eLogicalExpression` – parser/element_type.rs:50
* `eBinaryExpression` – parser/element_type.rs:52
* `pParseStatement` – parser/mod.rs:26-42
* `pParseFunctionDeclaration` – parser/mod.rs:44-57
* `pParseVariableDeclaration` – parser/mod.rs:59-70
* `pParseIfStatement` – parser/mod.rs:72-85
* `pParseWhileStatement` – parser/mod.rs:87-97
* `pParseForStatement` – parser/mod.rs:99-112
* `pParseReturnStatement` – parser/mod.rs:114-124
* `pParseBlockStatement` – parser/mod.rs:126-136
* `pPrimary` – parser/mod.rs:140-163
* `levels` – parser/mod.rs:165-241
* `pPratt` – parser/pratt.rs:237-243
* `parseStatement` – parser/mod.rs:26-42
* `parseFunctionDeclaration` – parser/mod.rs:44-57
* `parseVariableDeclaration` – parser/mod.rs:59-70
* `parseIfStatement` – parser/mod.rs:72-85
* `parseWhileStatement` – parser/mod.rs:87-97
* `parseForStatement` – parser/mod.rs:99-112
* `parseReturnStatement` – parser/mod.rs:114-124
* `parseBlockStatement` – parser/mod.rs:126-136
* `primary` – parser/mod.rs:140-163
* `infix_` – parser/mod.rs:165-241
* `pratt` – parser/pratt.rs:237-243
* `main` – parser/mod.rs:245-251
* `parser` – parser/mod.rs:245-251; lexer/token_type.rs:403-405

### Model/HandPratt/Kotlin.lean

* `tClass` – lexer/token_type.rs:49
* `tFun` – lexer/token_type.rs:50
* `tVal` – lexer/token_type.rs:51
* `tVar` – lexer/token_type.rs:52
* `tIf` – lexer/token_type.rs:53
* `tElse` – lexer/token_type.rs:54
* `tWhile` – lexer/token_type.rs:57
* `tReturn` – lexer/token_type.rs:58
* `tIs` – lexer/token_type.rs:94
* `tAs` – lexer/token_type.rs:95
* `tNull` – lexer/token_type.rs:98
* `tTrue` – lexer/token_type.rs:99
* `tFalse` – lexer/token_type.rs:100
* `tIdentifier` – lexer/token_type.rs:103
* `tStringLiteral` – lexer/token_type.rs:105
* `tCharLiteral` – lexer/token_type.rs:106
* `tNumberLiteral` – lexer/token_type.rs:107
* `tIntLiteral` – lexer/token_type.rs:108
* `tFloatLiteral` – lexer/token_type.rs:109
* `tBooleanLiteral` – lexer/token_type.rs:110
* `tPlus` – lexer/token_type.rs:113
* `tMinus` – lexer/token_type.rs:114
* `tStar` – lexer/token_type.rs:115
* `tSlash` – lexer/token_type.rs:116
* `tPercent` – lexer/token_type.rs:117
* `tAmpersand` – lexer/token_type.rs:121
* `tPipe` – lexer/token_type.rs:122
* `tCaret` – lexer/token_type.rs:123
* `tTilde` – lexer/token_type.rs:124
* `tExclamation` – lexer/token_type.rs:125
* `tAssign` – lexer/token_type.rs:126
* `tPlusAssign` – lexer/token_type.rs:127
* `tMinusAssign` – lexer/token_type.rs:128
* `tStarAssign` – lexer/token_type.rs:129
* `tSlashAssign` – lexer/token_type.rs:130
* `tPercentAssign` – lexer/token_type.rs:131
* `tEqEq` – lexer/token_type.rs:132
* `tNotEq` – lexer/token_type.rs:133
* `tLt` – lexer/token_type.rs:134
* `tGt` – lexer/token_type.rs:135
* `tLtEq` – lexer/token_type.rs:136
* `tGtEq` – lexer/token_type.rs:137
* `tAndAnd` – lexer/token_type.rs:138
* `tOrOr` – lexer/token_type.rs:139
* `tDot` – lexer/token_type.rs:140
* `tComma` – lexer/token_type.rs:141
* `tColon` – lexer/token_type.rs:142
* `tSemi` – lexer/token_type.rs:143
* `tDoubleColon` – lexer/token_type.rs:145
* `tRange` – lexer/token_type.rs:146
* `tLParen` – lexer/token_type.rs:152
* `tRParen` – lexer/token_type.rs:153
* `tLBracket` – lexer/token_type.rs:154
* `tRBracket` – lexer/token_type.rs:155
* `tLBrace` – lexer/token_type.rs:156
* `tRBrace` – lexer/token_type.rs:157
* `tComment` – lexer/token_type.rs:160
* `tWhitespace` – lexer/token_type.rs:161
* `tNewline` – lexer/token_type.rs:162
* `eSourceFile` – parser/element_type.rs:9
* `eClassDeclaration` – parser/element_type.rs:10
* `eFunctionDeclaration` – parser/element_type.rs:11
* `eVariableDeclaration` – parser/element_type.rs:12
* `eIfStatement` – parser/element_type.rs:13
* `eWhileStatement` – parser/element_type.rs:14
* `eReturnStatement` – parser/element_type.rs:15
* `eBlock` – parser/element_type.rs:16
* `eParameter` – parser/element_type.rs:17
* `eIdentifier` – parser/element_type.rs:18
* `eIntLiteral` – parser/element_type.rs:19
* `ePrefixExpression` – parser/element_type.rs:20
* `eMemberAccessExpression` – parser/element_type.rs:21
* `eCallExpression` – parser/element_type.rs:22
* `eAssignmentExpression` – parser/element_type.rs:23
* `eBinaryExpression` – parser/element_type.rs:24
* `eError` – parser/element_type.rs:25
* `pSkipTrivia` – parser/mod.rs:41-51
* `pParseStatement` – parser/mod.rs:53-71
* `pParseClassDeclaration` – parser/mod.rs:73-106
* `pParseFunctionDeclaration` – parser/mod.rs:108-141
* `pParseVariableDeclaration` – parser/mod.rs:143-163
* `pParseIfStatement` – parser/mod.rs:165-184
* `pParseWhileStatement` – parser/mod.rs:186-200
* `pParseReturnStatement` – parser/mod.rs:202-214
* `pParseBlock` – parser/mod.rs:216-231
* `pPrimary` – parser/mod.rs:235-261
* `pPrefix` – parser/mod.rs:263-278
* `levels` – parser/mod.rs:280-345
* `pPratt` – parser/pratt.rs:237-243
* `skipTrivia` – parser/mod.rs:41-51
* `parseStatement` – parser/mod.rs:53-71
* `parseClassDeclaration` – parser/mod.rs:73-106
* `parseFunctionDeclaration` – parser/mod.rs:108-141
* `parseVariableDeclaration` – parser/mod.rs:143-163
* `parseIfStatement` – parser/mod.rs:165-184
* `parseWhileStatement` – parser/mod.rs:186-200
* `parseReturnStatement` – parser/mod.rs:202-214
* `parseBlock` – parser/mod.rs:216-231
* `primary` – parser/mod.rs:235-261
* `prefix_` – parser/mod.rs:263-278
* `infix_` – parser/mod.rs:280-345
* `pratt` – parser/pratt.rs:237-243
* `main` – parser/mod.rs:28-39
* `parser` – parser/mod.rs:28-39; lexer/token_type.rs:11-13

### Model/HandPratt/Lua.lean

* `tAnd` – lexer/token_type.rs:81
* `tBreak` – lexer/token_type.rs:82
* `tDo` – lexer/token_type.rs:83
* `tElse` – lexer/token_type.rs:84
* `tElseif` – lexer/token_type.rs:85
* `tEnd` – lexer/token_type.rs:86
* `tFalse` – lexer/token_type.rs:87
* `tFor` – lexer/token_type.rs:88
* `tFunction` – lexer/token_type.rs:89
* `tGoto` – lexer/token_type.rs:90
* `tIf` – lexer/token_type.rs:91
* `tIn` – lexer/token_type.rs:92
* `tLocal` – lexer/token_type.rs:93
* `tNil` – lexer/token_type.rs:94
* `tNot` – lexer/token_type.rs:95
* `tOr` – lexer/token_type.rs:96
* `tRepeat` – lexer/token_type.rs:97
* `tReturn` – lexer/token_type.rs:98
* `tThen` – lexer/token_type.rs:99
* `tTrue` – lexer/token_type.rs:100
* `tUntil` – lexer/token_type.rs:101
* `tWhile` – lexer/token_type.rs:102
* `tIdentifier` – lexer/token_type.rs:105
* `tNumber` – lexer/token_type.rs:106
* `tString` – lexer/token_type.rs:107
* `tPlus` – lexer/token_type.rs:110
* `tMinus` – lexer/token_type.rs:111
* `tStar` – lexer/token_type.rs:112
* `tSlash` – lexer/token_type.rs:113
* `tPercent` – lexer/token_type.rs:114
* `tCaret` – lexer/token_type.rs:115
* `tHash` – lexer/token_type.rs:116
* `tAmpersand` – lexer/token_type.rs:117
* `tTilde` – lexer/token_type.rs:118
* `tPipe` – lexer/token_type.rs:119
* `tLtLt` – lexer/token_type.rs:120
* `tGtGt` – lexer/token_type.rs:121
* `tSlashSlash` – lexer/token_type.rs:122
* `tEqEq` – lexer/token_type.rs:123
* `tTildeEq` – lexer/token_type.rs:124
* `tLtEq` – lexer/token_type.rs:125
* `tGtEq` – lexer/token_type.rs:126
* `tLt` – lexer/token_type.rs:127
* `tGt` – lexer/token_type.rs:128
* `tEq` – lexer/token_type.rs:129
* `tLeftParen` – lexer/token_type.rs:132
* `tRightParen` – lexer/token_type.rs:133
* `tLeftBrace` – lexer/token_type.rs:134
* `tRightBrace` – lexer/token_type.rs:135
* `tLeftBracket` – lexer/token_type.rs:136
* `tRightBracket` – lexer/token_type.rs:137
* `tColonColon` – lexer/token_type.rs:138
* `tSemicolon` – lexer/token_type.rs:139
* `tColon` – lexer/token_type.rs:140
* `tComma` – lexer/token_type.rs:141
* `tDot` – lexer/token_type.rs:142
* `tDotDot` – lexer/token_type.rs:143
* `tDotDotDot` – lexer/token_type.rs:144
* `tWhitespace` – lexer/token_type.rs:147
* `tNewline` – lexer/token_type.rs:148
* `tComment` – lexer/token_type.rs:149
* `eError` – parser/element_type.rs:83
* `eSourceFile` – parser/element_type.rs:86
* `eFunctionDeclaration` – parser/element_type.rs:87
* `eLocalStatement` – parser/element_type.rs:91
* `eAssignmentStatement` – parser/element_type.rs:92
* `eExpressionStatement` – parser/element_type.rs:93
* `eIfStatement` – parser/element_type.rs:94
* `eWhileStatement` – parser/element_type.rs:95
* `eForStatement` – parser/element_type.rs:96
* `eRepeatStatement` – parser/element_type.rs:97
* `eDoStatement` – parser/element_type.rs:98
* `eBreakStatement` – parser/element_type.rs:99
* `eReturnStatement` – parser/element_type.rs:100
* `eGotoStatement` – parser/element_type.rs:101
* `eLabelStatement` – parser/element_type.rs:102
* `eIdentifierExpression` – parser/element_type.rs:103
* `eLiteralExpression` – parser/element_type.rs:104
* `eParenthesizedExpression` – parser/element_type.rs:107
* `eBinaryExpression` – parser/element_type.rs:108
* `eUnaryExpression` – parser/element_type.rs:109
* `eCallExpression` – parser/element_type.rs:110
* `eMemberExpression` – parser/element_type.rs:111
* `eIndexExpression` – parser/element_type.rs:112
* `eTableConstructorExpression` – parser/element_type.rs:113
* `eFunctionExpression` – parser/element_type.rs:114
* `eTableField` – parser/element_type.rs:116
* `pParseStatement` – parser/mod.rs:36-71
* `pParseLocalStatement` – parser/mod.rs:73-96
* `pParseIfStatement` – parser/mod.rs:98-116
* `pParseWhileStatement` – parser/mod.rs:118-128
* `pParseForStatement` – parser/mod.rs:130-158
* `pParseRepeatStatement` – parser/mod.rs:160-169
* `pParseFunctionDeclaration` – parser/mod.rs:171-185
* `pParseFunctionBody` – parser/mod.rs:187-208
* `pParseReturnStatement` – parser/mod.rs:210-223
* `pParseBreakStatement` – parser/mod.rs:225-231
* `pParseDoStatement` – parser/mod.rs:233-241
* `pParseGotoStatement` – parser/mod.rs:243-250
* `pParseLabelStatement` – parser/mod.rs:252-260
* `pParseBlock` – parser/mod.rs:262-268
* `pParseTableConstructor` – parser/mod.rs:270-297
* `pPrimary` – parser/mod.rs:301-351
* `pPrefix` – parser/mod.rs:353-363
* `levels` – parser/mod.rs:365-433
* `pPratt` – parser/pratt.rs:237-243
* `parseStatement` – parser/mod.rs:36-71
* `parseLocalStatement` – parser/mod.rs:73-96
* `parseIfStatement` – parser/mod.rs:98-116
* `parseWhileStatement` – parser/mod.rs:118-128
* `parseForStatement` – parser/mod.rs:130-158
* `parseRepeatStatement` – parser/mod.rs:160-169
* `parseFunctionDeclaration` – parser/mod.rs:171-185
* `parseFunctionBody` – parser/mod.rs:187-208
* `parseReturnStatement` – parser/mod.rs:210-223
* `parseBreakStatement` – parser/mod.rs:225-231
* `parseDoStatement` – parser/mod.rs:233-241
* `parseGotoStatement` – parser/mod.rs:243-250
* `parseLabelStatement` – parser/mod.rs:252-260
* `parseBlock` – parser/mod.rs:262-268
* `parseTableConstructor` – parser/mod.rs:270-297
* `primary` – parser/mod.rs:301-351
* `prefix_` – parser/mod.rs:353-363
* `infix_` – parser/mod.rs:365-433
* `pratt` – parser/pratt.rs:237-243
* `main` – parser/mod.rs:25-34
* `parser` – parser/mod.rs:25-34; lexer/token_type.rs:11-13

### Model/HandPratt/Mojo.lean

* `tFn` – lexer/token_type.rs:9
* `tVar` – lexer/token_type.rs:11
* `tLet` – lexer/token_type.rs:12
* `tIf` – lexer/token_type.rs:13
* `tElse` – lexer/token_type.rs:14
* `tWhile` – lexer/token_type.rs:15
* `tReturn` – lexer/token_type.rs:18
* `tIdentifier` – lexer/token_type.rs:28
* `tInteger` – lexer/token_type.rs:29
* `tFloat` – lexer/token_type.rs:30
* `tString` – lexer/token_type.rs:31
* `tPlus` – lexer/token_type.rs:34
* `tMinus` – lexer/token_type.rs:35
* `tStar` – lexer/token_type.rs:36
* `tSlash` – lexer/token_type.rs:37
* `tPercent` – lexer/token_type.rs:38
* `tEqual` – lexer/token_type.rs:39
* `tEqualEqual` – lexer/token_type.rs:40
* `tNotEqual` – lexer/token_type.rs:41
* `tLess` – lexer/token_type.rs:42
* `tLessEqual` – lexer/token_type.rs:43
* `tGreater` – lexer/token_type.rs:44
* `tGreaterEqual` – lexer/token_type.rs:45
* `tLeftParen` – lexer/token_type.rs:49
* `tRightParen` – lexer/token_type.rs:50
* `tColon` – lexer/token_type.rs:57
* `tArrow` – lexer/token_type.rs:59
* `tWhitespace` – lexer/token_type.rs:62
* `tNewline` – lexer/token_type.rs:63
* `tComment` – lexer/token_type.rs:64
* `tIndent` – lexer/token_type.rs:65
* `tDedent` – lexer/token_type.rs:66
* `tEndOfStream` – lexer/token_type.rs:69
* `eFunctionDef` – parser/element_type.rs:65
* `eVariableDecl` – parser/element_type.rs:67
* `eIfStatement` – parser/element_type.rs:69
* `eWhileStatement` – parser/element_type.rs:70
* `eReturnStatement` – parser/element_type.rs:72
* `eExpressionStatement` – parser/element_type.rs:73
* `eBinaryExpr` – parser/element_type.rs:76
* `eLiteralExpr` – parser/element_type.rs:79
* `eIdentifierExpr` – parser/element_type.rs:80
* `eBlock` – parser/element_type.rs:87
* `eRoot` – parser/element_type.rs:90
* `eGrouping` – parser/element_type.rs:91
* `eError` – parser/element_type.rs:92
* `pSkipTrivia` – parser/mod.rs:53-63
* `pParseStatement` – parser/mod.rs:65-85
* `pParseFunctionDef` – parser/mod.rs:87-105
* `pParseVariableDecl` – parser/mod.rs:107-130
* `pParseIfStmt` – parser/mod.rs:132-153
* `pParseWhileStmt` – parser/mod.rs:155-164
* `pParseReturnStmt` – parser/mod.rs:166-176
* `pParseExpressionStmt` – parser/mod.rs:178-184
* `pParseBlock` – parser/mod.rs:186-207
* `pParseExpression0` – parser/mod.rs:209-211
* `pParseExpression11` – parser/mod.rs:209-211
* `pParseExpression21` – parser/mod.rs:209-211
* `pParseExpression6` – parser/mod.rs:209-211
* `pPrimary` – parser/mod.rs:215-236
* `pPrefix` – parser/mod.rs:238-240
* `levels` – parser/mod.rs:242-261
* `pPratt` – parser/pratt.rs:237-243
* `skipTrivia` – parser/mod.rs:53-63
* `parseStatement` – parser/mod.rs:65-85
* `parseFunctionDef` – parser/mod.rs:87-105
* `parseVariableDecl` – parser/mod.rs:107-130
* `parseIfStmt` – parser/mod.rs:132-153
* `parseWhileStmt` – parser/mod.rs:155-164
* `parseReturnStmt` – parser/mod.rs:166-176
* `parseExpressionStmt` – parser/mod.rs:178-184
* `parseBlock` – parser/mod.rs:186-207
* `parseExpression0` – parser/mod.rs:209-211
* `parseExpression11` – parser/mod.rs:209-211
* `parseExpression21` – parser/mod.rs:209-211
* `parseExpression6` – parser/mod.rs:209-211
* `primary` – parser/mod.rs:215-236
* `prefix_` – parser/mod.rs:238-240
* `infix_` – parser/mod.rs:242-261
* `pratt` – parser/pratt.rs:237-243
* `main` – parser/mod.rs:37-51
* `parser` – parser/mod.rs:37-51; lexer/token_type.rs:129-129; language/mod.rs:298-300

### Model/HandPratt/Php.lean

* `tStringLiteral` – lexer/token_type.rs:84
* `tNumberLiteral` – lexer/token_type.rs:85
* `tBooleanLiteral` – lexer/token_type.rs:86
* `tNullLiteral` – lexer/token_type.rs:87
* `tIdentifier` – lexer/token_type.rs:90
* `tVariable` – lexer/token_type.rs:91
* `tAbstract` – lexer/token_type.rs:92
* `tClass` – lexer/token_type.rs:100
* `tEcho` – lexer/token_type.rs:107
* `tFinal` – lexer/token_type.rs:120
* `tFor` – lexer/token_type.rs:122
* `tForeach` – lexer/token_type.rs:123
* `tFunction` – lexer/token_type.rs:124
* `tIf` – lexer/token_type.rs:127
* `tInterface` – lexer/token_type.rs:133
* `tNamespace` – lexer/token_type.rs:136
* `tPrivate` – lexer/token_type.rs:140
* `tProtected` – lexer/token_type.rs:141
* `tPublic` – lexer/token_type.rs:142
* `tReturn` – lexer/token_type.rs:145
* `tStatic` – lexer/token_type.rs:146
* `tTrait` – lexer/token_type.rs:149
* `tUse` – lexer/token_type.rs:152
* `tWhile` – lexer/token_type.rs:154
* `tPlus` – lexer/token_type.rs:160
* `tMinus` – lexer/token_type.rs:161
* `tMultiply` – lexer/token_type.rs:162
* `tDivide` – lexer/token_type.rs:163
* `tModulo` – lexer/token_type.rs:164
* `tConcat` – lexer/token_type.rs:166
* `tEqual` – lexer/token_type.rs:167
* `tIdentical` – lexer/token_type.rs:168
* `tNotEqual` – lexer/token_type.rs:169
* `tNotIdentical` – lexer/token_type.rs:170
* `tLess` – lexer/token_type.rs:171
* `tGreater` – lexer/token_type.rs:172
* `tLessEqual` – lexer/token_type.rs:173
* `tGreaterEqual` – lexer/token_type.rs:174
* `tSpaceship` – lexer/token_type.rs:175
* `tLogicalAnd` – lexer/token_type.rs:176
* `tLogicalOr` – lexer/token_type.rs:177
* `tAssign` – lexer/token_type.rs:186
* `tPlusAssign` – lexer/token_type.rs:187
* `tMinusAssign` – lexer/token_type.rs:188
* `tMultiplyAssign` – lexer/token_type.rs:189
* `tDivideAssign` – lexer/token_type.rs:190
* `tModuloAssign` – lexer/token_type.rs:191
* `tPowerAssign` – lexer/token_type.rs:192
* `tConcatAssign` – lexer/token_type.rs:193
* `tBitwiseAndAssign` – lexer/token_type.rs:194
* `tBitwiseOrAssign` – lexer/token_type.rs:195
* `tBitwiseXorAssign` – lexer/token_type.rs:196
* `tLeftShiftAssign` – lexer/token_type.rs:197
* `tRightShiftAssign` – lexer/token_type.rs:198
* `tArrow` – lexer/token_type.rs:201
* `tNullCoalesceAssign` – lexer/token_type.rs:204
* `tLeftParen` – lexer/token_type.rs:208
* `tRightParen` – lexer/token_type.rs:209
* `tLeftBracket` – lexer/token_type.rs:210
* `tRightBracket` – lexer/token_type.rs:211
* `tLeftBrace` – lexer/token_type.rs:212
* `tRightBrace` – lexer/token_type.rs:213
* `tSemicolon` – lexer/token_type.rs:214
* `eIdentifier` – parser/element_type.rs:22
* `eError` – parser/element_type.rs:163
* `eRoot` – parser/element_type.rs:166
* `eClassDef` – parser/element_type.rs:167
* `eFunctionDef` – parser/element_type.rs:168
* `eInterfaceDef` – parser/element_type.rs:173
* `eNamespaceDef` – parser/element_type.rs:174
* `eUseStatement` – parser/element_type.rs:175
* `eIfStatement` – parser/element_type.rs:176
* `eWhileStatement` – parser/element_type.rs:177
* `eForStatement` – parser/element_type.rs:179
* `eForeachStatement` – parser/element_type.rs:180
* `eReturnStatement` – parser/element_type.rs:186
* `eEchoStatement` – parser/element_type.rs:190
* `eCompoundStatement` – parser/element_type.rs:194
* `eLiteral` – parser/element_type.rs:197
* `eParenthesizedExpression` – parser/element_type.rs:198
* `eCallExpression` – parser/element_type.rs:199
* `eArrayAccessExpression` – parser/element_type.rs:200
* `eMemberAccessExpression` – parser/element_type.rs:201
* `eBinaryExpression` – parser/element_type.rs:202
* `pPrimary` – parser/mod.rs:34-57
* `pPrefix` – parser/mod.rs:59-61
* `pParseStatement` – parser/mod.rs:118-134
* `pParseNamespaceDef` – parser/mod.rs:136-151
* `pParseUseStatement` – parser/mod.rs:153-160
* `pParseFunctionDef` – parser/mod.rs:162-174
* `pParseDeclaration` – parser/mod.rs:176-212
* `pParseIfStatement` – parser/mod.rs:214-223
* `pParseWhileStatement` – parser/mod.rs:225-234
* `pParseForStatement` – parser/mod.rs:236-244
* `pParseForeachStatement` – parser/mod.rs:246-254
* `pParseCompoundStatement` – parser/mod.rs:256-265
* `pParseReturnStatement` – parser/mod.rs:267-274
* `pParseEchoStatement` – parser/mod.rs:276-283
* `pParseExpressionStatement` – parser/mod.rs:285-289
* `levels` – parser/mod.rs:63-114
* `pPratt` – parser/pratt.rs:237-243
* `primary` – parser/mod.rs:34-57
* `prefix_` – parser/mod.rs:59-61
* `parseStatement` – parser/mod.rs:118-134
* `parseNamespaceDef` – parser/mod.rs:136-151
* `parseUseStatement` – parser/mod.rs:153-160
* `parseFunctionDef` – parser/mod.rs:162-174
* `parseDeclaration` – parser/mod.rs:176-212
* `parseIfStatement` – parser/mod.rs:214-223
* `parseWhileStatement` – parser/mod.rs:225-234
* `parseForStatement` – parser/mod.rs:236-244
* `parseForeachStatement` – parser/mod.rs:246-254
* `parseCompoundStatement` – parser/mod.rs:256-265
* `parseReturnStatement` – parser/mod.rs:267-274
* `parseEchoStatement` – parser/mod.rs:276-283
* `parseExpressionStatement` – parser/mod.rs:285-289
* `infix_` – parser/mod.rs:63-114
* `pratt` – parser/pratt.rs:237-243
* `main` – parser/mod.rs:293-304
* `parser` – parser/mod.rs:293-304; lexer/token_type.rs:62-64

### Model/HandPratt/Ruby.lean

* `tIdentifier` – lexer/token_type.rs:12
* `tGlobalVariable` – lexer/token_type.rs:13
* `tInstanceVariable` – lexer/token_type.rs:14
* `tClassVariable` – lexer/token_type.rs:15
* `tConstant` – lexer/token_type.rs:16
* `tIntegerLiteral` – lexer/token_type.rs:17
* `tFloatLiteral` – lexer/token_type.rs:18
* `tStringLiteral` – lexer/token_type.rs:19
* `tIf` – lexer/token_type.rs:24
* `tElsif` – lexer/token_type.rs:26
* `tElse` – lexer/token_type.rs:27
* `tWhile` – lexer/token_type.rs:32
* `tReturn` – lexer/token_type.rs:38
* `tDef` – lexer/token_type.rs:40
* `tClass` – lexer/token_type.rs:41
* `tModule` – lexer/token_type.rs:42
* `tEnd` – lexer/token_type.rs:43
* `tRescue` – lexer/token_type.rs:47
* `tEnsure` – lexer/token_type.rs:48
* `tNot` – lexer/token_type.rs:57
* `tTrue` – lexer/token_type.rs:59
* `tFalse` – lexer/token_type.rs:60
* `tNil` – lexer/token_type.rs:61
* `tSelf_` – lexer/token_type.rs:63
* `tPlus` – lexer/token_type.rs:69
* `tMinus` – lexer/token_type.rs:70
* `tMultiply` – lexer/token_type.rs:71
* `tDivide` – lexer/token_type.rs:72
* `tModulo` – lexer/token_type.rs:73
* `tPower` – lexer/token_type.rs:74
* `tEqualEqual` – lexer/token_type.rs:75
* `tNotEqual` – lexer/token_type.rs:76
* `tLess` – lexer/token_type.rs:77
* `tGreater` – lexer/token_type.rs:78
* `tLessEqual` – lexer/token_type.rs:79
* `tGreaterEqual` – lexer/token_type.rs:80
* `tTilde` – lexer/token_type.rs:94
* `tAndAnd` – lexer/token_type.rs:102
* `tOrOr` – lexer/token_type.rs:103
* `tLeftParen` – lexer/token_type.rs:112
* `tRightParen` – lexer/token_type.rs:113
* `tSemicolon` – lexer/token_type.rs:120
* `tWhitespace` – lexer/token_type.rs:126
* `tNewline` – lexer/token_type.rs:127
* `tComment` – lexer/token_type.rs:128
* `eIdentifier` – parser/element_type.rs:10
* `eRoot` – parser/element_type.rs:129
* `eBinaryExpression` – parser/element_type.rs:130
* `eUnaryExpression` – parser/element_type.rs:131
* `eLiteralExpression` – parser/element_type.rs:132
* `eParenExpression` – parser/element_type.rs:133
* `eMethodDefinition` – parser/element_type.rs:135
* `eClassDefinition` – parser/element_type.rs:136
* `eModuleDefinition` – parser/element_type.rs:137
* `eIfStatement` – parser/element_type.rs:138
* `eWhileStatement` – parser/element_type.rs:139
* `eReturnStatement` – parser/element_type.rs:140
* `eError` – parser/element_type.rs:146
* `pParseStatement` – parser/mod.rs:40-56
* `pParseMethodDef` – parser/mod.rs:58-72
* `pParseBody` – parser/mod.rs:74-81
* `pParseClassDef` – parser/mod.rs:83-91
* `pParseModuleDef` – parser/mod.rs:93-101
* `pParseIfStmt` – parser/mod.rs:103-111
* `pParseWhileStmt` – parser/mod.rs:113-121
* `pParseReturnStmt` – parser/mod.rs:123-130
* `pPrimary` – parser/mod.rs:134-157
* `pPrefix` – parser/mod.rs:159-168
* `levels` – parser/mod.rs:170-189
* `pPratt` – parser/pratt.rs:237-243
* `parseStatement` – parser/mod.rs:40-56
* `parseMethodDef` – parser/mod.rs:58-72
* `parseBody` – parser/mod.rs:74-81
* `parseClassDef` – parser/mod.rs:83-91
* `parseModuleDef` – parser/mod.rs:93-101
* `parseIfStmt` – parser/mod.rs:103-111
* `parseWhileStmt` – parser/mod.rs:113-121
* `parseReturnStmt` – parser/mod.rs:123-130
* `primary` – parser/mod.rs:134-157
* `prefix_` – parser/mod.rs:159-168
* `infix_` – parser/mod.rs:170-189
* `pratt` – parser/pratt.rs:237-243
* `main` – parser/mod.rs:28-38
* `parser` – parser/mod.rs:28-38; lexer/token_type.rs:153-155

### Model/HandPratt/Rust.lean

* `tElse` – lexer/token_type.rs:23
* `tEnum` – lexer/token_type.rs:25
* `tFalse` – lexer/token_type.rs:29
* `tFn` – lexer/token_type.rs:31
* `tFor` – lexer/token_type.rs:33
* `tIf` – lexer/token_type.rs:35
* `tIn` – lexer/token_type.rs:39
* `tLet` – lexer/token_type.rs:41
* `tLoop` – lexer/token_type.rs:43
* `tMod` – lexer/token_type.rs:47
* `tReturn` – lexer/token_type.rs:57
* `tStruct` – lexer/token_type.rs:65
* `tTrue` – lexer/token_type.rs:71
* `tUse` – lexer/token_type.rs:77
* `tWhile` – lexer/token_type.rs:81
* `tIntegerLiteral` – lexer/token_type.rs:119
* `tFloatLiteral` – lexer/token_type.rs:121
* `tStringLiteral` – lexer/token_type.rs:123
* `tCharLiteral` – lexer/token_type.rs:125
* `tByteLiteral` – lexer/token_type.rs:127
* `tByteStringLiteral` – lexer/token_type.rs:129
* `tRawStringLiteral` – lexer/token_type.rs:131
* `tBoolLiteral` – lexer/token_type.rs:133
* `tIdentifier` – lexer/token_type.rs:135
* `tLeftParen` – lexer/token_type.rs:139
* `tRightParen` – lexer/token_type.rs:141
* `tLeftBrace` – lexer/token_type.rs:143
* `tRightBrace` – lexer/token_type.rs:145
* `tLeftBracket` – lexer/token_type.rs:147
* `tRightBracket` – lexer/token_type.rs:149
* `tSemicolon` – lexer/token_type.rs:151
* `tComma` – lexer/token_type.rs:153
* `tDot` – lexer/token_type.rs:155
* `tDotDot` – lexer/token_type.rs:157
* `tDotDotEq` – lexer/token_type.rs:161
* `tPlus` – lexer/token_type.rs:177
* `tMinus` – lexer/token_type.rs:179
* `tStar` – lexer/token_type.rs:181
* `tSlash` – lexer/token_type.rs:183
* `tPercent` – lexer/token_type.rs:185
* `tCaret` – lexer/token_type.rs:187
* `tAmpersand` – lexer/token_type.rs:189
* `tPipe` – lexer/token_type.rs:191
* `tBang` – lexer/token_type.rs:195
* `tEq` – lexer/token_type.rs:197
* `tLt` – lexer/token_type.rs:199
* `tGt` – lexer/token_type.rs:201
* `tEqEq` – lexer/token_type.rs:207
* `tNe` – lexer/token_type.rs:209
* `tLe` – lexer/token_type.rs:211
* `tGe` – lexer/token_type.rs:213
* `tAndAnd` – lexer/token_type.rs:219
* `tOrOr` – lexer/token_type.rs:221
* `tShl` – lexer/token_type.rs:227
* `tShr` – lexer/token_type.rs:229
* `tPlusEq` – lexer/token_type.rs:231
* `tMinusEq` – lexer/token_type.rs:233
* `tStarEq` – lexer/token_type.rs:235
* `tSlashEq` – lexer/token_type.rs:237
* `tPercentEq` – lexer/token_type.rs:239
* `tCaretEq` – lexer/token_type.rs:241
* `tAndEq` – lexer/token_type.rs:243
* `tOrEq` – lexer/token_type.rs:245
* `tShlEq` – lexer/token_type.rs:247
* `tShrEq` – lexer/token_type.rs:249
* `tArrow` – lexer/token_type.rs:277
* `tNewline` – lexer/token_type.rs:283
* `tWhitespace` – lexer/token_type.rs:285
* `tLineComment` – lexer/token_type.rs:287
* `tBlockComment` – lexer/token_type.rs:289
* `eError` – parser/element_type.rs:297
* `eIdentifierExpression` – parser/element_type.rs:301
* `eLiteralExpression` – parser/element_type.rs:303
* `eParenthesizedExpression` – parser/element_type.rs:305
* `eUnaryExpression` – parser/element_type.rs:307
* `eBinaryExpression` – parser/element_type.rs:309
* `eCallExpression` – parser/element_type.rs:311
* `eIndexExpression` – parser/element_type.rs:313
* `eSourceFile` – parser/element_type.rs:319
* `eFunction` – parser/element_type.rs:321
* `eUseItem` – parser/element_type.rs:325
* `eModuleItem` – parser/element_type.rs:327
* `eStructItem` – parser/element_type.rs:329
* `eEnumItem` – parser/element_type.rs:331
* `eLetStatement` – parser/element_type.rs:333
* `eIfExpression` – parser/element_type.rs:335
* `eWhileExpression` – parser/element_type.rs:337
* `eLoopExpression` – parser/element_type.rs:339
* `eForExpression` – parser/element_type.rs:341
* `eReturnStatement` – parser/element_type.rs:343
* `eBlock` – parser/element_type.rs:345
* `eParameterList` – parser/element_type.rs:347
* `eBlockExpression` – parser/element_type.rs:349
* `eMemberExpression` – parser/element_type.rs:367
* `pPrimary` – parser/mod.rs:28-50
* `pPrefix` – parser/mod.rs:52-63
* `pParseStatement` – parser/mod.rs:149-190
* `pParseFunctionBody` – parser/mod.rs:192-194
* `pParseUseItemBody` – parser/mod.rs:196-198
* `pParseModItemBody` – parser/mod.rs:200-202
* `pParseStructItemBody` – parser/mod.rs:204-206
* `pParseEnumItemBody` – parser/mod.rs:208-210
* `pParseLetStatementBody` – parser/mod.rs:212-214
* `pParseIfExpressionBody` – parser/mod.rs:216-218
* `pParseWhileExpressionBody` – parser/mod.rs:220-222
* `pParseLoopExpressionBody` – parser/mod.rs:224-226
* `pParseForExpressionBody` – parser/mod.rs:228-230
* `pParseReturnStatementBody` – parser/mod.rs:232-234
* `pParseBlockBody` – parser/mod.rs:236-238
* `pParseFunction` – parser/mod.rs:241-255
* `pParseParamList` – parser/mod.rs:257-267
* `pParseBlock` – parser/mod.rs:270-280
* `pParseUseItem` – parser/mod.rs:283-293
* `pParseModItem` – parser/mod.rs:296-308
* `pParseStructItem` – parser/mod.rs:311-326
* `pParseEnumItem` – parser/mod.rs:329-336
* `pParseLetStatement` – parser/mod.rs:339-349
* `pParseIfExpression` – parser/mod.rs:352-362
* `pParseWhileExpression` – parser/mod.rs:365-372
* `pParseLoopExpression` – parser/mod.rs:375-381
* `pParseForExpression` – parser/mod.rs:384-393
* `pParseReturnStatement` – parser/mod.rs:396-405
* `levels` – parser/mod.rs:65-123
* `pPratt` – parser/pratt.rs:237-243
* `primary` – parser/mod.rs:28-50
* `prefix_` – parser/mod.rs:52-63
* `parseStatement` – parser/mod.rs:149-190
* `parseFunctionBody` – parser/mod.rs:192-194
* `parseUseItemBody` – parser/mod.rs:196-198
* `parseModItemBody` – parser/mod.rs:200-202
* `parseStructItemBody` – parser/mod.rs:204-206
* `parseEnumItemBody` – parser/mod.rs:208-210
* `parseLetStatementBody` – parser/mod.rs:212-214
* `parseIfExpressionBody` – parser/mod.rs:216-218
* `parseWhileExpressionBody` – parser/mod.rs:220-222
* `parseLoopExpressionBody` – parser/mod.rs:224-226
* `parseForExpressionBody` – parser/mod.rs:228-230
* `parseReturnStatementBody` – parser/mod.rs:232-234
* `parseBlockBody` – parser/mod.rs:236-238
* `parseFunction` – parser/mod.rs:241-255
* `parseParamList` – parser/mod.rs:257-267
* `parseBlock` – parser/mod.rs:270-280
* `parseUseItem` – parser/mod.rs:283-293
* `parseModItem` – parser/mod.rs:296-308
* `parseStructItem` – parser/mod.rs:311-326
* `parseEnumItem` – parser/mod.rs:329-336
* `parseLetStatement` – parser/mod.rs:339-349
* `parseIfExpression` – parser/mod.rs:352-362
* `parseWhileExpression` – parser/mod.rs:365-372
* `parseLoopExpression` – parser/mod.rs:375-381
* `parseForExpression` – parser/mod.rs:384-393
* `parseReturnStatement` – parser/mod.rs:396-405
* `infix_` – parser/mod.rs:65-123
* `pratt` – parser/pratt.rs:237-243
* `main` – parser/mod.rs:135-146
* `parser` – parser/mod.rs:135-146; lexer/token_type.rs:313-315

### Model/HandPratt/Scala.lean

* `tWhitespace` – lexer/token_type.rs:14
* `tNewline` – lexer/token_type.rs:15
* `tComment` – lexer/token_type.rs:16
* `eSourceFile` – parser/element_type.rs:9
* `main` – parser/mod.rs:26-34
* `parser` – parser/mod.rs:26-34; lexer/token_type.rs:134-136

### Model/HandPratt/Sql.lean

* `tWhitespace` – lexer/token_type.rs:153
* `tNewline` – lexer/token_type.rs:154
* `tComment` – lexer/token_type.rs:157
* `tLineComment` – lexer/token_type.rs:158
* `tBlockComment` – lexer/token_type.rs:159
* `tNumberLiteral` – lexer/token_type.rs:162
* `tStringLiteral` – lexer/token_type.rs:164
* `tBooleanLiteral` – lexer/token_type.rs:165
* `tNullLiteral` – lexer/token_type.rs:166
* `tIdentifier_` – lexer/token_type.rs:169
* `tSelect` – lexer/token_type.rs:172
* `tFrom` – lexer/token_type.rs:173
* `tWhere` – lexer/token_type.rs:174
* `tInsert` – lexer/token_type.rs:175
* `tInto` – lexer/token_type.rs:176
* `tValues` – lexer/token_type.rs:177
* `tUpdate` – lexer/token_type.rs:178
* `tSet` – lexer/token_type.rs:179
* `tDelete` – lexer/token_type.rs:180
* `tCreate` – lexer/token_type.rs:181
* `tDrop` – lexer/token_type.rs:183
* `tAlter` – lexer/token_type.rs:184
* `tAnd` – lexer/token_type.rs:197
* `tOr` – lexer/token_type.rs:198
* `tIn` – lexer/token_type.rs:199
* `tLike` – lexer/token_type.rs:200
* `tBetween` – lexer/token_type.rs:201
* `tIs` – lexer/token_type.rs:202
* `tJoin` – lexer/token_type.rs:204
* `tInner` – lexer/token_type.rs:205
* `tLeft` – lexer/token_type.rs:206
* `tRight` – lexer/token_type.rs:207
* `tFull` – lexer/token_type.rs:208
* `tOuter` – lexer/token_type.rs:209
* `tOn` – lexer/token_type.rs:210
* `tGroup` – lexer/token_type.rs:211
* `tBy` – lexer/token_type.rs:212
* `tHaving` – lexer/token_type.rs:213
* `tOrder` – lexer/token_type.rs:214
* `tAsc` – lexer/token_type.rs:215
* `tDesc` – lexer/token_type.rs:216
* `tLimit` – lexer/token_type.rs:217
* `tOffset` – lexer/token_type.rs:218
* `tPlus` – lexer/token_type.rs:259
* `tMinus` – lexer/token_type.rs:260
* `tStar` – lexer/token_type.rs:261
* `tSlash` – lexer/token_type.rs:262
* `tPercent` – lexer/token_type.rs:263
* `tEqual` – lexer/token_type.rs:264
* `tNotEqual` – lexer/token_type.rs:265
* `tLess` – lexer/token_type.rs:266
* `tGreater` – lexer/token_type.rs:267
* `tLessEqual` – lexer/token_type.rs:268
* `tGreaterEqual` – lexer/token_type.rs:269
* `tLeftParen` – lexer/token_type.rs:280
* `tRightParen` – lexer/token_type.rs:281
* `tComma` – lexer/token_type.rs:286
* `tSemicolon` – lexer/token_type.rs:287
* `eRoot` – parser/element_type.rs:8
* `eIdentifier` – parser/element_type.rs:9
* `eExpression` – parser/element_type.rs:10
* `eErrorNode` – parser/element_type.rs:11
* `eSelectStatement` – parser/element_type.rs:12
* `eInsertStatement` – parser/element_type.rs:13
* `eUpdateStatement` – parser/element_type.rs:14
* `eDeleteStatement` – parser/element_type.rs:15
* `eCreateStatement` – parser/element_type.rs:16
* `eDropStatement` – parser/element_type.rs:17
* `eAlterStatement` – parser/element_type.rs:18
* `eJoinClause` – parser/element_type.rs:19
* `eGroupByClause` – parser/element_type.rs:20
* `eHavingClause` – parser/element_type.rs:21
* `eOrderByClause` – parser/element_type.rs:22
* `eLimitClause` – parser/element_type.rs:23
* `pPrimary` – parser/mod.rs:21-44
* `pPrefix` – parser/mod.rs:46-48
* `pParseStatement` – parser/mod.rs:88-104
* `pParseSelect` – parser/mod.rs:106-195
* `pParseInsert` – parser/mod.rs:197-217
* `pParseUpdate` – parser/mod.rs:219-243
* `pParseDelete` – parser/mod.rs:245-259
* `pParseCreate` – parser/mod.rs:261-269
* `pParseDrop` – parser/mod.rs:271-279
* `pParseAlter` – parser/mod.rs:281-289
* `levels` – parser/mod.rs:50-68
* `pPratt` – parser/pratt.rs:237-243
* `primary` – parser/mod.rs:21-44
* `prefix_` – parser/mod.rs:46-48
* `parseStatement` – parser/mod.rs:88-104
* `parseSelect` – parser/mod.rs:106-195
* `parseInsert` – parser/mod.rs:197-217
* `parseUpdate` – parser/mod.rs:219-243
* `parseDelete` – parser/mod.rs:245-259
* `parseCreate` – parser/mod.rs:261-269
* `parseDrop` – parser/mod.rs:271-279
* `parseAlter` – parser/mod.rs:281-289
* `infix_` – parser/mod.rs:50-68
* `pratt` – parser/pratt.rs:237-243
* `main` – parser/mod.rs:76-86
* `parser` – parser/mod.rs:76-86; lexer/token_type.rs:11-13

### Model/HandPratt/Swift.lean

* `tWhitespace` – lexer/token_type.rs:11
* `tNewline` – lexer/token_type.rs:12
* `tComment` – lexer/token_type.rs:13
* `tIdentifier` – lexer/token_type.rs:14
* `tEof` – lexer/token_type.rs:16
* `tNumberLiteral` – lexer/token_type.rs:17
* `tStringLiteral` – lexer/token_type.rs:18
* `tCharLiteral` – lexer/token_type.rs:19
* `tBooleanLiteral` – lexer/token_type.rs:20
* `tFunc` – lexer/token_type.rs:26
* `tVar` – lexer/token_type.rs:27
* `tLet` – lexer/token_type.rs:28
* `tIf` – lexer/token_type.rs:34
* `tElse` – lexer/token_type.rs:35
* `tFor` – lexer/token_type.rs:39
* `tWhile` – lexer/token_type.rs:40
* `tReturn` – lexer/token_type.rs:46
* `tTrue` – lexer/token_type.rs:78
* `tFalse` – lexer/token_type.rs:79
* `tNil` – lexer/token_type.rs:80
* `tAs` – lexer/token_type.rs:81
* `tIs` – lexer/token_type.rs:82
* `tIn` – lexer/token_type.rs:83
* `tPlus` – lexer/token_type.rs:92
* `tMinus` – lexer/token_type.rs:93
* `tStar` – lexer/token_type.rs:94
* `tSlash` – lexer/token_type.rs:95
* `tPercent` – lexer/token_type.rs:96
* `tEqual` – lexer/token_type.rs:97
* `tNotEqual` – lexer/token_type.rs:98
* `tLess` – lexer/token_type.rs:99
* `tGreater` – lexer/token_type.rs:100
* `tLessEqual` – lexer/token_type.rs:101
* `tGreaterEqual` – lexer/token_type.rs:102
* `tLogicalAnd` – lexer/token_type.rs:103
* `tLogicalOr` – lexer/token_type.rs:104
* `tLogicalNot` – lexer/token_type.rs:105
* `tBitAnd` – lexer/token_type.rs:106
* `tBitOr` – lexer/token_type.rs:107
* `tBitXor` – lexer/token_type.rs:108
* `tBitNot` – lexer/token_type.rs:109
* `tLeftShift` – lexer/token_type.rs:110
* `tRightShift` – lexer/token_type.rs:111
* `tAssign` – lexer/token_type.rs:112
* `tPlusAssign` – lexer/token_type.rs:113
* `tMinusAssign` – lexer/token_type.rs:114
* `tStarAssign` – lexer/token_type.rs:115
* `tSlashAssign` – lexer/token_type.rs:116
* `tPercentAssign` – lexer/token_type.rs:117
* `tAndAssign` – lexer/token_type.rs:118
* `tOrAssign` – lexer/token_type.rs:119
* `tXorAssign` – lexer/token_type.rs:120
* `tLeftShiftAssign` – lexer/token_type.rs:121
* `tRightShiftAssign` – lexer/token_type.rs:122
* `tQuestionQuestion` – lexer/token_type.rs:124
* `tDot` – lexer/token_type.rs:125
* `tArrow` – lexer/token_type.rs:126
* `tRange` – lexer/token_type.rs:127
* `tClosedRange` – lexer/token_type.rs:128
* `tLeftParen` – lexer/token_type.rs:129
* `tRightParen` – lexer/token_type.rs:130
* `tLeftBracket` – lexer/token_type.rs:131
* `tRightBracket` – lexer/token_type.rs:132
* `tLeftBrace` – lexer/token_type.rs:133
* `tRightBrace` – lexer/token_type.rs:134
* `tComma` – lexer/token_type.rs:135
* `tSemicolon` – lexer/token_type.rs:136
* `tColon` – lexer/token_type.rs:137
* `eError` – parser/element_type.rs:13
* `eSourceFile` – parser/element_type.rs:141
* `eFunctionDeclaration` – parser/element_type.rs:142
* `eParameter` – parser/element_type.rs:143
* `eParameterList` – parser/element_type.rs:144
* `eVariableDeclaration` – parser/element_type.rs:145
* `eIfStatement` – parser/element_type.rs:150
* `eWhileStatement` – parser/element_type.rs:151
* `eForStatement` – parser/element_type.rs:152
* `eReturnStatement` – parser/element_type.rs:153
* `eExpressionStatement` – parser/element_type.rs:156
* `eBlock` – parser/element_type.rs:157
* `eBinaryExpression` – parser/element_type.rs:158
* `eUnaryExpression` – parser/element_type.rs:159
* `eCallExpression` – parser/element_type.rs:160
* `eMemberExpression` – parser/element_type.rs:161
* `eIdentifierExpression` – parser/element_type.rs:162
* `eLiteralExpression` – parser/element_type.rs:163
* `pParseStatement` – parser/mod.rs:37-58
* `pParseFunctionDeclaration` – parser/mod.rs:60-92
* `pParseVariableDeclaration` – parser/mod.rs:94-108
* `pParseIfStatement` – parser/mod.rs:110-121
* `pParseWhileStatement` – parser/mod.rs:123-131
* `pParseForStatement` – parser/mod.rs:133-143
* `pParseReturnStatement` – parser/mod.rs:145-155
* `pParseBlock` – parser/mod.rs:157-167
* `pPrimary` – parser/mod.rs:171-197
* `pPrefix` – parser/mod.rs:199-210
* `levels` – parser/mod.rs:212-261
* `pPratt` – parser/pratt.rs:237-243
* `parseStatement` – parser/mod.rs:37-58
* `parseFunctionDeclaration` – parser/mod.rs:60-92
* `parseVariableDeclaration` – parser/mod.rs:94-108
* `parseIfStatement` – parser/mod.rs:110-121
* `parseWhileStatement` – parser/mod.rs:123-131
* `parseForStatement` – parser/mod.rs:133-143
* `parseReturnStatement` – parser/mod.rs:145-155
* `parseBlock` – parser/mod.rs:157-167
* `primary` – parser/mod.rs:171-197
* `prefix_` – parser/mod.rs:199-210
* `infix_` – parser/mod.rs:212-261
* `pratt` – parser/pratt.rs:237-243
* `main` – parser/mod.rs:24-35
* `parser` – parser/mod.rs:24-35; lexer/token_type.rs:178-180

### Model/HandPratt/Wolfram.lean

* `tIdentifier` – lexer/token_type.rs:37
* `tInteger` – lexer/token_type.rs:38
* `tReal` – lexer/token_type.rs:39
* `tString` – lexer/token_type.rs:40
* `tRule` – lexer/token_type.rs:58
* `tRuleDelayed` – lexer/token_type.rs:59
* `tSet` – lexer/token_type.rs:60
* `tSetDelayed` – lexer/token_type.rs:61
* `tPlus` – lexer/token_type.rs:75
* `tMinus` – lexer/token_type.rs:76
* `tTimes` – lexer/token_type.rs:77
* `tDivide` – lexer/token_type.rs:78
* `tPower` – lexer/token_type.rs:79
* `tEqual` – lexer/token_type.rs:80
* `tNotEqual` – lexer/token_type.rs:81
* `tLess` – lexer/token_type.rs:82
* `tGreater` – lexer/token_type.rs:83
* `tLessEqual` – lexer/token_type.rs:84
* `tGreaterEqual` – lexer/token_type.rs:85
* `tAnd` – lexer/token_type.rs:86
* `tOr` – lexer/token_type.rs:87
* `tAt` – lexer/token_type.rs:91
* `tSlashSlash` – lexer/token_type.rs:92
* `tMapOperator` – lexer/token_type.rs:93
* `tApplyOperator` – lexer/token_type.rs:94
* `tApplyLevelOperator` – lexer/token_type.rs:95
* `tMapAllOperator` – lexer/token_type.rs:96
* `tAmpersand` – lexer/token_type.rs:97
* `tAssign` – lexer/token_type.rs:104
* `tLeftParen` – lexer/token_type.rs:111
* `tRightParen` – lexer/token_type.rs:112
* `tLeftBracket` – lexer/token_type.rs:113
* `tRightBracket` – lexer/token_type.rs:114
* `tLeftBrace` – lexer/token_type.rs:115
* `tRightBrace` – lexer/token_type.rs:116
* `tComma` – lexer/token_type.rs:117
* `tArrow` – lexer/token_type.rs:123
* `tSlot` – lexer/token_type.rs:129
* `tSlotSequence` – lexer/token_type.rs:130
* `tFactorial` – lexer/token_type.rs:131
* `eRoot` – parser/element_type.rs:9
* `eExpression` – parser/element_type.rs:11
* `eCall` – parser/element_type.rs:13
* `eArguments` – parser/element_type.rs:15
* `eList` – parser/element_type.rs:17
* `eSymbol` – parser/element_type.rs:19
* `eLiteral` – parser/element_type.rs:21
* `eBinaryExpr` – parser/element_type.rs:23
* `ePrefixExpr` – parser/element_type.rs:25
* `ePostfixExpr` – parser/element_type.rs:27
* `eError` – parser/element_type.rs:29
* `pParseExpression` – parser/mod.rs:44-46
* `pParsePratt0` – parser/mod.rs:48-50
* `pParsePratt100` – parser/mod.rs:48-50
* `pParsePratt110` – parser/mod.rs:48-50
* `pParsePratt120` – parser/mod.rs:48-50
* `pParsePratt150` – parser/mod.rs:48-50
* `pParsePratt20` – parser/mod.rs:48-50
* `pParsePratt30` – parser/mod.rs:48-50
* `pParsePratt41` – parser/mod.rs:48-50
* `pParsePratt51` – parser/mod.rs:48-50
* `pParsePratt61` – parser/mod.rs:48-50
* `pParsePratt71` – parser/mod.rs:48-50
* `pParsePratt81` – parser/mod.rs:48-50
* `pParsePratt91` – parser/mod.rs:48-50
* `pParseArguments` – parser/mod.rs:52-67
* `pParseList` – parser/mod.rs:69-84
* `pPrimary` – parser/mod.rs:88-125
* `pPrefix` – parser/mod.rs:127-140
* `levels` – parser/mod.rs:142-183
* `pPratt` – parser/pratt.rs:237-243
* `parseExpression` – parser/mod.rs:44-46
* `parsePratt0` – parser/mod.rs:48-50
* `parsePratt100` – parser/mod.rs:48-50
* `parsePratt110` – parser/mod.rs:48-50
* `parsePratt120` – parser/mod.rs:48-50
* `parsePratt150` – parser/mod.rs:48-50
* `parsePratt20` – parser/mod.rs:48-50
* `parsePratt30` – parser/mod.rs:48-50
* `parsePratt41` – parser/mod.rs:48-50
* `parsePratt51` – parser/mod.rs:48-50
* `parsePratt61` – parser/mod.rs:48-50
* `parsePratt71` – parser/mod.rs:48-50
* `parsePratt81` – parser/mod.rs:48-50
* `parsePratt91` – parser/mod.rs:48-50
* `parseArguments` – parser/mod.rs:52-67
* `parseList` – parser/mod.rs:69-84
* `primary` – parser/mod.rs:88-125
* `prefix_` – parser/mod.rs:127-140
* `infix_` – parser/mod.rs:142-183
* `pratt` – parser/pratt.rs:237-243
* `main` – parser/mod.rs:29-40
* `parser` – parser/mod.rs:29-40; lexer/token_type.rs:18-20

### Model/HandPratt/Zig.lean

* `tWhitespace` – lexer/token_type.rs:31
* `tNewline` – lexer/token_type.rs:32
* `tComment` – lexer/token_type.rs:33
* `tDocComment` – lexer/token_type.rs:34
* `tIdentifier` – lexer/token_type.rs:39
* `tStringLiteral` – lexer/token_type.rs:40
* `tCharLiteral` – lexer/token_type.rs:41
* `tIntegerLiteral` – lexer/token_type.rs:42
* `tFloatLiteral` – lexer/token_type.rs:43
* `tBooleanLiteral` – lexer/token_type.rs:44
* `tConst` – lexer/token_type.rs:47
* `tVar` – lexer/token_type.rs:48
* `tFn` – lexer/token_type.rs:49
* `tIf` – lexer/token_type.rs:67
* `tElse` – lexer/token_type.rs:68
* `tWhile` – lexer/token_type.rs:70
* `tFor` – lexer/token_type.rs:71
* `tReturn` – lexer/token_type.rs:74
* `tUndefined` – lexer/token_type.rs:92
* `tNull` – lexer/token_type.rs:93
* `tAnd` – lexer/token_type.rs:99
* `tOr` – lexer/token_type.rs:100
* `tPlus` – lexer/token_type.rs:139
* `tMinus` – lexer/token_type.rs:140
* `tStar` – lexer/token_type.rs:141
* `tSlash` – lexer/token_type.rs:142
* `tPercent` – lexer/token_type.rs:143
* `tStarStar` – lexer/token_type.rs:144
* `tPlusPercent` – lexer/token_type.rs:145
* `tMinusPercent` – lexer/token_type.rs:146
* `tStarPercent` – lexer/token_type.rs:147
* `tPlusPlus` – lexer/token_type.rs:148
* `tAmpersand` – lexer/token_type.rs:152
* `tTilde` – lexer/token_type.rs:155
* `tEqual` – lexer/token_type.rs:160
* `tNotEqual` – lexer/token_type.rs:161
* `tLess` – lexer/token_type.rs:162
* `tGreater` – lexer/token_type.rs:163
* `tLessEqual` – lexer/token_type.rs:164
* `tGreaterEqual` – lexer/token_type.rs:165
* `tAndAnd` – lexer/token_type.rs:168
* `tOrOr` – lexer/token_type.rs:169
* `tAssign` – lexer/token_type.rs:172
* `tPlusAssign` – lexer/token_type.rs:173
* `tMinusAssign` – lexer/token_type.rs:174
* `tStarAssign` – lexer/token_type.rs:175
* `tSlashAssign` – lexer/token_type.rs:176
* `tPercentAssign` – lexer/token_type.rs:177
* `tAmpersandAssign` – lexer/token_type.rs:178
* `tPipeAssign` – lexer/token_type.rs:179
* `tCaretAssign` – lexer/token_type.rs:180
* `tLessLessAssign` – lexer/token_type.rs:181
* `tGreaterGreaterAssign` – lexer/token_type.rs:182
* `tLeftParen` – lexer/token_type.rs:185
* `tRightParen` – lexer/token_type.rs:186
* `tLeftBrace` – lexer/token_type.rs:187
* `tRightBrace` – lexer/token_type.rs:188
* `tLeftBracket` – lexer/token_type.rs:189
* `tRightBracket` – lexer/token_type.rs:190
* `tSemicolon` – lexer/token_type.rs:191
* `tComma` – lexer/token_type.rs:192
* `tDot` – lexer/token_type.rs:193
* `tColon` – lexer/token_type.rs:198
* `tExclamation` – lexer/token_type.rs:200
* `tOrElse` – lexer/token_type.rs:205
* `tCatchKeyword` – lexer/token_type.rs:206
* `tTryKeyword` – lexer/token_type.rs:207
* `tAwaitKeyword` – lexer/token_type.rs:208
* `eRoot` – parser/element_type.rs:8
* `eError` – parser/element_type.rs:14
* `eIdentifier` – parser/element_type.rs:18
* `eLiteral` – parser/element_type.rs:24
* `eFnDeclaration` – parser/element_type.rs:201
* `eVarDeclaration` – parser/element_type.rs:202
* `eIfStatement` – parser/element_type.rs:206
* `eWhileStatement` – parser/element_type.rs:207
* `eForStatement` – parser/element_type.rs:208
* `eReturnStatement` – parser/element_type.rs:209
* `eBlock` – parser/element_type.rs:210
* `eBinaryExpr` – parser/element_type.rs:211
* `eUnaryExpr` – parser/element_type.rs:212
* `pPrimary` – parser/mod.rs:30-52
* `pPrefix` – parser/mod.rs:54-67
* `pParseStatement` – parser/mod.rs:150-165
* `pParseFunctionDeclaration` – parser/mod.rs:167-182
* `pParseVariableDeclaration` – parser/mod.rs:184-199
* `pParseIfStatement` – parser/mod.rs:201-213
* `pParseWhileStatement` – parser/mod.rs:215-224
* `pParseForStatement` – parser/mod.rs:226-235
* `pParseReturnStatement` – parser/mod.rs:237-246
* `pParseBlock` – parser/mod.rs:248-257
* `levels` – parser/mod.rs:69-129
* `pPratt` – parser/pratt.rs:237-243
* `primary` – parser/mod.rs:30-52
* `prefix_` – parser/mod.rs:54-67
* `parseStatement` – parser/mod.rs:150-165
* `parseFunctionDeclaration` – parser/mod.rs:167-182
* `parseVariableDeclaration` – parser/mod.rs:184-199
* `parseIfStatement` – parser/mod.rs:201-213
* `parseWhileStatement` – parser/mod.rs:215-224
* `parseForStatement` – parser/mod.rs:226-235
* `parseReturnStatement` – parser/mod.rs:237-246
* `parseBlock` – parser/mod.rs:248-257
* `infix_` – parser/mod.rs:69-129
* `pratt` – parser/pratt.rs:237-243
* `main` – parser/mod.rs:140-148
* `parser` – parser/mod.rs:140-148; lexer/token_type.rs:11-13

### Model/Hierarchy.lean

* `LayoutNode` – layout/mod.rs:122-127
* `LayoutEdge` – layout/mod.rs:147-152
* `LayoutConfig` – layout/mod.rs:9-16
* `Direction` – layout/mod.rs:367-373
* `HNode` – layout/mod.rs:377-381
* `edgeMaps` – layout/mod.rs:389-392
* `buildNode` – layout/mod.rs:404-409
* `buildNodes` – layout/mod.rs:406
* `buildHierarchy` – layout/mod.rs:384-402
* `HNode.size` – layout/mod.rs:380
* `topDownNode` – layout/mod.rs:423-434
* `topDownNodes` – layout/mod.rs:430-433
* `topDownRoots` – layout/mod.rs:415-418
* `topDown` – layout/mod.rs:411-421
* `leftRightNode` – layout/mod.rs:448-459
* `leftRightNodes` – layout/mod.rs:455-458
* `leftRightRoots` – layout/mod.rs:440-443
* `leftRight` – layout/mod.rs:436-446
* `bottomUp` – layout/mod.rs:461-464
* `rightLeft` – layout/mod.rs:466-469
* `routeEdge` – layout/mod.rs:471-477
* `getEntry` – layout/mod.rs:231
* `addRects` – layout/mod.rs:224-226
* `addRouted` – layout/mod.rs:229-234
* `hierarchicalLayout` – layout/mod.rs:205-237

### Model/Highlight.lean

* `isControl` – exporters/mod.rs:19
* `hexDigit` – exporters/mod.rs:19
* `jsonEscapeChar` – exporters/mod.rs:11-21
* `jsonEscape` – exporters/mod.rs:8-24
* `htmlEscapeChar` – exporters/mod.rs:266-273
* `htmlEscape` – exporters/mod.rs:264-275
* `replaceCh` – oak-diagnostic/src/lib.rs:564
* `htmlEscapeDiag` – oak-diagnostic/src/lib.rs:563-565
* `Style` – highlighter/mod.rs:22-33
* `Style.default` – highlighter/mod.rs:36-38
* `Theme` – highlighter/mod.rs:48
* `parentScope` – highlighter/mod.rs:91, 115-116
* `noneStyle` – highlighter/mod.rs:93, 125
* `resolveLoop` – highlighter/mod.rs:86-92
* `resolveStyle` – highlighter/mod.rs:85-94
* `resolveInner` – highlighter/mod.rs:107-122
* `splitCount` – highlighter/mod.rs:105
* `resolveStyles` – highlighter/mod.rs:98-126
* `tokenScopes` – highlighter/mod.rs:140-172, 175-207
* `Segment` – highlighter/mod.rs:243-250
* `visitToken` – highlighter/mod.rs:283-291
* `highlightTree` – highlighter/mod.rs:370-377
* `highlightPlain` – highlighter/mod.rs:347-356
* `joinStr` – exporters/mod.rs:120, 141, 198, 259
* `lit` – exporters/mod.rs:66-275
* `htmlInline` – exporters/mod.rs:95-121
* `htmlClass` – exporters/mod.rs:123-142
* `htmlCss` – exporters/mod.rs:69-76
* `exportHtml` – exporters/mod.rs:66-91
* `natStr` – exporters/mod.rs:180
* `boolStr` – exporters/mod.rs:190-197
* `jsonSegment` – exporters/mod.rs:180-201
* `exportJson` – exporters/mod.rs:172-209
* `ansiColor` – exporters/mod.rs:248-256
* `ansiCodes` – exporters/mod.rs:229-257
* `ansiSegment` – exporters/mod.rs:228-260
* `exportAnsi` – exporters/mod.rs:216-224

### Model/Index.lean

* `refToken` – oak-navigation/src/lib.rs:67-74
* `findReferences` – oak-navigation/src/lib.rs:55-59
* `SymInfo` – oak-symbols/src/lib.rs:18-33
* `Roles` – oak-symbols/src/lib.rs:66-95
* `firstNameLoop` – oak-symbols/src/lib.rs:73-85
* `defName` – oak-symbols/src/lib.rs:73-87
* `collectChild` – oak-symbols/src/lib.rs:93-95, 101-103
* `collectSymbols` – oak-symbols/src/lib.rs:68-106
* `documentSymbols` – oak-symbols/src/lib.rs:110-114
* `SymTable` – oak-resolver/src/lib.rs:68-73
* `dmGet` – oak-resolver/src/lib.rs:108, 113
* `dmRemove` – oak-resolver/src/lib.rs:84-88
* `dmInsert` – oak-resolver/src/lib.rs:92-96
* `qualifiedName` – oak-resolver/src/lib.rs:99-104
* `SymTable.new` – oak-resolver/src/lib.rs:77-79
* `SymTable.update` – oak-resolver/src/lib.rs:82-97
* `SymTable.lookup` – oak-resolver/src/lib.rs:107-109
* `SymTable.queryFile` – oak-resolver/src/lib.rs:112-114
* `strContains` – oak-resolver/src/lib.rs:118
* `SymTable.query` – oak-resolver/src/lib.rs:117-119

### Model/Ini.lean

* `whitespace` – lexer/token_type.rs:9-35
* `newline` – lexer/token_type.rs:9-35
* `comment` – lexer/token_type.rs:9-35
* `eof` – lexer/token_type.rs:9-35
* `leftBrace` – lexer/token_type.rs:9-35
* `rightBrace` – lexer/token_type.rs:9-35
* `leftBracket` – lexer/token_type.rs:9-35
* `rightBracket` – lexer/token_type.rs:9-35
* `doubleLeftBracket` – lexer/token_type.rs:9-35
* `doubleRightBracket` – lexer/token_type.rs:9-35
* `comma` – lexer/token_type.rs:9-35
* `dot` – lexer/token_type.rs:9-35
* `equal` – lexer/token_type.rs:9-35
* `identifier` – lexer/token_type.rs:9-35
* `string` – lexer/token_type.rs:9-35
* `integer` – lexer/token_type.rs:9-35
* `float` – lexer/token_type.rs:9-35
* `boolean` – lexer/token_type.rs:9-35
* `dateTime` – lexer/token_type.rs:9-35
* `root` – parser/element_type.rs:7-45
* `table` – parser/element_type.rs:7-45
* `arrayOfTables` – parser/element_type.rs:7-45
* `keyValue` – parser/element_type.rs:7-45
* `key` – parser/element_type.rs:7-45
* `value` – parser/element_type.rs:7-45
* `array` – parser/element_type.rs:7-45
* `inlineTable` – parser/element_type.rs:7-45
* `isBlank` – lexer/mod.rs:81
* `isDigit` – lexer/mod.rs:178, 185, 199
* `nameStart` – lexer/mod.rs:248
* `nameChar` – lexer/mod.rs:254
* `skipWhitespace` – lexer/mod.rs:77-94
* `lexNewline` – lexer/mod.rs:97-106
* `skipComment` – lexer/mod.rs:109-132
* `stringTurn` – lexer/mod.rs:143-160
* `lexString` – lexer/mod.rs:135-167
* `exponentSign` – lexer/mod.rs:210-214
* `numberTurn` – lexer/mod.rs:198-219
* `numberRest` – lexer/mod.rs:194-236
* `lexNumber` – lexer/mod.rs:170-237
* `wordKind` – lexer/mod.rs:262-274
* `lexIdentifier` – lexer/mod.rs:240-280
* `markKind` – lexer/mod.rs:301-310
* `lexPunctuation` – lexer/mod.rs:283-317
* `step` – lexer/mod.rs:38-73
* `lex` – lexer/mod.rs:22-29
* `ign` – lexer/token_type.rs:41-43
* `skipTrivia` – parser/parse_top_level.rs:149-153
* `expected` – parser/parse_top_level.rs:64-66, 101-103
* `keyPart` – parser/parse_top_level.rs:57-67
* `keyTurn` – parser/parse_top_level.rs:56-77
* `parseKey` – parser/parse_top_level.rs:53-80
* `parseKeyValue` – parser/parse_top_level.rs:39-51
* `optComma` – parser/parse_top_level.rs:119-122, 138-141
* `items` – parser/parse_top_level.rs:116-123, 135-142
* `bracketed` – parser/parse_top_level.rs:111-128
* `parseValue` – parser/parse_top_level.rs:82-109
* `inTable` – parser/parse_top_level.rs:27
* `tableTurn` – parser/parse_top_level.rs:27-33
* `parseTable` – parser/parse_top_level.rs:11-37
* `rootItem` – parser/mod.rs:42-43
* `rootTurn` – parser/mod.rs:37-44
* `parseTokens` – parser/mod.rs:35-47
* `parse` – parser/mod.rs:27-31

### Model/Json.lean

* `JsonCfg` – language/mod.rs:9-22
* `JsonCfg.standard` – language/mod.rs:31-33, 46-50
* `JsonCfg.json5` – language/mod.rs:36-43
* `CharClass` – lexer/mod.rs:75, 170, 172, 207
* `root` – lexer/token_type.rs:10; parser/element_type.rs:8
* `value` – lexer/token_type.rs:11; parser/element_type.rs:9
* `object` – lexer/token_type.rs:12; parser/element_type.rs:10
* `array` – lexer/token_type.rs:13; parser/element_type.rs:11
* `string` – lexer/token_type.rs:14; parser/element_type.rs:12
* `number` – lexer/token_type.rs:15; parser/element_type.rs:13
* `boolean` – lexer/token_type.rs:16; parser/element_type.rs:14
* `null` – lexer/token_type.rs:17; parser/element_type.rs:15
* `objectEntry` – lexer/token_type.rs:18; parser/element_type.rs:16
* `arrayElement` – lexer/token_type.rs:19; parser/element_type.rs:17
* `leftBrace` – lexer/token_type.rs:21; parser/element_type.rs:19
* `rightBrace` – lexer/token_type.rs:22; parser/element_type.rs:20
* `leftBracket` – lexer/token_type.rs:23; parser/element_type.rs:21
* `rightBracket` – lexer/token_type.rs:24; parser/element_type.rs:22
* `comma` – lexer/token_type.rs:25; parser/element_type.rs:23
* `colon` – lexer/token_type.rs:26; parser/element_type.rs:24
* `stringLiteral` – lexer/token_type.rs:27; parser/element_type.rs:25
* `numberLiteral` – lexer/token_type.rs:28; parser/element_type.rs:26
* `booleanLiteral` – lexer/token_type.rs:29; parser/element_type.rs:27
* `nullLiteral` – lexer/token_type.rs:30; parser/element_type.rs:28
* `bareKey` – lexer/token_type.rs:31; parser/element_type.rs:29
* `whitespace` – lexer/token_type.rs:32; parser/element_type.rs:30
* `comment` – lexer/token_type.rs:33; parser/element_type.rs:31
* `eof` – lexer/token_type.rs:34; parser/element_type.rs:32
* `error` – lexer/token_type.rs:35; parser/element_type.rs:33
* `commentCfg` – lexer/mod.rs:14
* `singleCfg` – lexer/mod.rs:15
* `isDigit` – lexer/mod.rs:117, 124, 139
* `isHexDigit` – lexer/mod.rs:107
* `hexAhead` – lexer/mod.rs:103-105
* `hexNumber` – lexer/mod.rs:103-114
* `fraction` – lexer/mod.rs:123-128
* `exponentSign` – lexer/mod.rs:134-138
* `exponent` – lexer/mod.rs:131-141
* `decimal` – lexer/mod.rs:117-149
* `lexNumber` – lexer/mod.rs:94-150
* `word` – lexer/mod.rs:155-162
* `lexKeyword` – lexer/mod.rs:153-164
* `keyStart` – lexer/mod.rs:75, 170
* `keyChar` – lexer/mod.rs:172
* `lexBareKey` – lexer/mod.rs:167-178
* `punctuation` – lexer/mod.rs:184-192
* `lexOperator` – lexer/mod.rs:181-201
* `skipWhitespaceFast` – lexer/mod.rs:203-222
* `stringLoop` – lexer/mod.rs:231-245
* `lexStringFast` – lexer/mod.rs:224-249
* `lexOther` – lexer/mod.rs:73-84
* `lexWord` – lexer/mod.rs:63-69
* `arm` – lexer/mod.rs:47-85
* `run` – lexer/mod.rs:40-88
* `lex` – lexer/mod.rs:24-31
* `ign` – lexer/token_type.rs:42-44
* `notAtEnd` – state.rs:374-376
* `recordEof` – state.rs:319-324
* `skipLoop` – parser/mod.rs:176-185
* `skip` – parser/mod.rs:176-184
* `nodeKind` – parser/mod.rs:31-46
* `incrementalNode` – state.rs:629-641
* `openKind` – parser/mod.rs:133
* `closeKind` – parser/mod.rs:166
* `close` – parser/mod.rs:97-105, 166-173
* `Separated` – parser/mod.rs:75-90, 145-159
* `separator` – parser/mod.rs:75-90, 145-159
* `eatColon` – parser/mod.rs:119-121
* `atKey` – parser/mod.rs:110
* `parseValue` – parser/mod.rs:19-56
* `parseSeq` – parser/mod.rs:58-106
* `seqLoop` – parser/mod.rs:64-95, 134-164
* `parseEntry` – parser/mod.rs:108-126
* `parseRoot` – parser/mod.rs:191-213
* `parse` – parser/mod.rs:189-214; parser/mod.rs:77-120
* `JsonVal` – ast/mod.rs:29-42
* `trimMatches` – builder/mod.rs:105, 151, 173
* `textOf` – builder/mod.rs:32-33
* `isElement` – builder/mod.rs:89
* `isFieldValue` – builder/mod.rs:157
* `buildScalar` – builder/mod.rs:103-118
* `Found` – builder/mod.rs:139-141
* `fieldLeaf` – builder/mod.rs:165-178
* `fieldName` – builder/mod.rs:147-154
* `fieldDone` – builder/mod.rs:183-186
* `buildValue` – builder/mod.rs:59-133
* `buildElements` – builder/mod.rs:85-100
* `buildFields` – builder/mod.rs:67-79
* `buildFirst` – builder/mod.rs:119-130
* `buildField` – builder/mod.rs:144-181
* `buildRoot` – builder/mod.rs:49-57
* `build` – builder/mod.rs:22-45
* `joinComma` – ast/mod.rs:99, 103
* `stringSource` – ast/mod.rs:347-353
* `commaSource` – ast/mod.rs:265-267, 325-327
* `toText` – ast/mod.rs:91-106
* `toTexts` – ast/mod.rs:97-99
* `fieldTexts` – ast/mod.rs:101-103
* `toSource` – ast/mod.rs:217-228, 261-272, 289-295, 321-332, 347-353, 368-372, 387-391, 404-408
* `elementsSource` – ast/mod.rs:321-332
* `fieldsSource` – ast/mod.rs:261-272

### Model/JsonSerde.lean

* `STy` – serde.rs:18-135
* `SVar` – serde.rs:18-135
* `SVal` – serde.rs:18-135
* `keyText` – serde.rs:257-354
* `toValue` – serde.rs:10-12, 18-135
* `toValues` – serde.rs:145-148, 229-232
* `toFields` – serde.rs:210-213, 245-248
* `toEntries` – serde.rs:190-199
* `missing` – serde.rs:594-619
* `putNamed` – serde.rs:594-619
* `fromValue` – serde.rs:14-16
* `fromTuple` – serde.rs:569-581
* `fromOrder` – serde.rs:569-581
* `fromFields` – serde.rs:594-619
* `fromEnum` – serde.rs:621-643
* `fromVariant` – serde.rs:649-688
* `toStr` – examples/oak-json/src/lib.rs:49-53
* `fromStr` – examples/oak-json/src/lib.rs:55-59

### Model/LexAgain.lean

* `Entry` – examples/oak-java/src/lexer/mod.rs:16
* `firstEdit` – examples/oak-java/src/lexer/mod.rs:16; examples/oak-go/src/lexer/mod.rs:16; examples/oak-typescript/src/lexer/mod.rs:23-24; examples/oak-smalltalk/src/lexer/mod.rs:20-25; examples/oak-typescript/src/lexer/mod.rs:23
* `Entry.start` – examples/oak-java/src/lexer/mod.rs:16; oak-go/src/lexer/mod.rs:16; oak-typescript/src/lexer/mod.rs:23-24; oak-smalltalk/src/lexer/mod.rs:20-21
* `lexAgain` – examples/oak-go/src/lexer/mod.rs:15-22; oak-smalltalk/src/lexer/mod.rs:19-28; oak-msil/src/lexer/mod.rs:295-299

### Model/LexCode.lean

* `Uni` – examples/oak-d/src/lexer/mod.rs:128
* `CSet` – examples/oak-java/src/lexer/mod.rs:290
* `between` – examples/oak-java/src/lexer/mod.rs:290
* `isAlpha` – examples/oak-d/src/lexer/mod.rs:128
* `isNum` – examples/oak-go/src/lexer/mod.rs:115
* `isWhite` – projects/oak-core/src/lexer/scan_white_space.rs:15-26
* `CSet.has` – examples/oak-java/src/lexer/mod.rs:290
* `code` – lexer/mod.rs:395-397
* `uncode` – lexer/mod.rs:395-397
* `charLen` – lexer/mod.rs:413-415
* `Code` – examples/oak-java/src/lexer/mod.rs:31-78
* `Out` – lexer/mod.rs:387-389; lexer/mod.rs:395-397, 704-706; lexer/mod.rs:407-409; lexer/mod.rs:599-601; lexer/mod.rs:354-356; lexer/mod.rs:413-415; lexer/mod.rs:379-381; lexer/mod.rs:579-581; lexer/mod.rs:638-640; lexer/mod.rs:874-880; scan_white_space.rs:15-26; scan_comment.rs:18-51; scan_string.rs:17-91; lexer/mod.rs:971-984; examples/oak-java/src/lexer/mod.rs:31-78
* `LSt` – lexer/mod.rs:252-256
* `LSt.set` – examples/oak-java/src/lexer/mod.rs:31-78
* `turns` – examples/oak-java/src/lexer/mod.rs:31-78
* `exec` – lexer/mod.rs:354-984
* `scanAll` – examples/oak-java/src/lexer/mod.rs:15-22

### Model/Lexer.lean

* `Lex` – lexer/mod.rs:252-256
* `new` – lexer/mod.rs:268-270
* `pos` – lexer/mod.rs:379-381
* `notAtEnd` – lexer/mod.rs:387-389
* `rest` – lexer/mod.rs:354-356
* `peek` – lexer/mod.rs:395-397, 704-706
* `peekNextN` – lexer/mod.rs:407-409
* `advance` – lexer/mod.rs:413-415
* `bump` – lexer/mod.rs:714-718
* `peekByte` – lexer/mod.rs:431-433
* `advanceByte` – lexer/mod.rs:437-439
* `takeWhileByte` – lexer/mod.rs:445-447
* `skipAsciiWhitespace` – lexer/mod.rs:454-456
* `skipAsciiIdentContinue` – lexer/mod.rs:471-473
* `skipUntil` – lexer/mod.rs:480-482
* `startsWith` – lexer/mod.rs:599-601
* `consumeIf` – lexer/mod.rs:606-608
* `addToken` – lexer/mod.rs:638-640
* `addEof` – lexer/mod.rs:693-696
* `takeWhileLoop` – lexer/mod.rs:876-878
* `takeWhile` – lexer/mod.rs:874-880
* `advanceIfDeadLock` – lexer/mod.rs:971-984
* `guarded` – examples/oak-json/src/lexer/mod.rs:40-88
* `isIdentStart` – lexer/mod.rs:500
* `scanAsciiIdentifier` – lexer/mod.rs:497-508
* `scanLineComment` – lexer/mod.rs:519-527
* `blockCommentLoop` – lexer/mod.rs:543-550
* `scanBlockComment` – lexer/mod.rs:540-557
* `advanceWith` – lexer/mod.rs:794-798
* `CommentCfg` – scan_comment.rs:5-14
* `CommentCfg.loop` – scan_comment.rs:33-45
* `Lex.tryMarker` – scan_comment.rs:22, 30
* `CommentCfg.scan` – scan_comment.rs:18-51
* `StringCfg` – scan_string.rs:8-13
* `asByte` – scan_string.rs:25-30
* `StringCfg.fastLoop` – scan_string.rs:31-64
* `StringCfg.slowLoop` – scan_string.rs:71-86
* `charAscii` – scan_string.rs:24
* `StringCfg.scan` – scan_string.rs:17-91
* `skipSpace` – scan_white_space.rs:17
* `scanWhitespace` – scan_white_space.rs:15-26
* `Lex.newWithCache` – lexer/mod.rs:284-347; session.rs:105-119

### Model/LineMap.lean

* `LineMap` – line_map.rs:8-13
* `newlineStarts` – line_map.rs:38-45
* `lineMapLoop` – line_map.rs:35-47
* `LineMap.fromSource` – line_map.rs:29-50
* `LineMap.lineCount` – line_map.rs:53-55
* `LineMap.lineStart` – line_map.rs:58-60
* `LineMap.lineEnd` – line_map.rs:66-71
* `lenUtf16` – line_map.rs:88-140
* `LineMap.offsetToLineCol` – line_map.rs:88-99
* `colLoop` – line_map.rs:124-129
* `LineMap.lineColToOffset` – line_map.rs:113-131

### Model/Lsp.lean

* `splitSlash` – workspace.rs:77-94
* `components` – workspace.rs:77-94
* `pathStartsWith` – workspace.rs:77-94
* `Folders` – workspace.rs:8-15
* `addFolder` – workspace.rs:48-54
* `removeFolder` – workspace.rs:57-59
* `findRootLoop` – workspace.rs:81-91
* `findRoot` – workspace.rs:77-94
* `isWithinWorkspace` – workspace.rs:97-99
* `FsView` – oak-vfs/src/lib.rs:92-102
* `listLoop` – service.rs:136-145
* `listAllFiles` – service.rs:130-148
* `MemFs.view` – memory.rs:119-130

### Model/Mcp.lean

* `RpcVal` – oak-mcp/src/lib.rs:12
* `RpcVal.get` – oak-mcp/src/lib.rs:184
* `RpcVal.asStr` – oak-mcp/src/lib.rs:184
* `RpcVal.asU64` – oak-mcp/src/lib.rs:223
* `RpcRequest` – oak-mcp/src/lib.rs:20-29
* `rpcField` – oak-mcp/src/lib.rs:19-29
* `rpcOptional` – oak-mcp/src/lib.rs:28
* `rpcRequestOf` – oak-mcp/src/lib.rs:31-36
* `RpcResponse` – oak-mcp/src/lib.rs:39-51
* `McpWorld` – oak-mcp/src/lib.rs:90-96
* `mcpUri` – oak-mcp/src/lib.rs:222, 229, 236, 243, 250, 255
* `mcpOffset` – oak-mcp/src/lib.rs:223, 237, 244, 256
* `mcpTool` – oak-mcp/src/lib.rs:219-270
* `mcpHello` – oak-mcp/src/lib.rs:154-165
* `mcpContent` – oak-mcp/src/lib.rs:191-198
* `mcpRequest` – oak-mcp/src/lib.rs:149-206
* `isUniWhite` – oak-mcp/src/lib.rs:126
* `uniTrim` – oak-mcp/src/lib.rs:126
* `readLine` – oak-mcp/src/lib.rs:125
* `mcpLoop` – oak-mcp/src/lib.rs:125-144
* `mcpRun` – oak-mcp/src/lib.rs:117-147

### Model/Parser.lean

* `Tok` – lexer/mod.rs:178-210
* `Tok.length` – lexer/mod.rs:207-209
* `Entry` – state.rs:84-87
* `PErr` – state.rs:209
* `Inc` – state.rs:138-143
* `PState` – state.rs:198-212
* `PState.peekAt` – state.rs:53-56
* `PState.current` – state.rs:48-50
* `PState.peekKind` – state.rs:336-338
* `PState.pushLeaf` – state.rs:96-98
* `PState.tokenAdvance` – state.rs:60-62
* `skipTriviaLoop` – state.rs:397-407
* `PState.skipTrivia` – state.rs:397-407
* `PState.advance` – state.rs:391-394
* `PState.new` – state.rs:232-242
* `PState.currentOffset` – state.rs:273-275
* `PState.record` – state.rs:278-309
* `peekNonTriviaLoop` – state.rs:347-359
* `PState.peekNonTriviaAt` – state.rs:347-362
* `PState.atKind` – state.rs:380-382
* `PState.bump` – state.rs:424-429
* `PState.eat` – state.rs:433-441
* `PState.expect` – state.rs:445-454
* `advanceUntilLoop` – state.rs:410-414
* `PState.advanceUntil` – state.rs:410-414
* `PState.checkpoint` – state.rs:493-495
* `PState.restore` – state.rs:498-501, 122-124
* `PState.finishAt` – state.rs:504-506
* `PState.pushChild` – state.rs:525-527
* `Entry.isNodeAt` – state.rs:514-517
* `findNodeRev` – state.rs:512-520
* `PState.checkpointBefore` – state.rs:509-522
* `PState.tryParse` – state.rs:457-487
* `byStart` – state.rs:149
* `processEdits` – state.rs:151-159
* `Inc.new` – state.rs:147-162
* `toUsize` – state.rs:164-184
* `mapLoop` – state.rs:164-184
* `Inc.mapNewToOld` – state.rs:164-184
* `Inc.isDirty` – state.rs:186-194
* `tokenScan` – state.rs:565-589
* `reuseHere` – state.rs:557-592
* `reuseMove` – state.rs:593-609
* `reuseLoop` – state.rs:550-615
* `PState.tryReuse` – state.rs:531-616
* `PState.setIncremental` – state.rs:266-268

### Model/Pratt.lean

* `Assoc` – pratt.rs:5-12
* `OpTable` – pratt.rs:204-208
* `nextPrec` – pratt.rs:112-116
* `prattPrimary` – pratt.rs:196-200
* `prattBinary` – pratt.rs:102-120
* `prattInfix` – pratt.rs:202-211
* `prattWhile` – pratt.rs:239-242
* `prattParse` – pratt.rs:237-243
* `pratt` – oak-core/src/parser/pratt.rs:237-243

### Model/Printer.lean

* `LineEnding` – config/mod.rs:22-29
* `FormatConfig` – config/mod.rs:40-63
* `FormatConfig.ending` – config/mod.rs:120-132
* `IndentStyle` – config/mod.rs:6-11
* `FormatConfig.withIndentStyle` – config/mod.rs:96-105
* `FormatConfig.default` – config/mod.rs:65-87
* `Doc` – document/mod.rs:11-30
* `docJoinLoop` – document/mod.rs:107-113
* `docJoin` – document/mod.rs:103-115
* `Printer` – printer.rs:5-10
* `Printer.new` – printer.rs:14-16
* `trimEnd` – printer.rs:86-88; printer.rs:27
* `Printer.writeIndent` – printer.rs:95-99
* `Printer.newline` – printer.rs:84-93
* `checkWidth` – printer.rs:107-144
* `checkWidthAll` – printer.rs:119-124
* `Printer.willBreak` – printer.rs:102-105
* `Printer.put` – printer.rs:37-40
* `render` – printer.rs:34-82
* `renderAll` – printer.rs:42-44
* `finalize` – printer.rs:25-32
* `printDoc` – printer.rs:19-23; document/mod.rs:78-80

### Model/Prog.lean

* `View` – state.rs:198-212
* `kindAt` – state.rs:363-365
* `solidAt` – state.rs:347-359, 368-370
* `textBetween` – parser/mod.rs:29
* `text` – state.rs:251-253; parser/mod.rs:117
* `textIs` – parser/parse_top_level.rs:116
* `offset` – state.rs:273-275
* `Prog` – parser/mod.rs:27-70
* `Out` – parser/mod.rs:72; state.rs:380-382; state.rs:385-387; parser/parse_top_level.rs:21; state.rs:424-429; state.rs:391-394; state.rs:433-441; state.rs:445-454; state.rs:445-454; parser/parse_top_level.rs:25-27; parser/parse_top_level.rs:62; state.rs:504-506; state.rs:493-495; state.rs:629-641; parser/parse_top_level.rs:132; state.rs:525-527; parser/mod.rs:108; state.rs:509-522; parser/pratt.rs:110; parser/mod.rs:31-36; parser/mod.rs:28-40; parser/mod.rs:33-35; parser/parse_top_level.rs:44; parser/parse_top_level.rs:15; parser/mod.rs:28; parser/mod.rs:65; parser/mod.rs:39; parser/parse_top_level.rs:34-52
* `Loc` – parser/parse_top_level.rs:121-122
* `view` – state.rs:198-212
* `turns` – parser/mod.rs:33-35
* `_root_.Oaks.PState.lastMade` – state.rs:127-134
* `exec` – state.rs:336-506
* `calls` – parser/mod.rs:51-72
* `and_` – parser/mod.rs:33
* `or_` – parser/mod.rs:61
* `not_` – parser/mod.rs:33
* `when_` – parser/mod.rs:44-46
* `close` – parser/mod.rs:36
* `seesAny` – parser/mod.rs:31
* `block` – parser/mod.rs:31-36
* `trivia` – state.rs:397-407; parser/mod.rs:23-33; state.rs:198-212, 391-429
* `level` – parser/mod.rs:229-231
* `record` – state.rs:285-295
* `recordEnd` – state.rs:312-316
* `HandParser` – language/mod.rs:298-300; parser/parse_top_level.rs:10
* `begins` – parser/parse_top_level.rs:10; parser/mod.rs:78
* `done` – parser/mod.rs:87
* `parse` – parser/mod.rs:77-120

### Model/Prs.lean

* `Prs` – parser/parse_top_level.rs:11-36
* `sees` – parser/parse_top_level.rs:38-50; state.rs:380-382
* `kind` – state.rs:336-338
* `more` – state.rs:385-387
* `bump` – state.rs:424-429
* `advance` – state.rs:391-394
* `eat` – state.rs:433-441
* `want` – state.rs:445-454
* `need` – state.rs:445-454
* `report` – state.rs:209
* `fail` – parser/parse_top_level.rs:66
* `node` – state.rs:493-506
* `turns` – parser/parse_top_level.rs:56-77
* `loop_` – parser/parse_top_level.rs:56-77
* `while_` – parser/parse_top_level.rs:116-123
* `parse` – parser/mod.rs:77-120

### Model/ReadText.lean

* `withKinds` – projects/oak-core/src/lexer/mod.rs:638-640
* `readText` – projects/oak-core/src/parser/mod.rs:77-120

### Model/Regex.lean

* `eof` – lexer/token_type.rs:8-60
* `pattern` – parser/element_type.rs:9-61
* `pipe` – lexer/token_type.rs:8-60
* `question` – lexer/token_type.rs:8-60
* `star` – lexer/token_type.rs:8-60
* `plus` – lexer/token_type.rs:8-60
* `lbrace` – lexer/token_type.rs:8-60
* `rbrace` – lexer/token_type.rs:8-60
* `comma` – lexer/token_type.rs:8-60
* `lparen` – lexer/token_type.rs:8-60
* `rparen` – lexer/token_type.rs:8-60
* `lbrack` – lexer/token_type.rs:8-60
* `rbrack` – lexer/token_type.rs:8-60
* `hat` – lexer/token_type.rs:8-60
* `dollar` – lexer/token_type.rs:8-60
* `dot` – lexer/token_type.rs:8-60
* `backslash` – lexer/token_type.rs:8-60
* `character` – lexer/token_type.rs:8-60
* `digit` – lexer/token_type.rs:8-60
* `whitespace` – lexer/token_type.rs:8-60
* `comment` – lexer/token_type.rs:8-60
* `error` – lexer/token_type.rs:8-60
* `skipWhitespace` – lexer/lex.rs:61-66
* `skipComment` – lexer/lex.rs:69-85
* `oneMore` – lexer/lex.rs:117-121, 225-229
* `classTurn` – lexer/lex.rs:105-129
* `negation` – lexer/lex.rs:99-103
* `classRest` – lexer/lex.rs:97-129
* `lexClass` – lexer/lex.rs:88-133
* `braceTurn` – lexer/lex.rs:157-177
* `braceRest` – lexer/lex.rs:154-177
* `lexQuantifier` – lexer/lex.rs:136-183
* `single` – lexer/lex.rs:186-200, 202-217, 236-244, 260-268
* `lexEscape` – lexer/lex.rs:220-233
* `notPlain` – lexer/lex.rs:250, 270-276
* `lexCharacter` – lexer/lex.rs:247-257
* `step` – lexer/lex.rs:11-58
* `lex` – lexer/mod.rs:61-70
* `ign` – lexer/token_type.rs:68-70
* `classLoop` – parser/mod.rs:49-51
* `primary` – parser/mod.rs:29-60
* `prefix_` – parser/mod.rs:62-78
* `quantify` – parser/mod.rs:96-101
* `infix_` – parser/mod.rs:80-104
* `whileInfix` – parser/pratt.rs:239-242
* `expr` – parser/pratt.rs:237-243
* `parseTokens` – parser/mod.rs:115-119; parser/mod.rs:77-120
* `parse` – parser/mod.rs:107-112
* `Element` – ast/mod.rs:42-58
* `Pat` – ast/mod.rs:21-28
* `buildElement` – builder/mod.rs:118-134
* `buildElements` – builder/mod.rs:88-112
* `buildPattern` – builder/mod.rs:84-115
* `buildRoot` – builder/mod.rs:60-78
* `buildTokens` – builder/mod.rs:30-52
* `build` – builder/mod.rs:30-52

### Model/Repl.lean

* `LineBuf` – oak-repl/src/lib.rs:92-99
* `LineBuf.new` – oak-repl/src/lib.rs:103-105
* `strInsert` – oak-repl/src/lib.rs:109
* `strRemove` – oak-repl/src/lib.rs:116
* `LineBuf.insert` – oak-repl/src/lib.rs:108-111
* `LineBuf.backspace` – oak-repl/src/lib.rs:114-131
* `joinLines` – oak-repl/src/lib.rs:135
* `LineBuf.fullText` – oak-repl/src/lib.rs:134-136
* `LineBuf.isEmpty` – oak-repl/src/lib.rs:146-148
* `Key` – oak-repl/src/lib.rs:190-252
* `Handler` – oak-repl/src/lib.rs:68-89
* `ReplState` – oak-repl/src/lib.rs:166-173
* `insertSpaces` – oak-repl/src/lib.rs:233-235
* `replKey` – oak-repl/src/lib.rs:189-253
* `replRun` – oak-repl/src/lib.rs:173-254

### Model/Rules.lean

* `rulesLe` – rules/mod.rs:70
* `addRule` – rules/mod.rs:59-73
* `addRules` – rules/mod.rs:76-81
* `applicableRules` – rules/mod.rs:84-86
* `applyLoop` – rules/mod.rs:95-100
* `applyRules` – rules/mod.rs:94-101

### Model/Scan.lean

* `Scn` – lexer/mod.rs:252-260, 395-640; lexer/mod.rs:75-300
* `Next` – lexer/mod.rs:395-397, 704-706; lexer/mod.rs:407-409; lexer/mod.rs:599-601; lexer/mod.rs:413-415; lexer/mod.rs:589-591; lexer/mod.rs:579-581; lexer/mod.rs:638-640; lexer/mod.rs:874-880; scan_white_space.rs:15-26; scan_string.rs:17-91; scan_comment.rs:18-51; lexer/lex.rs:88-133; lexer/mod.rs:37-75
* `bind` – lexer/mod.rs:97-116
* `loopRun` – lexer/mod.rs:126-140
* `run` – lexer/mod.rs:395-640
* `drive` – lexer/mod.rs:37-75; lexer/mod.rs:971-979
* `lex` – examples/oak-ini/src/lexer/mod.rs:21-28
* `look` – lexer/mod.rs:395-397
* `lookN` – lexer/mod.rs:407-409
* `sees` – lexer/mod.rs:599-601
* `skip` – lexer/mod.rs:413-415
* `word` – lexer/mod.rs:589-591
* `hasMoved` – lexer/mod.rs:88
* `back` – lexer/mod.rs:579-581
* `here` – lexer/mod.rs:77
* `tok` – lexer/mod.rs:638-640
* `eatWhile` – lexer/mod.rs:874-880
* `covered` – lexer/lex.rs:88-133
* `while_` – lexer/mod.rs:126-140
* `peekTurn` – lexer/mod.rs:79-86
* `whilePeek` – lexer/mod.rs:79-86
* `firstOf` – lexer/mod.rs:41-70

### Model/Session.lean

* `Session` – session.rs:31-40
* `Session.new` – session.rs:53-55
* `Session.prepare` – session.rs:84-92
* `Session.commit` – session.rs:94-97
* `Session.oldTree` – session.rs:69-78
* `Session.parse` – parser/mod.rs:77-120
* `Session.owns` – session.rs:33-35
* `Session.parses` – session.rs:84-98

### Model/Simd.lean

* `LANES` – simd.rs:12
* `firstSet` – simd.rs:20
* `lanesAt` – simd.rs:17
* `findTail` – simd.rs:26-32, 239-246
* `findLoop` – simd.rs:15-23, 224-237
* `skipTail` – simd.rs:56-62
* `skipLoop` – simd.rs:42-54
* `untilLoop` – simd.rs:256-265
* `findByte` – simd.rs:9-33
* `skipByte` – simd.rs:37-63
* `skipTwoBytes` – simd.rs:67-94
* `skipAsciiWhitespace` – simd.rs:98-125
* `skipAsciiDigits` – simd.rs:129-154
* `skipAsciiIdentContinue` – simd.rs:158-185
* `skipAsciiHexdigits` – simd.rs:189-215
* `findFirstOf4` – simd.rs:219-247
* `skipUntil` – simd.rs:251-274

### Model/Source.lean

* `Chunk` – source/mod.rs:30-35
* `Chunk.stop` – source/mod.rs:40-42
* `Chunk.sliceFrom` – source/mod.rs:46-52
* `Source` – source/mod.rs:88-134
* `strChunkAt` – source/mod.rs:206-212
* `strSource` – source/mod.rs:201-217
* `textChunkAt` – source/text.rs:31-37
* `textSource` – source/text.rs:15-18
* `CHUNK_SIZE` – rope.rs:6; streaming.rs:6
* `backoff` – rope.rs:221-223
* `chunkEndAt` – rope.rs:220-226
* `chunkifyLoop` – rope.rs:219-230
* `chunkify` – rope.rs:213-232; streaming.rs:109-128
* `rebuildStartsFrom` – rope.rs:203-211
* `rebuildStarts` – rope.rs:203-211
* `chunkIdx` – rope.rs:185-189, 241-250
* `segOf` – rope.rs:261-269
* `segLoop` – rope.rs:260-269
* `textInChunks` – rope.rs:234-271; streaming.rs:130-167
* `Table` – rope.rs:10-24; streaming.rs:8-24
* `Table.chunkAt` – rope.rs:181-192; streaming.rs:60-71, 87-98
* `Table.source` – rope.rs:176-199; streaming.rs:55-80; streaming.rs:82-100
* `Table.chunkIndex` – rope.rs:144-151
* `Table.bufferChunkAt` – rope.rs:159-165
* `Table.bufferSource` – rope.rs:154-174
* `Table.ofChunks` – rope.rs:37-38, 100-102, 129-131
* `ropeNew` – rope.rs:28-39
* `Table.splitAt` – rope.rs:105-132
* `Table.boundaryIndex` – rope.rs:134-142
* `Table.replaceRange` – rope.rs:81-103
* `chunkedNew` – streaming.rs:28-35
* `chunkedPushAll` – streaming.rs:42-46
* `chunkedPush` – streaming.rs:38-47
* `Edit` – source/mod.rs:73-78
* `sortEdits` – text.rs:71-72; rope.rs:53-54
* `editRangeLoop` – text.rs:74-85; rope.rs:56-66
* `strReplace` – text.rs:90
* `strApplyRev` – text.rs:88-91
* `textApplyEdits` – text.rs:65-95
* `Table.applyRev` – rope.rs:68-71
* `Table.applyEdits` – rope.rs:47-74

### Model/SourceBuffer.lean

* `SBuf` – buffer.rs:18-21
* `SBuf.new` – buffer.rs:31-33
* `isWordOpt` – buffer.rs:54-56
* `SBuf.push` – buffer.rs:36-46
* `SBuf.pushAll` – buffer.rs:49-51

### Model/SourceRuns.lean

* `chunkedRun` – streaming.rs:28-47
* `ropeRun` – rope.rs:47-74
* `textRun` – text.rs:65-95
* `readChunks` – source/mod.rs:30-53

### Model/Svg.lean

* `SvgCfg` – render/mod.rs:12-28
* `SvgCfg.std` – render/mod.rs:30-50
* `ElStyle` – render/mod.rs:54-63
* `attrText` – render/mod.rs:140-270
* `openTag` – render/mod.rs:140-270
* `styleAttrs` – render/mod.rs:206-216, 256-266
* `textElem` – render/mod.rs:226-230, 284-294
* `renderNode` – render/mod.rs:193-235
* `pathData` – render/mod.rs:246-251
* `renderEdge` – render/mod.rs:237-298
* `svgBounds` – render/mod.rs:300-320
* `styleSheet` – render/mod.rs:151-154
* `markerText` – render/mod.rs:158-173
* `renderLayout` – render/mod.rs:134-191

### Model/Toml.lean

* `whitespace` – token_type.rs:8
* `comment` – token_type.rs:10
* `basicString` – token_type.rs:14
* `literalString` – token_type.rs:15
* `integer` – token_type.rs:16
* `float` – token_type.rs:17
* `boolean` – token_type.rs:18
* `bareKey` – token_type.rs:26
* `equal` – token_type.rs:29
* `dot` – token_type.rs:30
* `comma` – token_type.rs:31
* `leftBrace` – token_type.rs:32
* `rightBrace` – token_type.rs:33
* `leftBracket` – token_type.rs:34
* `rightBracket` – token_type.rs:35
* `doubleLeftBracket` – token_type.rs:36
* `doubleRightBracket` – token_type.rs:37
* `eof` – token_type.rs:41
* `isBlank` – lexer/mod.rs:39, 79
* `isDigit` – lexer/mod.rs:48, 175
* `isLetter` – lexer/mod.rs:54, 276
* `keyChar` – lexer/mod.rs:282
* `skipWhitespace` – lexer/mod.rs:75-94
* `skipComment` – lexer/mod.rs:97-116
* `basicTurn` – lexer/mod.rs:126-140
* `literalTurn` – lexer/mod.rs:151-157
* `lexString` – lexer/mod.rs:119-166
* `numberTail` – lexer/mod.rs:181-199
* `lexNumber` – lexer/mod.rs:169-200
* `lexPunctuation` – lexer/mod.rs:203-271
* `lexIdentifier` – lexer/mod.rs:274-300
* `step` – lexer/mod.rs:36-72
* `lex` – lexer/mod.rs:20-27
* `parser` – parser/mod.rs:20-33; language/mod.rs:298-300; token_type.rs:52-54; token_type.rs:42
* `parse` – parser/mod.rs:20-33

### Model/Tree.lean

* `Green` – green_tree.rs:17-22, 111-121, 198-205
* `Green.len` – green_tree.rs:69-74
* `addU32` – green_tree.rs:246
* `sumLen` – green_tree.rs:246
* `Green.mkNode` – green_tree.rs:245-248
* `RedNode` – red_tree.rs:122-127
* `Red` – red_tree.rs:17-22, 155-160
* `Red.ofGreen` – red_tree.rs:257-260, 331-334
* `RedNode.span` – red_tree.rs:214-216
* `Red.span` – red_tree.rs:59-64
* `prevLen` – red_tree.rs:252-255
* `RedNode.childAt` – red_tree.rs:247-261
* `RedChildren` – red_tree.rs:322-339
* `RedNode.childIter` – red_tree.rs:264-266
* `RedChildren.next` – red_tree.rs:322-339
* `RedChildren.collect` – red_tree.rs:322-339
* `childIndexLoop` – red_tree.rs:281-289
* `RedNode.childIndexAtOffset` – red_tree.rs:273-290
* `RedNode.childAtOffset` – red_tree.rs:297-299
* `RedNode.leafAtOffset` – red_tree.rs:308-316
* `Frame` – cursor.rs:22-24
* `TreeCur` – cursor.rs:17-25
* `TreeCur.new` – cursor.rs:29-31
* `TreeCur.stepInto` – cursor.rs:68-83
* `TreeCur.stepOver` – cursor.rs:87-108
* `TreeCur.stepOut` – cursor.rs:112-121
* `TreeCur.outOver` – cursor.rs:132-137, 147-152
* `TreeCur.step` – cursor.rs:125-138
* `TreeCur.stepNext` – cursor.rs:142-154
* `TreeOp` – tree/cursor.rs:68-154
* `TreeCur.apply` – tree/cursor.rs:68-154
* `TreeCur.visit` – tree/cursor.rs:125-138
* `pushRev` – visitor/mod.rs:53-59
* `preNext` – visitor/mod.rs:45-63
* `preCollect` – visitor/mod.rs:45-63
* `walkChild` – visitor/mod.rs:21-24
* `walkLeaves` – visitor/mod.rs:19-26
* `deepClone` – parser/state.rs:17-26
* `deepCloneList` – parser/state.rs:18-23

### Model/TreeLayout.lean

* `VTree` – tree/mod.rs:21-28
* `VTree.depth` – tree/mod.rs:59-61
* `depths` – tree/mod.rs:60
* `VTree.nodeCount` – tree/mod.rs:63-65
* `nodeCounts` – tree/mod.rs:64
* `VTree.leafCount` – tree/mod.rs:67-69
* `leafCounts` – tree/mod.rs:68
* `nodeId` – tree/mod.rs:15-17
* `VTree.ofGreen` – tree/mod.rs:79-92
* `VTree.ofGreens` – tree/mod.rs:84-86
* `TreeCfg` – tree/mod.rs:426-432
* `TreeCfg.std` – tree/mod.rs:434-438
* `TreeCfg.sizeOf` – tree/mod.rs:301-303
* `Place` – tree/mod.rs:177
* `Entries` – tree/mod.rs:177; layout/mod.rs:37
* `putEntry` – tree/mod.rs:331, 405; layout/mod.rs:48, 53
* `levelWidths` – tree/mod.rs:305-313
* `levelWidthsAll` – tree/mod.rs:310-312
* `positionLayered` – tree/mod.rs:315-337
* `positionLayeredAll` – tree/mod.rs:334-336
* `PTree` – tree/mod.rs:451-459
* `PTree.subtreeWidth` – tree/mod.rs:457
* `positionCompact` – tree/mod.rs:362-379
* `positionCompactAll` – tree/mod.rs:367-371
* `extractPositions` – tree/mod.rs:404-410
* `extractAll` – tree/mod.rs:407-409
* `NodeType` – layout/mod.rs:172-180
* `nodeType` – tree/mod.rs:190-195, 252-257
* `LNode` – layout/mod.rs:26-31
* `LEdge` – layout/mod.rs:92-97
* `Lay` – layout/mod.rs:35-39
* `Rct.dflt` – geometry/mod.rs:204-208
* `Lay.new` – layout/mod.rs:42-44
* `boundsLoop` – layout/mod.rs:67-78
* `Lay.updateBounds` – layout/mod.rs:61-81
* `Lay.addNode` – layout/mod.rs:52-55
* `Lay.addEdge` – layout/mod.rs:57-59
* `Lay.addPlaces` – tree/mod.rs:188-197, 250-259
* `LEdge.new` – layout/mod.rs:100-102
* `VTree.id` – tree/mod.rs:22
* `addTreeEdges` – tree/mod.rs:413-421
* `addTreeEdgesAll` – tree/mod.rs:414-420
* `layeredLayout` – tree/mod.rs:175-203
* `compactLayout` – tree/mod.rs:240-264

### Model/Vfs.lean

* `FileEntry` – memory.rs:34-38
* `MemFs` – memory.rs:17-26
* `MemFs.new` – memory.rs:42-44
* `MemFs.write` – memory.rs:47-64
* `MemFs.remove` – memory.rs:67-76
* `MemFs.getSource` – memory.rs:96-99
* `MemFs.getUri` – memory.rs:102-105
* `MemFs.getId` – memory.rs:108-111
* `MemFs.exist` – memory.rs:114-116
* `MemFs.metadataLen` – memory.rs:119-122
* `VfsWrite` – memory.rs:47-80
* `VfsRead` – memory.rs:95-122
* `VfsAnswer` – memory.rs:95-122
* `MemFs.apply` – memory.rs:47-80
* `MemFs.applyAll` – memory.rs:47-80
* `MemFs.answer` – memory.rs:95-122
* `Body` – memory.rs:53-75
* `Pc` – memory.rs:53, 56; memory.rs:57; memory.rs:58; memory.rs:63; memory.rs:72; memory.rs:73; memory.rs:47-122
* `VfsRead.lock` – memory.rs:97, 103, 109, 115, 120
* `RwLock` – memory.rs:17-26
* `bodyStep` – memory.rs:53-63; memory.rs:72-75
* `VfsSys` – memory.rs:17-26
* `VfsSys.new` – memory.rs:42-44
* `VfsEvent` – memory.rs:47-122
* `setPc` – memory.rs:47-122
* `setLock` – memory.rs:47-122
* `VfsStep` – memory.rs:47-122
* `VfsExec` – memory.rs:42-44

### Model/Visit.lean

* `visitChild` – visitor/mod.rs:21-24
* `visitWith` – visitor/mod.rs:19-26

### Model/Xml.lean

* `whitespace` – lexer/token_type.rs:27
* `comment` – lexer/token_type.rs:29
* `text` – lexer/token_type.rs:30
* `error` – lexer/token_type.rs:31
* `doctype` – lexer/token_type.rs:36
* `instruction` – lexer/token_type.rs:37
* `cdata` – lexer/token_type.rs:38
* `stringLiteral` – lexer/token_type.rs:50
* `leftAngle` – lexer/token_type.rs:53
* `rightAngle` – lexer/token_type.rs:54
* `leftAngleSlash` – lexer/token_type.rs:55
* `slashRightAngle` – lexer/token_type.rs:56
* `equals` – lexer/token_type.rs:57
* `quote` – lexer/token_type.rs:58
* `singleQuote` – lexer/token_type.rs:59
* `exclamation` – lexer/token_type.rs:60
* `question` – lexer/token_type.rs:61
* `ampersand` – lexer/token_type.rs:62
* `semicolon` – lexer/token_type.rs:63
* `entityReference` – lexer/token_type.rs:66
* `characterReference` – lexer/token_type.rs:67
* `identifier` – lexer/token_type.rs:70
* `commentCfg` – lexer/mod.rs:18
* `stringCfg` – lexer/mod.rs:20
* `isLetter` – lexer/mod.rs:375
* `isAlnum` – lexer/mod.rs:338, 379
* `nameStart` – lexer/mod.rs:375
* `nameChar` – lexer/mod.rs:379
* `textStop` – lexer/mod.rs:440
* `wordAhead` – lexer/mod.rs:111-123, 177-189
* `ahead` – lexer/mod.rs:105-106, 172-189, 196-198, 227-228, 233-234
* `doctypeLoop` – lexer/mod.rs:129-158
* `lexDoctype` – lexer/mod.rs:102-168
* `closeLoop` – lexer/mod.rs:195-211; lexer/mod.rs:232-246
* `lexCdata` – lexer/mod.rs:170-221
* `lexInstruction` – lexer/mod.rs:223-255
* `lexOpen` – lexer/mod.rs:261-271
* `single` – lexer/mod.rs:282-291, 400-424
* `lexSlash` – lexer/mod.rs:272-281
* `lexTagStart` – lexer/mod.rs:257-294
* `reference` – lexer/mod.rs:309-328, 331-334
* `charReference` – lexer/mod.rs:307-328
* `anyReference` – lexer/mod.rs:302-355
* `lexReference` – lexer/mod.rs:296-359
* `lexName` – lexer/mod.rs:365-392
* `singleKind` – lexer/mod.rs:397-426
* `lexSingle` – lexer/mod.rs:394-428
* `lexText` – lexer/mod.rs:430-455
* `scanners` – lexer/mod.rs:46-88
* `firstOf` – lexer/mod.rs:46-88
* `run` – lexer/mod.rs:42-93
* `lex` – lexer/mod.rs:23-31
* `root` – parser/element_type.rs:8
* `prolog` – parser/element_type.rs:9
* `element` – parser/element_type.rs:10
* `startTag` – parser/element_type.rs:11
* `endTag` – parser/element_type.rs:12
* `selfClosingTag` – parser/element_type.rs:13
* `attributeNode` – parser/element_type.rs:14
* `ign` – lexer/token_type.rs:11-13
* `skipLoop` – parse_top_level.rs:125-135
* `skip` – parse_top_level.rs:125-135
* `andThen` – parse_top_level.rs:16, 22, 34-50, 60-84, 94, 103-107, 116-120
* `finish` – parse_top_level.rs:51-52, 79-81, 108-111, 121-122
* `parseAttribute` – parse_top_level.rs:114-123
* `attributesLoop` – parse_top_level.rs:38-46, 64-72
* `parseProlog` – parse_top_level.rs:32-53
* `parseTagHead` – parse_top_level.rs:58-74
* `parseEndTag` – parse_top_level.rs:101-111
* `parseElement` – parse_top_level.rs:55-112
* `contentLoop` – parse_top_level.rs:87-99
* `rootLoop` – parse_top_level.rs:19-27
* `parseRoot` – parse_top_level.rs:11-30
* `parse` – parser/mod.rs:24-27; parser/mod.rs:77-120
* `XmlAttr` – ast/mod.rs:41-46
* `XmlVal` – ast/mod.rs:20-27
* `unquote` – builder/mod.rs:112-119
* `attributeLoop` – builder/mod.rs:104-129
* `buildAttribute` – builder/mod.rs:99-132
* `tagLoop` – builder/mod.rs:60-72
* `Found` – builder/mod.rs:50-52
* `Found.value` – builder/mod.rs:96
* `elementLeaf` – builder/mod.rs:81-93
* `buildElement` – builder/mod.rs:49-97
* `elementLoop` – builder/mod.rs:55-94
* `rootKids` – builder/mod.rs:24-42
* `buildRoot` – builder/mod.rs:20-47
* `build` – builder/mod.rs:136-150
* `fromText` – lib.rs:62-70
* `attrsText` – ast/mod.rs:94-96
* `commentText` – ast/mod.rs:75
* `cdataText` – ast/mod.rs:76
* `instructionText` – ast/mod.rs:77-84
* `elementText` – ast/mod.rs:92-108
* `toText` – ast/mod.rs:72-110
* `kidsText` – ast/mod.rs:85-91, 102-104

### Model/XmlSerde.lean

* `node` – serde.rs:139, 231, 241, 246, 297, 307, 315
* `keyText` – serde.rs:333-430
* `rename` – serde.rs:290-299, 302-308
* `putField` – serde.rs:266-312
* `andThen` – serde.rs:138, 185, 226, 240, 262, 268
* `toXml` – serde.rs:41-43, 49-174
* `toXmls` – serde.rs:184-187, 225-228
* `toFields` – serde.rs:323-326
* `toVariant` – serde.rs:239-243
* `toEntries` – serde.rs:261-312
* `addTo` – serde.rs:673-679, 682-687
* `addChild` – serde.rs:670-690
* `entryVal` – serde.rs:696-704
* `mapOf` – serde.rs:662-711
* `plain` – serde.rs:554
* `readText` – serde.rs:547-577
* `listOf` – serde.rs:608-617
* `readKey` – serde.rs:723
* `fromXml` – serde.rs:45-47
* `fromTuple` – serde.rs:750-762
* `fromOrder` – serde.rs:750-762
* `fromFields` – serde.rs:714-738
* `fromEnum` – serde.rs:764-786
* `fromVariant` – serde.rs:788-828
* `toStr` – examples/oak-xml/src/lib.rs:50-54
* `fromStr` – examples/oak-xml/src/lib.rs:56-60
