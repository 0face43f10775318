import Verif.Model.Lexer
import Verif.Model.Json

/-
Model of `examples/oak-xml/src`: the lexer (lexer/mod.rs), the parser (parser/parse_top_level.rs), the builder
(builder/mod.rs), `XmlValue` and its `to_string` (ast/mod.rs), `parse` (lib.rs).

Simplifications: token and element kinds are numbers (their position in the enumeration); `bracket_depth` is an unbounded
integer instead of an `i32`; `ws` is `char::is_whitespace`. The red-tree helpers of `XmlNodeExt` (ast/mod.rs:116-230) are
not modelled.
-/
namespace Oaks

namespace Xml

/-! ### Token kinds (lexer/token_type.rs) -/

/-- `Whitespace` (lexer/token_type.rs:27). -/
def whitespace : Nat := 1
/-- `Comment` (lexer/token_type.rs:29). -/
def comment : Nat := 3
/-- `Text` (lexer/token_type.rs:30). -/
def text : Nat := 4
/-- `Error` (lexer/token_type.rs:31), also `END_OF_STREAM`. -/
def error : Nat := 5
/-- `DoctypeDeclaration` (lexer/token_type.rs:36). -/
def doctype : Nat := 8
/-- `ProcessingInstruction` (lexer/token_type.rs:37). -/
def instruction : Nat := 9
/-- `CData` (lexer/token_type.rs:38). -/
def cdata : Nat := 10
/-- `StringLiteral` (lexer/token_type.rs:50). -/
def stringLiteral : Nat := 17
/-- `LeftAngle` (lexer/token_type.rs:53). -/
def leftAngle : Nat := 18
/-- `RightAngle` (lexer/token_type.rs:54). -/
def rightAngle : Nat := 19
/-- `LeftAngleSlash` (lexer/token_type.rs:55). -/
def leftAngleSlash : Nat := 20
/-- `SlashRightAngle` (lexer/token_type.rs:56). -/
def slashRightAngle : Nat := 21
/-- `Equals` (lexer/token_type.rs:57). -/
def equals : Nat := 22
/-- `Quote` (lexer/token_type.rs:58). -/
def quote : Nat := 23
/-- `SingleQuote` (lexer/token_type.rs:59). -/
def singleQuote : Nat := 24
/-- `Exclamation` (lexer/token_type.rs:60). -/
def exclamation : Nat := 25
/-- `Question` (lexer/token_type.rs:61). -/
def question : Nat := 26
/-- `Ampersand` (lexer/token_type.rs:62). -/
def ampersand : Nat := 27
/-- `Semicolon` (lexer/token_type.rs:63). -/
def semicolon : Nat := 28
/-- `EntityReference` (lexer/token_type.rs:66). -/
def entityReference : Nat := 29
/-- `CharacterReference` (lexer/token_type.rs:67). -/
def characterReference : Nat := 30
/-- `Identifier` (lexer/token_type.rs:70). -/
def identifier : Nat := 31

/-! ### Lexer (lexer/mod.rs) -/

/-- `XML_COMMENT` (lexer/mod.rs:18). -/
def commentCfg : CommentCfg := ⟨[], "<!--".toList, "-->".toList, false⟩

/-- `XML_STRING` (lexer/mod.rs:20). -/
def stringCfg : StringCfg := ⟨['"', '\''], none⟩

/-- `is_ascii_alphabetic` (standard library; lexer/mod.rs:375). -/
def isLetter (c : Char) : Bool := decide ('a' ≤ c ∧ c ≤ 'z') || decide ('A' ≤ c ∧ c ≤ 'Z')

/-- `is_ascii_alphanumeric` (standard library; lexer/mod.rs:338, 379). -/
def isAlnum (c : Char) : Bool := isLetter c || Json.isDigit c

/-- The first character of an identifier (lexer/mod.rs:375). -/
def nameStart (c : Char) : Bool := isLetter c || c == '_' || c == ':'

/-- The other characters of an identifier (lexer/mod.rs:379). -/
def nameChar (c : Char) : Bool := isAlnum c || c == '_' || c == '-' || c == '.' || c == ':'

/-- The characters a text stops at (lexer/mod.rs:440). -/
def textStop (c : Char) : Bool :=
  c == ' ' || c == '\t' || c == '\n' || c == '\r' || c == '<' || c == '>' || c == '=' || c == '"' || c == '\'' || c == '!' ||
    c == '?' || c == '&' || c == ';'

/-- Comparing the characters from `peek_next_n(n)` on with the expected ones (lexer/mod.rs:111-123, 177-189). -/
def wordAhead (src : Source) (st : Lex) (up : Char → Char) : Nat → Str → Run Bool
  | _, [] => pure true
  | n, e :: es => do
    let a ← st.peekNextN src n
    match a with
    | none => pure false
    | some a => if up a = e then wordAhead src st up (n + 1) es else pure false

/-- `peek` is the first character and `peek_next_n(1)`, … the others (lexer/mod.rs:105-106, 172-189, 196-198, 227-228,
233-234). -/
def ahead (src : Source) (st : Lex) (c : Char) (cs : Str) : Run (Lex × Bool) := do
  let (st, d) ← st.peek src
  if d = some c then do
    let b ← wordAhead src st id 1 cs
    pure (st, b)
  else pure (st, false)

/-- The loop of `lex_doctype` (lexer/mod.rs:129-158); answers whether the end was found. -/
def doctypeLoop (src : Source) : Nat → Int → Lex → Run (Lex × Bool)
  | 0, _, _ => .error .spin
  | fuel + 1, depth, st =>
    if st.notAtEnd src then do
      let (st, c) ← st.peek src
      match c with
      | none => pure (st, false)
      | some c =>
        if c = '[' then doctypeLoop src fuel (depth + 1) (st.advance src 1)
        else if c = ']' then doctypeLoop src fuel (depth - 1) (st.advance src 1)
        else if c = '>' then
          if depth = 0 then pure (st.advance src 1, true) else doctypeLoop src fuel depth (st.advance src 1)
        else doctypeLoop src fuel depth (st.advance src c.utf8Size)
    else pure (st, false)

/-- `lex_doctype` (lexer/mod.rs:102-168). -/
def lexDoctype (src : Source) (st : Lex) : Run (Lex × Bool) := do
  let start := st.pos
  let (st, b) ← ahead src st '<' ['!']
  if b then do
    let b ← wordAhead src st Char.toUpper 2 "DOCTYPE".toList
    if b then do
      let (st, found) ← doctypeLoop src (src.length + 1) 0 (st.advance src 9)
      pure (st.addToken (if found then doctype else error) start st.pos, true)
    else pure (st, false)
  else pure (st, false)

/-- The loops of `lex_cdata` (lexer/mod.rs:195-211) and `lex_processing_instruction` (lexer/mod.rs:232-246): up to the
characters `c`, `cs` in a row; answers whether they were found. -/
def closeLoop (src : Source) (c : Char) (cs : Str) : Nat → Lex → Run (Lex × Bool)
  | 0, _ => .error .spin
  | fuel + 1, st =>
    if st.notAtEnd src then do
      let (st, b) ← ahead src st c cs
      if b then pure (st.advance src (1 + cs.length), true)
      else do
        let (st, d) ← st.peek src
        match d with
        | some d => closeLoop src c cs fuel (st.advance src d.utf8Size)
        | none => pure (st, false)
    else pure (st, false)

/-- `lex_cdata` (lexer/mod.rs:170-221). -/
def lexCdata (src : Source) (st : Lex) : Run (Lex × Bool) := do
  let start := st.pos
  let (st, b) ← ahead src st '<' "![CDATA[".toList
  if b then do
    let (st, found) ← closeLoop src ']' [']', '>'] (src.length + 1) (st.advance src 9)
    pure (st.addToken (if found then cdata else error) start st.pos, true)
  else pure (st, false)

/-- `lex_processing_instruction` (lexer/mod.rs:223-255). -/
def lexInstruction (src : Source) (st : Lex) : Run (Lex × Bool) := do
  let start := st.pos
  let (st, b) ← ahead src st '<' ['?']
  if b then do
    let (st, found) ← closeLoop src '?' ['>'] (src.length + 1) (st.advance src 2)
    pure (st.addToken (if found then instruction else error) start st.pos, true)
  else pure (st, false)

/-- The arm of `lex_tag_start` for `<` (lexer/mod.rs:261-271). -/
def lexOpen (src : Source) (st : Lex) : Run (Lex × Bool) := do
  let start := st.pos
  let (st, d) ← (st.advance src 1).peek src
  if d = some '/' then
    let st := st.advance src 1
    pure (st.addToken leftAngleSlash start st.pos, true)
  else pure (st.addToken leftAngle start st.pos, true)

/-- One character with a token of its own (lexer/mod.rs:282-291, 400-424). -/
def single (src : Source) (st : Lex) (kind : Nat) : Run (Lex × Bool) :=
  let start := st.pos
  let st := st.advance src 1
  pure (st.addToken kind start st.pos, true)

/-- The arm of `lex_tag_start` for `/` (lexer/mod.rs:272-281). -/
def lexSlash (src : Source) (st : Lex) : Run (Lex × Bool) := do
  let start := st.pos
  let d ← st.peekNextN src 1
  if d = some '>' then
    let st := st.advance src 2
    pure (st.addToken slashRightAngle start st.pos, true)
  else pure (st, false)

/-- `lex_tag_start` (lexer/mod.rs:257-294). -/
def lexTagStart (src : Source) (st : Lex) : Run (Lex × Bool) := do
  let (st, c) ← st.peek src
  match c with
  | none => pure (st, false)
  | some c =>
    if c = '<' then lexOpen src st
    else if c = '/' then lexSlash src st
    else if c = '>' then single src st rightAngle
    else if c = '=' then single src st equals
    else pure (st, false)

/-- The characters of a reference and its semicolon (lexer/mod.rs:309-328, 331-334; 336-350; 353-355). The loops advance by
one byte per character, all of them ASCII. -/
def reference (src : Source) (start : Nat) (p : Char → Bool) (kind : Nat) (st : Lex) : Run (Lex × Bool) := do
  let first := st.pos
  let st ← st.takeWhile src p
  let (st, e) ← st.peek src
  if first < st.pos ∧ e = some ';' then
    let st := st.advance src 1
    pure (st.addToken kind start st.pos, true)
  else pure (st.addToken error start st.pos, true)

/-- After `&#` (lexer/mod.rs:307-328). -/
def charReference (src : Source) (start : Nat) (st : Lex) : Run (Lex × Bool) := do
  let (st, d) ← st.peek src
  if d = some 'x' then reference src start Json.isHexDigit characterReference (st.advance src 1)
  else reference src start Json.isDigit characterReference st

/-- After `&` (lexer/mod.rs:302-355). -/
def anyReference (src : Source) (start : Nat) (st : Lex) : Run (Lex × Bool) := do
  let (st, d) ← st.peek src
  if d = some '#' then charReference src start (st.advance src 1)
  else reference src start isAlnum entityReference st

/-- `lex_entity_reference` (lexer/mod.rs:296-359). -/
def lexReference (src : Source) (st : Lex) : Run (Lex × Bool) := do
  let start := st.pos
  let (st, c) ← st.peek src
  if c = some '&' then anyReference src start (st.advance src 1) else pure (st, false)

/-- `lex_identifier_or_tag_name` (lexer/mod.rs:365-392). -/
def lexName (src : Source) (st : Lex) : Run (Lex × Bool) := do
  let start := st.pos
  let (st, c) ← st.peek src
  match c with
  | none => pure (st, false)
  | some c =>
    if nameStart c then do
      let st ← (st.advance src c.utf8Size).takeWhile src nameChar
      pure (st.addToken identifier start st.pos, true)
    else pure (st, false)

/-- The table of `lex_single_char_tokens` (lexer/mod.rs:397-426). -/
def singleKind (c : Char) : Option Nat :=
  if c = '"' then some quote
  else if c = '\'' then some singleQuote
  else if c = '!' then some exclamation
  else if c = '?' then some question
  else if c = '&' then some ampersand
  else if c = ';' then some semicolon
  else none

/-- `lex_single_char_tokens` (lexer/mod.rs:394-428). -/
def lexSingle (src : Source) (st : Lex) : Run (Lex × Bool) := do
  let (st, c) ← st.peek src
  match c.bind singleKind with
  | some k => single src st k
  | none => pure (st, false)

/-- `lex_text` (lexer/mod.rs:430-455). -/
def lexText (src : Source) (st : Lex) : Run (Lex × Bool) := do
  let start := st.pos
  let st ← st.takeWhile src (fun c => !textStop c)
  if st.pos > start then pure (st.addToken text start st.pos, true) else pure (st, false)

/-- The scanners in the order in which they are tried (lexer/mod.rs:46-88). -/
def scanners (ws : Char → Bool) (src : Source) : List (Lex → Run (Lex × Bool)) :=
  [fun st => scanWhitespace ws true src st whitespace,
   fun st => commentCfg.scan src st comment comment,
   lexDoctype src, lexCdata src, lexInstruction src, lexTagStart src, lexReference src,
   fun st => stringCfg.scan src st stringLiteral,
   lexName src, lexSingle src, lexText src]

/-- `if self.lex_…(state) { continue }` one after another (lexer/mod.rs:46-88); answers whether one of them did
something. -/
def firstOf : List (Lex → Run (Lex × Bool)) → Lex → Run (Lex × Bool)
  | [], st => pure (st, false)
  | f :: fs, st => do
    let (st, b) ← f st
    if b then pure (st, true) else firstOf fs st

/-- `run` (lexer/mod.rs:42-93). -/
def run (ws : Char → Bool) (src : Source) : Nat → Lex → Run Lex
  | fuel, st =>
    if st.notAtEnd src then
      match fuel with
      | 0 => .error .spin
      | fuel + 1 => do
        let safe := st.pos
        let (st, b) ← firstOf (scanners ws src) st
        if b then run ws src fuel st
        else do
          let st ← st.advanceIfDeadLock src safe
          run ws src fuel st
    else pure st

/-- `lex` (lexer/mod.rs:23-31). -/
def lex (ws : Char → Bool) (src : Source) : Run (List Tok) := do
  let st ← Lex.new src
  let st ← run ws src src.length st
  pure (st.addEof error).toks

/-! ### Parser (parser/parse_top_level.rs) -/

/-- `Root` (parser/element_type.rs:8). -/
def root : Nat := 0
/-- `Prolog` (parser/element_type.rs:9). -/
def prolog : Nat := 1
/-- `Element` (parser/element_type.rs:10). -/
def element : Nat := 2
/-- `StartTag` (parser/element_type.rs:11). -/
def startTag : Nat := 3
/-- `EndTag` (parser/element_type.rs:12). -/
def endTag : Nat := 4
/-- `SelfClosingTag` (parser/element_type.rs:13). -/
def selfClosingTag : Nat := 5
/-- `Attribute` (parser/element_type.rs:14). -/
def attributeNode : Nat := 6

/-- `is_ignored` (lexer/token_type.rs:11-13). -/
def ign (_ : Nat) : Bool := false

/-- The loop of `skip_trivia` (parse_top_level.rs:125-135). -/
def skipLoop : Nat → PState → Run PState
  | fuel, s =>
    match s.current with
    | none => pure s
    | some t =>
      if ign t.kind then
        match fuel with
        | 0 => .error .spin
        | fuel + 1 => do
          let s ← s.bump ign
          skipLoop fuel s
      else pure s

/-- `skip_trivia` (parse_top_level.rs:125-135). -/
def skip (s : PState) : Run PState := skipLoop (s.tokens.length - s.index) s

/-- The operator `?` after a call (parse_top_level.rs:16, 22, 34-50, 60-84, 94, 103-107, 116-120); `false` is an error. -/
def andThen (x : Run (Bool × PState)) (f : PState → Run (Bool × PState)) : Run (Bool × PState) := do
  let (ok, s) ← x
  if ok then f s else pure (false, s)

/-- `state.finish_at(checkpoint, kind)` as the last thing done (parse_top_level.rs:51-52, 79-81, 108-111, 121-122). -/
def finish (s : PState) (cp : Nat × Nat) (kind : Nat) : Run (Bool × PState) := do
  let (_, s) ← s.finishAt cp kind
  pure (true, s)

/-- `parse_attribute` (parse_top_level.rs:114-123). -/
def parseAttribute (s : PState) : Run (Bool × PState) :=
  let cp := s.checkpoint
  andThen (s.expect ign identifier) (fun s => do
    let s ← skip s
    andThen (s.expect ign equals) (fun s => do
      let s ← skip s
      andThen (s.expect ign stringLiteral) (fun s => finish s cp attributeNode)))

/-- The loops over attributes (parse_top_level.rs:38-46, 64-72); `stop` is the token they stop at. -/
def attributesLoop (stop : PState → Bool) : Nat → PState → Run (Bool × PState)
  | 0, _ => .error .spin
  | fuel + 1, s =>
    if Json.notAtEnd s && !stop s then do
      let s ← skip s
      if s.atKind identifier then andThen (parseAttribute s) (attributesLoop stop fuel) else pure (true, s)
    else pure (true, s)

/-- `parse_prolog` (parse_top_level.rs:32-53). -/
def parseProlog (s : PState) : Run (Bool × PState) :=
  let cp := s.checkpoint
  andThen (s.expect ign leftAngle) (fun s =>
    andThen (s.expect ign question) (fun s =>
      andThen (s.expect ign identifier) (fun s =>
        andThen (attributesLoop (·.atKind question) (s.tokens.length - s.index + 1) s) (fun s => do
          let s ← skip s
          andThen (s.expect ign question) (fun s =>
            andThen (s.expect ign rightAngle) (fun s => finish s cp prolog))))))

/-- The start tag up to its end (parse_top_level.rs:58-74). -/
def parseTagHead (s : PState) : Run (Bool × PState) :=
  andThen (s.expect ign leftAngle) (fun s => do
    let s ← skip s
    andThen (s.expect ign identifier) (fun s =>
      andThen (attributesLoop (fun s => s.atKind rightAngle || s.atKind slashRightAngle) (s.tokens.length - s.index + 1) s)
        (fun s => do
          let s ← skip s
          pure (true, s))))

/-- The end tag (parse_top_level.rs:101-111). -/
def parseEndTag (cp : Nat × Nat) (s : PState) : Run (Bool × PState) :=
  let endCp := s.checkpoint
  andThen (s.expect ign leftAngleSlash) (fun s => do
    let s ← skip s
    andThen (s.expect ign identifier) (fun s => do
      let s ← skip s
      andThen (s.expect ign rightAngle) (fun s =>
        andThen (finish s endCp endTag) (fun s => finish s cp element))))

mutual
/-- `parse_element` (parse_top_level.rs:55-112). -/
def parseElement : Nat → PState → Run (Bool × PState)
  | 0, _ => .error .spin
  | n + 1, s =>
    let cp := s.checkpoint
    andThen (parseTagHead s) (fun s =>
      if s.atKind slashRightAngle then
        let selfCp := s.checkpoint
        andThen (s.expect ign slashRightAngle) (fun s =>
          andThen (finish s selfCp selfClosingTag) (fun s => finish s cp element))
      else
        andThen (s.expect ign rightAngle) (fun s =>
          andThen (finish s cp startTag) (fun s =>
            andThen (contentLoop n s) (parseEndTag cp))))

/-- The loop over the content (parse_top_level.rs:87-99). -/
def contentLoop : Nat → PState → Run (Bool × PState)
  | 0, _ => .error .spin
  | n + 1, s =>
    if Json.notAtEnd s then do
      let s ← skip s
      if s.atKind leftAngleSlash then pure (true, s)
      else if s.atKind leftAngle then andThen (parseElement n s) (contentLoop n)
      else do
        let s ← s.advance ign
        contentLoop n s
    else pure (true, s)
end

/-- The loop of `parse_root_internal` (parse_top_level.rs:19-27). -/
def rootLoop : Nat → PState → Run (Bool × PState)
  | 0, _ => .error .spin
  | n + 1, s =>
    if Json.notAtEnd s then do
      let s ← skip s
      if s.atKind leftAngle then andThen (parseElement n s) (rootLoop n)
      else if Json.notAtEnd s then do
        let s ← s.advance ign
        rootLoop n s
      else rootLoop n s
    else pure (true, s)

/-- `parse_root_internal` (parse_top_level.rs:11-30); `none` is an error. -/
def parseRoot (s : PState) : Run (Option Green × PState) := do
  let cp := s.checkpoint
  let s ← skip s
  let (ok, s) ←
    if s.atKind leftAngle && (s.peekAt 1).map (·.kind) == some question then parseProlog s else pure (true, s)
  if ok then do
    let (ok, s) ← rootLoop (2 * (s.tokens.length - s.index) + 2) s
    if ok then do
      let (e, s) ← s.finishAt cp root
      pure (some e.tree, s)
    else pure (none, s)
  else pure (none, s)

/-- `parse` (parser/mod.rs:24-27) with `parse_with_lexer` (oak-core parser/mod.rs:77-120) on a session without an old tree:
the tree, `none` for an error, and the errors recorded. -/
def parse (ws : Char → Bool) (src : Source) : Run (Option Green × List PErr) := do
  let toks ← lex ws src
  let s ← PState.new ign toks src.length
  let (g, s) ← parseRoot s
  pure (g, s.errors)

end Xml

/-! ### Values, the builder, the writer -/

/-- `XmlAttribute` (ast/mod.rs:41-46). -/
structure XmlAttr where
  name : Str
  value : Str
  start : Nat
  stop : Nat
deriving DecidableEq

/-- `XmlValue` (ast/mod.rs:20-27) with `XmlElement` (31-37) and `XmlPI` (50-55). -/
inductive XmlVal where
  | element (name : Str) (attrs : List XmlAttr) (kids : List XmlVal) (start stop : Nat)
  | text (s : Str)
  | comment (s : Str)
  | cdata (s : Str)
  | instruction (target : Str) (data : Option Str) (start stop : Nat)
  | fragment (vs : List XmlVal)

namespace Xml

section
variable (ws : Char → Bool) (src : Str)

/-- The value of an attribute from its raw text (builder/mod.rs:112-119); slicing inside a character panics. -/
def unquote (raw : Str) : Run Str :=
  if blen raw ≥ 2 then
    match strGet raw 1 (blen raw - 1) with
    | some s => pure s
    | none => .error .panic
  else pure raw

/-- The loop of `build_attribute` (builder/mod.rs:104-129): the name and the value. -/
def attributeLoop (offset : Nat) : List Green → Str × Str → Run (Str × Str)
  | [], acc => pure acc
  | .leaf k n _ :: cs, acc =>
    if k = identifier then do
      let s ← Json.textOf src offset n
      attributeLoop (offset + n) cs (s, acc.2)
    else if k = stringLiteral then do
      let s ← Json.textOf src offset n
      let v ← unquote s
      attributeLoop (offset + n) cs (acc.1, v)
    else attributeLoop (offset + n) cs acc
  | .node _ n _ :: cs, acc => attributeLoop (offset + n) cs acc

/-- `build_attribute` (builder/mod.rs:99-132) of a node with these children and this length. -/
def buildAttribute (offset n : Nat) (cs : List Green) : Run XmlAttr := do
  let (name, value) ← attributeLoop src offset cs ([], [])
  pure ⟨name, value, offset, offset + n⟩

/-- The loop over the children of a tag (builder/mod.rs:60-72): the name and the attributes. -/
def tagLoop (offset : Nat) : List Green → Str × List XmlAttr → Run (Str × List XmlAttr)
  | [], acc => pure acc
  | .leaf k n _ :: cs, acc =>
    if k = identifier then do
      let s ← Json.textOf src offset n
      tagLoop (offset + n) cs (s, acc.2)
    else tagLoop (offset + n) cs acc
  | .node k n gs :: cs, acc =>
    if k = attributeNode then do
      let a ← buildAttribute src offset n gs
      tagLoop (offset + n) cs (acc.1, acc.2 ++ [a])
    else tagLoop (offset + n) cs acc

/-- What `build_element` has found so far (builder/mod.rs:50-52). -/
structure Found where
  name : Str
  attrs : List XmlAttr
  kids : List XmlVal

/-- The value made of what was found (builder/mod.rs:96). -/
def Found.value (f : Found) (start stop : Nat) : XmlVal := .element f.name f.attrs f.kids start stop

/-- A leaf of an element (builder/mod.rs:81-93). -/
def elementLeaf (k n offset : Nat) (f : Found) : Run Found :=
  if k = text then do
    let s ← Json.textOf src offset n
    pure (if s.all ws then f else { f with kids := f.kids ++ [.text s] })
  else pure f

mutual
/-- `build_element` (builder/mod.rs:49-97). A leaf is never passed. -/
def buildElement (offset : Nat) : Green → Run XmlVal
  | .leaf _ _ _ => .error .panic
  | .node _ n cs => do
    let f ← elementLoop offset cs ⟨[], [], []⟩
    pure (f.value offset (offset + n))

/-- The loop of `build_element` (builder/mod.rs:55-94). -/
def elementLoop (offset : Nat) : List Green → Found → Run Found
  | [], f => pure f
  | .leaf k n _ :: cs, f => do
    let f ← elementLeaf ws src k n offset f
    elementLoop (offset + n) cs f
  | .node k n gs :: cs, f =>
    if k = startTag ∨ k = selfClosingTag then do
      let (name, attrs) ← tagLoop src offset gs (f.name, f.attrs)
      elementLoop (offset + n) cs { f with name := name, attrs := attrs }
    else if k = element then do
      let v ← buildElement offset (.node k n gs)
      elementLoop (offset + n) cs { f with kids := f.kids ++ [v] }
    else elementLoop (offset + n) cs f
end

/-- The loop of `build_root` (builder/mod.rs:24-42). -/
def rootKids (offset : Nat) : List Green → Run (List XmlVal)
  | [] => pure []
  | .leaf _ n _ :: cs => rootKids (offset + n) cs
  | .node k n gs :: cs =>
    if k = element then do
      let v ← buildElement ws src offset (.node k n gs)
      let vs ← rootKids (offset + n) cs
      pure (v :: vs)
    else rootKids (offset + n) cs

/-- `build_root` (builder/mod.rs:20-47). -/
def buildRoot : Green → Run XmlVal
  | .leaf _ _ _ => .error .panic
  | .node _ _ cs => do
    let vs ← rootKids ws src 0 cs
    pure (vs.head?.getD (.text []))

end

/-- `build` (builder/mod.rs:136-150): the value, `none` for an error, and the errors recorded by the parser. -/
def build (ws : Char → Bool) (src : Source) : Run (Option XmlVal × List PErr) := do
  let text ← src.textIn 0 src.length
  let (g, errs) ← parse ws src
  match g with
  | none => pure (none, errs)
  | some g => do
    let v ← buildRoot ws text g
    pure (some v, errs)

/-- `parse` (lib.rs:62-70): the value, `none` for an error. -/
def fromText (ws : Char → Bool) (s : Str) : Run (Option XmlVal) := do
  let (v, _) ← build ws (textSource s)
  pure v

/-- The attributes of an element as written (ast/mod.rs:94-96). -/
def attrsText : List XmlAttr → Str
  | [] => []
  | a :: as => ' ' :: (a.name ++ '=' :: '"' :: (a.value ++ '"' :: attrsText as))

/-- A comment as written (ast/mod.rs:75). -/
def commentText (s : Str) : Str := "<!--".toList ++ s ++ "-->".toList

/-- A CDATA section as written (ast/mod.rs:76). -/
def cdataText (s : Str) : Str := "<![CDATA[".toList ++ s ++ "]]>".toList

/-- A processing instruction as written (ast/mod.rs:77-84). -/
def instructionText (target : Str) : Option Str → Str
  | some d => '<' :: '?' :: (target ++ ' ' :: (d ++ ['?', '>']))
  | none => '<' :: '?' :: (target ++ ['?', '>'])

/-- An element as written, its children being `ks` (ast/mod.rs:92-108). -/
def elementText (name : Str) (attrs : List XmlAttr) (leaf : Bool) (ks : Str) : Str :=
  '<' :: (name ++ attrsText attrs ++ if leaf then ['/', '>'] else '>' :: (ks ++ '<' :: '/' :: (name ++ ['>'])))

mutual
/-- `XmlValue::to_string` (ast/mod.rs:72-110). -/
def toText : XmlVal → Str
  | .text s => s
  | .comment s => commentText s
  | .cdata s => cdataText s
  | .instruction target d _ _ => instructionText target d
  | .fragment vs => kidsText vs
  | .element name attrs kids _ _ => elementText name attrs kids.isEmpty (kidsText kids)
/-- The children one after another (ast/mod.rs:85-91, 102-104). -/
def kidsText : List XmlVal → Str
  | [] => []
  | v :: vs => toText v ++ kidsText vs
end

end Xml

end Oaks
