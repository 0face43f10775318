import Verif.Model.Tree
import Verif.Model.Lexer

/-
`oak-testing`: tests of lexers, parsers and builders against files of expected results. The names of files are nonempty and neither `.`
nor `..`, as a directory lists them; directories are not files of their own here (an expected result lies beside its source, so
`create_dir_all` finds its directory). Files hold text; reading a file that is there and writing one never fail. Kinds are numbers
instead of their `Debug` text. What is printed, and the text of the errors, is left out.
-/
namespace Oaks.Golden
open Oaks

/-- A `PathBuf` as in `root` and `files` (lexing.rs:28, 100): directories and the name of the file. -/
structure FPath where
  dir : List Str
  name : Str
deriving DecidableEq, Repr

/-- Files in the order in which `WalkDir` meets them (lexing.rs:102). -/
abbrev Files := List (FPath × Str)

/-- `std::fs::read_to_string`, used in lib.rs:17-28. -/
def Files.get : Files → FPath → Option Str
  | [], _ => none
  | (q, s) :: d, p => if q = p then some s else Files.get d p

/-- `File::create` and `write_all` (lib.rs:39-44, lexing.rs:237-239): a new file is listed last. -/
def Files.put : Files → FPath → Str → Files
  | [], p, s => [(p, s)]
  | (q, s') :: d, p, s => if q = p then (p, s) :: d else (q, s') :: Files.put d p s

/-- `std::fs::rename` (lexing.rs:223) of a file that is there to a name that is not. -/
def Files.rename (d : Files) (old new : FPath) : Files :=
  match d.get old with
  | none => d
  | some s => Files.put (d.filter fun x => !(x.1 = old)) new s

/-- The last dot of a name: what is before it and after it. `Path::file_stem` and `Path::extension` are these, unless there is no dot or
nothing before it (lexing.rs:107, 217). -/
def lastDot (name : Str) : Option (Str × Str) :=
  match name.reverse.dropWhile (fun c => !(c == '.')) with
  | [] => none
  | _ :: before => if before = [] then none else some (before.reverse, (name.reverse.takeWhile (fun c => !(c == '.'))).reverse)

/-- `Path::extension`, used in find_test_files (lexing.rs:107). -/
def extension (name : Str) : Option Str := (lastDot name).map (·.2)

/-- `Path::with_extension`, used in test_single_file (lexing.rs:217, 221), for an extension that is not empty. -/
def withExtension (p : FPath) (ext : Str) : FPath :=
  match lastDot p.name with
  | none => ⟨p.dir, p.name ++ '.' :: ext⟩
  | some (stem, _) => ⟨p.dir, stem ++ '.' :: ext⟩

/-- The names that are never tested (lexing.rs:112). -/
def isOutput (name : Str) : Bool :=
  [".parsed.json", ".lexed.json", ".built.json", ".expected.json"].any fun s => s.toList.isSuffixOf name

/-- `find_test_files` (lexing.rs:99-124, parsing.rs:96-120, building.rs:95-119). -/
def findFiles (exts : List Str) (d : Files) : List FPath :=
  (d.map (·.1)).filter fun p =>
    match extension p.name with
    | some e => exts.contains e && !isOutput p.name
    | none => false

/-- What the thread with the lexer, parser or builder does: it ends in time with a result, ends after the timeout, never ends, or
panics (lexing.rs:144-175, parsing.rs:135-167). -/
inductive Job (R : Type) where
  | done (r : R)
  | late
  | never
  | panics

/-- The errors of a test (lexing.rs:171, 229-232; parsing.rs:196). -/
inductive TestErr (R : Type) where
  | unreadable
  | timeout
  | badJson
  | failure (expected actual : R)
  | regenerated (path : FPath)
deriving DecidableEq

/-- The three testers differ in the ending of the expected files (lexing.rs:217, parsing.rs:169, building.rs:172) and in what they answer
when they had to write one: an error in `ParserTester` (parsing.rs:187-198). `enc` and `dec` are `serde_json` for the result. -/
structure Tester (R : Type) where
  suffix : Str
  strict : Bool
  enc : R → Str
  dec : Str → Option R

/-- `LexerTester` (lexing.rs:27-31). -/
def lexerTester (enc : R → Str) (dec : Str → Option R) : Tester R := ⟨"lexed.json".toList, false, enc, dec⟩
/-- `ParserTester` (parsing.rs:23-27). -/
def parserTester (enc : R → Str) (dec : Str → Option R) : Tester R := ⟨"parsed.json".toList, true, enc, dec⟩
/-- `BuilderTester` (building.rs:24-28). -/
def builderTester (enc : R → Str) (dec : Str → Option R) : Tester R := ⟨"built.json".toList, false, enc, dec⟩

/-- `expected_file` (lexing.rs:217). -/
def Tester.expected (t : Tester R) (p : FPath) : FPath := withExtension p ((extension p.name).getD [] ++ '.' :: t.suffix)

/-- The migration of old names (lexing.rs:220-225). -/
def Tester.migrate (t : Tester R) (d : Files) (p : FPath) : Files :=
  if (d.get (t.expected p)).isSome then d else d.rename (withExtension p "expected.json".toList) (t.expected p)

/-- The comparison, or the writing of the expected file (lexing.rs:228-241, parsing.rs:179-198). -/
def Tester.compare [DecidableEq R] (t : Tester R) (force : Bool) (d : Files) (p : FPath) (r : R) : Except (TestErr R) Unit × Files :=
  match d.get (t.expected p), force with
  | some s, false =>
    match t.dec s with
    | none => (.error .badJson, d)
    | some e => if r = e then (.ok (), d) else (.error (.failure e r), d)
  | _, _ =>
    let d' := d.put (t.expected p) (t.enc r)
    if t.strict && !force then (.error (.regenerated (t.expected p)), d') else (.ok (), d')

/-- `test_single_file` (lexing.rs:125-244, parsing.rs:122-210, building.rs:121-203); whether it wrote a file is printed only.
`thread::scope` waits for its thread, so it does not return before the thread has ended, and panics if the thread did. -/
def Tester.testFile [DecidableEq R] (t : Tester R) (force : Bool) (run : Str → Job R) (d : Files) (p : FPath) :
    Run (Except (TestErr R) Unit × Files) :=
  match d.get p with
  | none => .ok (.error .unreadable, d)
  | some text =>
    match run text with
    | .never => .error .spin
    | .panics => .error .panic
    | .late => .ok (.error .timeout, d)
    | .done r => .ok (t.compare force (t.migrate d p) p r)

/-- The loop of `run_tests` (lexing.rs:85-88): it ends at the first error. -/
def Tester.testAll [DecidableEq R] (t : Tester R) (force : Bool) (run : Str → Job R) : List FPath → Files → Run (Except (TestErr R) Unit × Files)
  | [], d => .ok (.ok (), d)
  | p :: ps, d =>
    match t.testFile force run d p with
    | .error e => .error e
    | .ok (.error e, d) => .ok (.error e, d)
    | .ok (.ok (), d) => Tester.testAll t force run ps d

/-- `run_tests` (lexing.rs:75-97, parsing.rs:72-94, building.rs:71-93); `force` is `REGENERATE_TESTS=1`. -/
def Tester.runTests [DecidableEq R] (t : Tester R) (exts : List Str) (force : Bool) (run : Str → Job R) (d : Files) :
    Run (Except (TestErr R) Unit × Files) := t.testAll force run (findFiles exts d) d

/-! ### What is compared -/

/-- `TokenData` (lexing.rs:50-55). -/
structure TokenData where
  kind : Nat
  text : Str
  start : Nat
  stop : Nat
deriving DecidableEq, Repr

/-- `LexerTestExpected` (lexing.rs:38-43). -/
structure LexerResult where
  success : Bool
  count : Nat
  tokens : List TokenData
  errors : List Str
deriving DecidableEq, Repr

/-- The closure for one token (lexing.rs:204-210). -/
def tokenData (text : Str) (t : Tok) : TokenData :=
  let start := min t.start (blen text)
  let stop := max (min t.stop (blen text)) start
  ⟨t.kind, (strGet text start stop).getD [], t.start, t.stop⟩

/-- The result of a lexer test (lexing.rs:187-214), from the tokens or the message of the error, and the messages of the
diagnostics. -/
def lexerResult (ign : Nat → Bool) (text : Str) (out : Except Str (List Tok) × List Str) : LexerResult :=
  let (tokens, success, diagnostics) := match out.1 with
    | .ok ts => (ts, true, out.2)
    | .error e => ([], false, out.2 ++ [e])
  let success := if diagnostics.isEmpty then success else false
  let tokens := (tokens.filter fun t => !ign t.kind).map (tokenData text)
  ⟨success, tokens.length, tokens, diagnostics⟩

/-- The `kind` of `AstNodeData` (parsing.rs:47): a kind, `Leaves(n)`, or `Error`. -/
inductive Label where
  | kind (k : Nat)
  | leaves (n : Nat)
  | error
deriving DecidableEq, Repr

/-- `AstNodeData` (parsing.rs:46-51). -/
inductive Ast where
  | mk (kind : Label) (children : List Ast) (length : Nat) (isLeaf : Bool)

/-- `leaf_count` and `leaf_text_length` of `to_ast` (parsing.rs:215-226). -/
def leafTotals : List Green → Nat × Nat
  | [] => (0, 0)
  | .leaf _ n _ :: cs => ((leafTotals cs).1 + 1, (leafTotals cs).2 + n)
  | .node _ _ _ :: cs => leafTotals cs

/-- The last child that `to_ast` adds (parsing.rs:228-230). -/
def leavesChild (cs : List Green) : List Ast :=
  if (leafTotals cs).1 > 0 then [.mk (.leaves (leafTotals cs).1) [] (leafTotals cs).2 true] else []

mutual
/-- `to_ast` (parsing.rs:212-233); it is never called on a leaf. -/
def toAst : Green → Ast
  | .node k n cs => .mk (.kind k) (astNodes cs ++ leavesChild cs) n false
  | .leaf k n _ => .mk (.kind k) [] n true
/-- The nodes in the loop of `to_ast` (parsing.rs:218-220). -/
def astNodes : List Green → List Ast
  | [] => []
  | c :: cs => (match c with | .node _ _ _ => [toAst c] | .leaf _ _ _ => []) ++ astNodes cs
end

mutual
/-- `count_nodes` (parsing.rs:235-237). -/
def countNodes : Ast → Nat
  | .mk _ cs _ _ => 1 + countList cs
/-- The sum in `count_nodes` (parsing.rs:236). -/
def countList : List Ast → Nat
  | [] => 0
  | c :: cs => countNodes c + countList cs
end

/-- `ParserTestExpected` (parsing.rs:34-39). -/
structure ParserResult where
  success : Bool
  nodeCount : Nat
  ast : Ast
  errors : List Str

/-- The result of a parser test (parsing.rs:141-162). -/
def parserResult (out : Except Str Green × List Str) : ParserResult :=
  match out.1 with
  | .ok g => ⟨true, countNodes (toAst g), toAst g, out.2⟩
  | .error e => ⟨false, 1, .mk .error [] 0 true, out.2 ++ [e]⟩

end Oaks.Golden
