import Verif.Model.Visit
import Verif.Model.Source

/-
Model of the code that finds names: `projects/oak-navigation/src/lib.rs` (references),
`projects/oak-symbols/src/lib.rs` (document symbols), `projects/oak-resolver/src/lib.rs` (workspace
index).

Simplifications: the language gives, for each kind, whether its universal role is `Definition` or
`Name`, and its `Debug` text. The `role` of a symbol is always `Definition` here and left out. A
`DashMap` is a list of pairs with distinct keys, used from one thread; its iteration order is not used
in any statement.
-/
namespace Oaks

/-! ## References (oak-navigation) -/

/-- `visit_token` of `SimpleReferenceFinder` (oak-navigation/src/lib.rs:67-74) on `(kind, start, end)`;
the locations found so far are the state, without the common `uri`. `&self.source[span]` panics when
the span is not on character boundaries. -/
def refToken (isName : Nat → Bool) (name source : Str) (l : Nat × Nat × Nat) (refs : List (Nat × Nat)) :
    Run (List (Nat × Nat)) :=
  if isName l.1 then
    match strGet source l.2.1 l.2.2 with
    | none => .error .panic
    | some text => if text = name then .ok (refs ++ [(l.2.1, l.2.2)]) else .ok refs
  else .ok refs

/-- `SimpleReferenceFinder::find` (oak-navigation/src/lib.rs:55-59; `visit_node` 63-65). -/
def findReferences (isName : Nat → Bool) (name source : Str) (fuel : Nat) (r : RedNode) : Run (List (Nat × Nat)) :=
  visitWith (fun _ s => .ok s) (refToken isName name source) fuel r []

/-! ## Document symbols (oak-symbols) -/

/-- `SymbolInformation` (oak-symbols/src/lib.rs:18-33) without the role. -/
structure SymInfo where
  name : Str
  uri : Str
  start : Nat
  stop : Nat
  container : Option Str
deriving DecidableEq

/-- What the language says about kinds: `role().universal() == Definition`,
`is_universal(UniversalTokenRole::Name)`, `format!("{:?}", kind)` (oak-symbols/src/lib.rs:66-95). -/
structure Roles where
  isDef : Nat → Bool
  isName : Nat → Bool
  debug : Nat → Str

/-- The loop looking for the name (oak-symbols/src/lib.rs:73-85). -/
def firstNameLoop (isName : Nat → Bool) (src : Source) : List Red → Run (Option Str)
  | [] => .ok none
  | .leaf k a b :: cs => if isName k then do return some (← src.textIn a b) else firstNameLoop isName src cs
  | .node _ :: cs => firstNameLoop isName src cs

/-- The name of a definition (oak-symbols/src/lib.rs:73-87). -/
def defName (R : Roles) (src : Source) (r : RedNode) : Run Str := do
  let cs ← r.childIter.collect (r.children.length + 1)
  let name ← firstNameLoop R.isName src cs
  return name.getD (['<'] ++ R.debug r.kind ++ ['>'])

/-- `if let RedTree::Node(child_node) = child { … }` (oak-symbols/src/lib.rs:93-95, 101-103). -/
def collectChild (rec : RedNode → List SymInfo → Run (List SymInfo)) (syms : List SymInfo) : Red → Run (List SymInfo)
  | .node n => rec n syms
  | .leaf _ _ _ => .ok syms

/-- `collect_symbols` (oak-symbols/src/lib.rs:68-106); fuel for the recursion. -/
def collectSymbols (R : Roles) (src : Source) (uri : Str) : Nat → RedNode → Option Str → List SymInfo →
    Run (List SymInfo)
  | 0, _, _, _ => .error .spin
  | fuel + 1, r, container, syms =>
    if R.isDef r.kind then do
      let name ← defName R src r
      let syms := syms ++ [⟨name, uri, r.span.1, r.span.2, container⟩]
      let cs ← r.childIter.collect (r.children.length + 1)
      cs.foldlM (collectChild fun n s => collectSymbols R src uri fuel n (some name) s) syms
    else do
      let cs ← r.childIter.collect (r.children.length + 1)
      cs.foldlM (collectChild fun n s => collectSymbols R src uri fuel n container s) syms

/-- `document_symbols` (oak-symbols/src/lib.rs:110-114). -/
def documentSymbols (R : Roles) (src : Source) (uri : Str) (fuel : Nat) (r : RedNode) : Run (List SymInfo) :=
  collectSymbols R src uri fuel r none []

/-! ## Workspace index (oak-resolver) -/

/-- `GlobalSymbolTable` (oak-resolver/src/lib.rs:68-73). -/
structure SymTable where
  files : List (Str × List SymInfo)
  qualified : List (Str × SymInfo)

/-- `DashMap::get` (dependency; oak-resolver/src/lib.rs:108, 113), a map seen as a list of pairs with distinct keys. -/
def dmGet {V : Type} (m : List (Str × V)) (k : Str) : Option V := (m.find? (fun x => x.1 == k)).map (·.2)
/-- `DashMap::remove` (dependency; oak-resolver/src/lib.rs:84-88). -/
def dmRemove {V : Type} (m : List (Str × V)) (k : Str) : List (Str × V) := m.filter (fun x => x.1 != k)
/-- `DashMap::insert` (dependency; oak-resolver/src/lib.rs:92-96). -/
def dmInsert {V : Type} (m : List (Str × V)) (k : Str) (v : V) : List (Str × V) := dmRemove m k ++ [(k, v)]

/-- `make_qualified_name` (oak-resolver/src/lib.rs:99-104). -/
def qualifiedName (s : SymInfo) : Str :=
  match s.container with
  | some c => c ++ [':', ':'] ++ s.name
  | none => s.name

/-- `GlobalSymbolTable::new` (oak-resolver/src/lib.rs:77-79). -/
def SymTable.new : SymTable := ⟨[], []⟩

/-- `update_file_symbols` (oak-resolver/src/lib.rs:82-97). -/
def SymTable.update (t : SymTable) (uri : Str) (symbols : List SymInfo) : SymTable :=
  let q :=
    match dmGet t.files uri with
    | some old => old.foldl (fun q s => dmRemove q (qualifiedName s)) t.qualified
    | none => t.qualified
  let files := dmRemove t.files uri
  let q := symbols.foldl (fun q s => dmInsert q (qualifiedName s) s) q
  ⟨dmInsert files uri symbols, q⟩

/-- `lookup` (oak-resolver/src/lib.rs:107-109). -/
def SymTable.lookup (t : SymTable) (fqn : Str) : Option SymInfo := dmGet t.qualified fqn

/-- `query_file` (oak-resolver/src/lib.rs:112-114). -/
def SymTable.queryFile (t : SymTable) (uri : Str) : List SymInfo := (dmGet t.files uri).getD []

/-- `str::contains` (standard library; oak-resolver/src/lib.rs:118): does `q` occur in `s`? -/
def strContains (q : Str) : Str → Bool
  | [] => q.isEmpty
  | c :: s => q.isPrefixOf (c :: s) || strContains q s

/-- `query` (oak-resolver/src/lib.rs:117-119). -/
def SymTable.query (t : SymTable) (q : Str) : List SymInfo := (t.qualified.filter fun x => strContains q x.1).map (·.2)

end Oaks
