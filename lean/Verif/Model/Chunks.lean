import Verif.Model.Visit
import Verif.Base.Str

/-
Model of `projects/oak-semantic-search/src/lib.rs`: cutting a tree into chunks, and the search.

Simplifications: the language gives, for each kind, whether its universal role is `Definition`,
`Statement` or `Documentation`, as `some` of the text of the role. The name of the table and the path
of the database, which are not used, are left out.
-/
namespace Oaks

/-- `CodeChunk` (oak-semantic-search/src/lib.rs:37-47). -/
structure CodeChunk where
  text : Str
  start : Nat
  stop : Nat
  role : Str
deriving DecidableEq, Repr

/-- `ChunkCollector::visit_node` up to `walk_node` (oak-semantic-search/src/lib.rs:69-83); the slice panics
where the span does not fit the source. -/
def enterChunk (roleOf : Nat → Option Str) (source : Str) (r : RedNode) (s : List CodeChunk) :
    Run (List CodeChunk) :=
  match roleOf r.kind with
  | none => .ok s
  | some role =>
    match strGet source r.span.1 r.span.2 with
    | none => .error .panic
    | some text => if blen text > 20 then .ok (s ++ [⟨text, r.span.1, r.span.2, role⟩]) else .ok s

/-- The collector run over a tree (oak-semantic-search/src/lib.rs:68-89, 98-100). -/
def collectChunks (roleOf : Nat → Option Str) (source : Str) (fuel : Nat) (r : RedNode) : Run (List CodeChunk) :=
  visitWith (enterChunk roleOf source) (fun _ s => .ok s) fuel r []

/-- `SemanticSearcher` (oak-semantic-search/src/lib.rs:50): it has no fields. -/
structure Searcher where

/-- `index_code` (oak-semantic-search/src/lib.rs:98-110): the chunks are made and dropped. -/
def Searcher.indexCode (s : Searcher) (roleOf : Nat → Option Str) (source : Str) (fuel : Nat) (r : RedNode) :
    Run Searcher :=
  match collectChunks roleOf source fuel r with
  | .error e => .error e
  | .ok _ => .ok s

/-- `search` (oak-semantic-search/src/lib.rs:114-117). -/
def Searcher.search (_ : Searcher) (_query : Str) (_limit : Nat) : List Str := []

end Oaks
