import Verif.Model.Index
import Verif.Model.Lsp

/-
Model of `StandardResolver::resolve` (`projects/oak-resolver/src/lib.rs`), of the part of
`projects/oak-lsp/src/workspace.rs` that feeds it, and of the requests `definition` and
`document_symbols` (`projects/oak-lsp/src/service.rs`).

Simplifications: URLs, `Path::parent` and the file system are parameters (`FileWorld`); a lock that was
poisoned by a panic elsewhere is not modelled; futures are run to completion at once.
-/
namespace Oaks

/-- What the resolver asks of the libraries around it (oak-resolver/src/lib.rs:44-62): `Url::parse`
followed by `to_file_path`, `Path::parent`, `Url::from_file_path(..).to_string()`, `Path::exists`. -/
structure FileWorld where
  toPath : Str → Option Str
  parent : Str → Option Str
  toUrl : Str → Option Str
  exist : Str → Bool

/-- `Path::join` on Unix (standard library; oak-resolver/src/lib.rs:47, 57). -/
def pathJoin (base p : Str) : Str :=
  if p.head? = some '/' then p
  else if base = [] ∨ base.getLast? = some '/' then base ++ p
  else base ++ ['/'] ++ p

/-- The loop over the root directories (oak-resolver/src/lib.rs:56-61). -/
def resolveRoots (W : FileWorld) (imp : Str) : List Str → Option Str
  | [] => none
  | root :: roots => if W.exist (pathJoin root imp) then W.toUrl (pathJoin root imp) else resolveRoots W imp roots

/-- `resolve` (oak-resolver/src/lib.rs:41-64). -/
def resolveImport (W : FileWorld) (roots : List Str) (baseUri imp : Str) : Option Str :=
  match W.toPath baseUri with
  | some basePath =>
    match W.parent basePath with
    | none => none
    | some dir => if W.exist (pathJoin dir imp) then W.toUrl (pathJoin dir imp) else resolveRoots W imp roots
  | none => resolveRoots W imp roots

/-- `WorkspaceManager` (workspace.rs:8-15): the folders and the resolver's root directories. -/
structure Workspace where
  folders : Folders
  roots : List Str

/-- `WorkspaceManager::new` (workspace.rs:19-21). -/
def Workspace.new : Workspace := ⟨[], []⟩

/-- One URI in `initialize` (workspace.rs:26-33, 35-42): the folder and the directory pushed. -/
def initFolder (toPath : Str → Option Str) (s : Folders × List Str) (uri : Str) : Folders × List Str :=
  match toPath uri with
  | some path => ((uri, path) :: s.1.filter (fun f => decide (f.1 ≠ uri)), s.2 ++ [path])
  | none => s

/-- `initialize` (workspace.rs:24-45) with `root_uri` and the URIs of `workspace_folders`. -/
def Workspace.initialize (toPath : Str → Option Str) (w : Workspace) (rootUri : Option Str) (uris : List Str) : Workspace :=
  let s := (rootUri.toList ++ uris).foldl (initFolder toPath) (w.folders, [])
  ⟨s.1, s.2⟩

/-- `add_folder` (workspace.rs:48-54). -/
def Workspace.add (toPath : Str → Option Str) (w : Workspace) (uri : Str) : Workspace :=
  { w with folders := addFolder toPath w.folders uri }

/-- `remove_folder` (workspace.rs:57-59). -/
def Workspace.remove (w : Workspace) (uri : Str) : Workspace := { w with folders := removeFolder w.folders uri }

/-- `LocationRange` (oak-lsp/src/types.rs:39-46): URI and range. -/
structure Location where
  uri : Str
  start : Nat
  stop : Nat
deriving DecidableEq, Repr

/-- The second half of `definition` (service.rs:177-199): a node, resolved if it is a reference. -/
def definitionOf (isRef : Nat → Bool) (lookup : Str → Option SymInfo) (resolve : Str → Option Str) (src : Source)
    (n : RedNode) : Run (List Location) :=
  if isRef n.kind then do
    let name ← src.textIn n.span.1 n.span.2
    match lookup name with
    | some s => return [⟨s.uri, s.start, s.stop⟩]
    | none =>
      match resolve name with
      | some u => return [⟨u, 0, 0⟩]
      | none => return []
  else .ok []

/-- `definition` (service.rs:156-201). `isRef` is `role().universal() == Reference`; `root` and `src` are
what `get_root` and `get_source` return; `lookup` is that of the workspace's symbols and `resolve` the
workspace's resolver with the URI as base. -/
def definition (isRef : Nat → Bool) (lookup : Str → Option SymInfo) (resolve : Str → Option Str) (uri : Str)
    (root : Option RedNode) (src : Option Source) (start : Nat) : Run (List Location) :=
  match root, src with
  | none, _ => .ok []
  | some _, none => .ok []
  | some root, some src => do
    match ← root.childAtOffset start with
    | some (.node n) => definitionOf isRef lookup resolve src n
    | some (.leaf _ a b) => return [⟨uri, a, b⟩]
    | none => definitionOf isRef lookup resolve src root

/-- `document_symbols` (service.rs:99-115), with whether `get_source` and `get_root` return something;
`StructureItem::from` keeps name and range and is left out. -/
def documentSymbolsRequest (t : SymTable) (uri : Str) (hasSource hasRoot : Bool) : List SymInfo :=
  if hasSource then if hasRoot then if (t.queryFile uri).isEmpty then [] else t.queryFile uri else [] else []

/-- `workspace_symbols` (service.rs:121-123). -/
def workspaceSymbolsRequest (t : SymTable) (q : Str) : List SymInfo := t.query q

end Oaks
