import Verif.Base.Str
import Verif.Base.Run
import Verif.Model.Vfs

/-
Model of `projects/oak-lsp/src/workspace.rs` (folders, `find_root`) and
`projects/oak-lsp/src/service.rs: list_all_files`.

Simplifications: `Url::parse(uri)` followed by `to_file_path` is a parameter `toPath`; paths are Unix
paths and absolute (which `to_file_path` guarantees). The `DashMap` of folders is a list of entries
in the order in which it is iterated; that order is arbitrary, so theorems quantify over it.
-/
namespace Oaks

/-- The pieces of a path between slashes, the first step of `Path::components` (standard library; workspace.rs:77-94). -/
def splitSlash : Str → List Str
  | [] => [[]]
  | c :: rest =>
    if c = '/' then [] :: splitSlash rest
    else match splitSlash rest with
      | [] => [[c]]
      | p :: ps => (c :: p) :: ps

/-- `Path::components` of an absolute path (standard library; workspace.rs:77-94), without the root: repeated
slashes and `.` are dropped. -/
def components (path : Str) : List Str :=
  (splitSlash path).filter fun c => decide (c ≠ [] ∧ c ≠ ['.'])

/-- `Path::starts_with` on absolute paths (standard library; workspace.rs:77-94): by components. -/
def pathStartsWith (path base : Str) : Bool := (components base).isPrefixOf (components path)

/-- `WorkspaceManager::folders`, in iteration order: folder URI and path (workspace.rs:8-15). -/
abbrev Folders := List (Str × Str)

/-- `add_folder` (workspace.rs:48-54). -/
def addFolder (toPath : Str → Option Str) (fs : Folders) (uri : Str) : Folders :=
  match toPath uri with
  | some path => (uri, path) :: fs.filter (fun f => decide (f.1 ≠ uri))
  | none => fs

/-- `remove_folder` (workspace.rs:57-59). -/
def removeFolder (fs : Folders) (uri : Str) : Folders := fs.filter (fun f => decide (f.1 ≠ uri))

/-- The loop of `find_root` (workspace.rs:81-91); `best` is `best_match`. -/
def findRootLoop (path : Str) : Folders → Option (Str × Nat) → Option (Str × Nat)
  | [], best => best
  | (folderUri, folderPath) :: rest, best =>
    if pathStartsWith path folderPath then
      let len := blen folderPath
      if best.all (fun b => decide (len > b.2)) then findRootLoop path rest (some (folderUri, len))
      else findRootLoop path rest best
    else findRootLoop path rest best

/-- `find_root` (workspace.rs:77-94). -/
def findRoot (toPath : Str → Option Str) (fs : Folders) (uri : Str) : Option Str := do
  let path ← toPath uri
  (findRootLoop path fs none).map Prod.fst

/-- `is_within_workspace` (workspace.rs:97-99). -/
def isWithinWorkspace (toPath : Str → Option Str) (fs : Folders) (uri : Str) : Bool :=
  (findRoot toPath fs uri).isSome

/-- What `list_all_files` uses of a `Vfs` (oak-vfs/src/lib.rs:92-102). -/
structure FsView where
  isFile : Str → Bool
  isDir : Str → Bool
  readDir : Str → Option (List Str)

/-- The loop of `list_all_files` (service.rs:136-145). `stack` has its top first; the result lists
the files pushed from here on. -/
def listLoop (fs : FsView) : Nat → List Str → Run (List Str)
  | _, [] => .ok []
  | 0, _ :: _ => .error .spin
  | fuel + 1, uri :: stack =>
    if fs.isFile uri then do
      let rest ← listLoop fs fuel stack
      pure (uri :: rest)
    else if fs.isDir uri then
      match fs.readDir uri with
      | some entries => listLoop fs fuel (entries.reverse ++ stack)
      | none => listLoop fs fuel stack
    else listLoop fs fuel stack

/-- `list_all_files` (service.rs:130-148). -/
def listAllFiles (fs : FsView) (fuel : Nat) (root : Str) : Run (List Str) := listLoop fs fuel [root]

/-- The `FsView` of a `MemoryVfs` (memory.rs:119-130): `metadata` knows only regular files;
`read_dir` of anything lists all files, here in the order `keys`. -/
def MemFs.view (m : MemFs) (keys : List Str) : FsView where
  isFile uri := m.exist uri
  isDir _ := false
  readDir _ := some keys

end Oaks
