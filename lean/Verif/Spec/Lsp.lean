import Verif.Model.Lsp

/-
Folders of a workspace and directory trees.
-/
namespace Oaks.Spec
open Oaks

/-- The text of an absolute path with the given names, with or without a final slash. -/
def pathText (names : List Str) (slash : Bool) : Str :=
  names.flatMap (fun n => '/' :: n) ++ if slash then ['/'] else []

/-- A name as it appears in a path: not empty, not `.`, no slash. -/
def IsName (n : Str) : Prop := n ≠ [] ∧ n ≠ ['.'] ∧ '/' ∉ n

/-- `path` is written without doubled slashes and leads through the folders `names`. -/
def Leads (path : Str) (names : List Str) : Prop :=
  (∀ n ∈ names, IsName n) ∧ ∃ slash, path = pathText names slash

/-- A directory tree with its URIs. `locked` is a directory that cannot be read, `other` anything
that is neither a file nor a directory. -/
inductive FsTree where
  | file (uri : Str)
  | dir (uri : Str) (children : List FsTree)
  | locked (uri : Str)
  | other (uri : Str)

def FsTree.uri : FsTree → Str
  | .file u => u
  | .dir u _ => u
  | .locked u => u
  | .other u => u

mutual
/-- The files below a tree. -/
def FsTree.files : FsTree → List Str
  | .file u => [u]
  | .dir _ cs => filesOf cs
  | .locked _ => []
  | .other _ => []
def filesOf : List FsTree → List Str
  | [] => []
  | c :: cs => c.files ++ filesOf cs
end

mutual
/-- The number of nodes of a tree. -/
def FsTree.size : FsTree → Nat
  | .file _ => 1
  | .dir _ cs => 1 + sizeOfTrees cs
  | .locked _ => 1
  | .other _ => 1
def sizeOfTrees : List FsTree → Nat
  | [] => 0
  | c :: cs => c.size + sizeOfTrees cs
end

mutual
/-- The file system shows this tree; children are listed in the order of the tree. -/
def Shows (fs : FsView) : FsTree → Prop
  | .file u => fs.isFile u = true
  | .dir u cs => fs.isFile u = false ∧ fs.isDir u = true ∧
      fs.readDir u = some (cs.map FsTree.uri) ∧ ShowsAll fs cs
  | .locked u => fs.isFile u = false ∧ fs.isDir u = true ∧ fs.readDir u = none
  | .other u => fs.isFile u = false ∧ fs.isDir u = false
def ShowsAll (fs : FsView) : List FsTree → Prop
  | [] => True
  | c :: cs => Shows fs c ∧ ShowsAll fs cs
end

end Oaks.Spec
