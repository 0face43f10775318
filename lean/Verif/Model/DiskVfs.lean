import Verif.Model.Lsp

/-
Model of `projects/oak-vfs/src/vfs/disk.rs`: `DiskVfs` on top of a file system.

The file system is a Unix one, cut down to what the calls of `std::fs` used here can see: a list of
places (the names from the root on) with what is there. Left out: symbolic links, permissions and
other refusals of the operating system, special files, names that are not text or contain NUL, the
limits on the length of names, times, and other programs that change files meanwhile.
-/
namespace Oaks.Dsk

/-- What is at a place: a file holding text, a file of so many bytes that are no UTF-8, a directory
(what `fs::read_to_string` and `fs::metadata` tell apart; disk.rs:42, 67-77). -/
inductive Entry where
  | text (s : Str)
  | binary (len : Nat)
  | dir
deriving DecidableEq, Repr

/-- A place, as the names that lead to it from the root (what a `PathBuf` stands for; disk.rs:25-28). -/
abbrev Place := List Str

/-- The file system (the state behind `std::fs`; disk.rs:6). The root itself is not in the list. -/
abbrev Disk := List (Place × Entry)

/-- What is at a place (`stat`; behind disk.rs:42, 61, 67, 87). -/
def look (d : Disk) (p : Place) : Option Entry :=
  if p = [] then some .dir else (d.find? fun e => decide (e.1 = p)).map Prod.snd

/-- Following the names of a path from a directory, as the operating system does for every call that
takes a path (behind disk.rs:42, 61, 67, 87, 92, 107, 109, 116): what is gone through must be a directory; the last name
need not be there. -/
def walk (d : Disk) : Place → List Str → Option Place
  | p, [] => some p
  | p, c :: cs =>
    if look d p = some .dir then walk d (if c = ['.', '.'] then p.dropLast else p ++ [c]) cs else none

/-- `DiskVfs` (disk.rs:9-16): the two maps and the root path; `cwd` is the directory the process runs
in, which relative paths start from. -/
structure DiskVfs where
  uriToId : FMap Str Nat
  idToUri : FMap Nat Str
  root : Str
  cwd : Place

/-- `DiskVfs::new` (disk.rs:20-22). -/
def DiskVfs.new (root : Str) (cwd : Place) : DiskVfs := ⟨FMap.empty, FMap.empty, root, cwd⟩

/-- `Path::is_absolute` (standard library; disk.rs:27, 32). -/
def isAbs (path : Str) : Bool := path.head? = some '/'

/-- `PathBuf::join` (standard library; disk.rs:27): an absolute second path replaces the first; else a slash comes between them
unless the first is empty or ends in one. -/
def joinPath (a b : Str) : Str :=
  if isAbs b then b
  else if a = [] ∨ a.getLast? = some '/' then a ++ b
  else a ++ '/' :: b

/-- `uri_to_path` (disk.rs:25-28). -/
def DiskVfs.path (v : DiskVfs) (uri : Str) : Str :=
  if isAbs uri then uri else joinPath v.root uri

/-- `Components` of the remainder, written out again (standard library, `Path::strip_prefix`; disk.rs:32). The real one keeps
doubled slashes and `.` between the names that remain. -/
def joinNames : List Str → Str
  | [] => []
  | [n] => n
  | n :: ns => n ++ '/' :: joinNames ns

/-- `Path::strip_prefix` on relative paths (standard library; disk.rs:32): by components. A first
component `.` is left out on both sides. -/
def stripPrefix (path base : Str) : Option Str :=
  if (components base).isPrefixOf (components path) then
    some (joinNames ((components path).drop (components base).length))
  else none

/-- `path_to_uri` (disk.rs:31-34). -/
def DiskVfs.uri (v : DiskVfs) (path : Str) : Str :=
  if isAbs path then path else (stripPrefix path v.root).getD path

/-- Does the path end in a slash or in `/.`? Then only a directory will do (operating system; behind
disk.rs:42, 61, 67, 87, 107, 109, 116). -/
def wantsDir (path : Str) : Bool :=
  decide ((splitSlash path).getLast? = some []) || decide ((splitSlash path).getLast? = some ['.'])

/-- Where a relative or absolute path starts (operating system; behind disk.rs:42). -/
def DiskVfs.start (v : DiskVfs) (path : Str) : Place := if isAbs path then [] else v.cwd

/-- The place a path leads to (operating system; behind disk.rs:42, 61, 67, 87, 107, 109, 116). The
empty path leads nowhere. -/
def DiskVfs.locate (v : DiskVfs) (d : Disk) (path : Str) : Option Place :=
  if path = [] then none
  else match walk d (v.start path) (components path) with
    | none => none
    | some p => if wantsDir path && decide (look d p ≠ some .dir) then none else some p

/-- What is at the end of a path (`stat`; behind disk.rs:42, 61, 67, 87). -/
def DiskVfs.stat (v : DiskVfs) (d : Disk) (path : Str) : Option Entry :=
  match v.locate d path with
  | none => none
  | some p => look d p

/-- `get_source` (disk.rs:41-45). -/
def DiskVfs.getSource (v : DiskVfs) (d : Disk) (uri : Str) : Option Str :=
  match v.stat d (v.path uri) with
  | some (.text s) => some s
  | _ => none

/-- `get_uri` (disk.rs:48-51). -/
def DiskVfs.getUri (v : DiskVfs) (id : Nat) : Option Str := v.idToUri id

/-- `get_id` (disk.rs:54-57). -/
def DiskVfs.getId (v : DiskVfs) (uri : Str) : Option Nat := v.uriToId uri

/-- `exists` (disk.rs:60-62). -/
def DiskVfs.exist (v : DiskVfs) (d : Disk) (uri : Str) : Bool := (v.stat d (v.path uri)).isSome

/-- `metadata` (disk.rs:65-82), whether it is a directory and the length; the length of a directory
(up to the file system) is 0 here, `modified` is left out. -/
def DiskVfs.metadata (v : DiskVfs) (d : Disk) (uri : Str) : Option (Bool × Nat) :=
  match v.stat d (v.path uri) with
  | some (.text s) => some (false, blen s)
  | some (.binary n) => some (false, n)
  | some .dir => some (true, 0)
  | none => none

/-- The names in a directory, in the order of the list (`fs::read_dir`; disk.rs:92). -/
def namesIn (d : Disk) (p : Place) : List Str :=
  d.filterMap fun e => match e.1.getLast? with
    | some n => if e.1.dropLast = p then some n else none
    | none => none

/-- `read_dir` (disk.rs:85-98); `entry.path()` is the path joined with the name. -/
def DiskVfs.readDir (v : DiskVfs) (d : Disk) (uri : Str) : Option (List Str) :=
  match v.locate d (v.path uri) with
  | none => none
  | some p =>
    if look d p = some .dir then some ((namesIn d p).map fun n => v.uri (joinPath (v.path uri) n)) else none

/-- `fs::create_dir_all` (standard library; disk.rs:107): the directories of the path, one after
another; it stops where a file is in the way. -/
def makeDirs (d : Disk) : Place → List Str → Disk
  | _, [] => d
  | p, c :: cs =>
    if c = ['.', '.'] then makeDirs d p.dropLast cs
    else match look d (p ++ [c]) with
      | some .dir => makeDirs d (p ++ [c]) cs
      | none => makeDirs ((p ++ [c], .dir) :: d) (p ++ [c]) cs
      | some _ => d

/-- Putting a file at a place (`open` with `O_CREAT | O_TRUNC` and `write`; disk.rs:109). -/
def putFile (d : Disk) (p : Place) (s : Str) : Disk :=
  (p, .text s) :: d.filter fun e => decide (e.1 ≠ p)

/-- `fs::write` (standard library; disk.rs:109): refused for a directory and for a path that asks for
one. -/
def DiskVfs.fsWrite (v : DiskVfs) (d : Disk) (path content : Str) : Disk :=
  if path = [] ∨ wantsDir path then d
  else match walk d (v.start path) (components path) with
    | none => d
    | some p => if look d p = some .dir then d else putFile d p content

/-- `write_file` (disk.rs:104-111); `path.parent()` has all components but the last, and there is
none without components. -/
def DiskVfs.writeFile (v : DiskVfs) (d : Disk) (uri content : Str) : Disk :=
  let path := v.path uri
  let d := makeDirs d (v.start path) (components path).dropLast
  v.fsWrite d path content

/-- `remove_file` (disk.rs:114-118). -/
def DiskVfs.removeFile (v : DiskVfs) (d : Disk) (uri : Str) : Disk :=
  match v.locate d (v.path uri) with
  | none => d
  | some p => if look d p = some .dir then d else d.filter fun e => decide (e.1 ≠ p)

end Oaks.Dsk
