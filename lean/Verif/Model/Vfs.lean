import Verif.Base.FMap
import Verif.Base.Str

/-
Model of `projects/oak-vfs/src/vfs/memory.rs`: `MemoryVfs`, first one call at a time, then
call by call under the three locks.

Not modelled: `modified` times, `read_dir` (see `Model/Lsp.lean`), lock poisoning (no code that can
panic runs while a lock is held).
-/
namespace Oaks

/-- `FileEntry` (memory.rs:34-38), without `modified`. -/
structure FileEntry where
  content : Str
  id : Nat
deriving DecidableEq, Repr

/-- The contents of `MemoryVfs` (memory.rs:17-26). `nextId` is an `AtomicU32`, below `2^32`. -/
structure MemFs where
  files : FMap Str FileEntry
  ids : FMap Nat Str
  uriToId : FMap Str Nat
  nextId : Nat

/-- `MemoryVfs::new` (memory.rs:42-44). -/
def MemFs.new : MemFs := ⟨FMap.empty, FMap.empty, FMap.empty, 0⟩

/-- `write_file` (memory.rs:47-64); `fetch_add` wraps. -/
def MemFs.write (m : MemFs) (uri content : Str) : MemFs :=
  match m.uriToId uri with
  | some id => { m with files := m.files.insert uri ⟨content, id⟩ }
  | none =>
    let id := m.nextId
    { files := m.files.insert uri ⟨content, id⟩, ids := m.ids.insert id uri,
      uriToId := m.uriToId.insert uri id, nextId := (m.nextId + 1) % 2 ^ 32 }

/-- `remove_file` (memory.rs:67-76). -/
def MemFs.remove (m : MemFs) (uri : Str) : MemFs :=
  match m.files uri with
  | some entry =>
    { m with files := m.files.remove uri, uriToId := m.uriToId.remove uri, ids := m.ids.remove entry.id }
  | none => m

/-- `get_source` (memory.rs:96-99): the text and the source id. -/
def MemFs.getSource (m : MemFs) (uri : Str) : Option (Str × Nat) :=
  (m.files uri).map fun entry => (entry.content, entry.id)
/-- `get_uri` (memory.rs:102-105). -/
def MemFs.getUri (m : MemFs) (id : Nat) : Option Str := m.ids id
/-- `get_id` (memory.rs:108-111). -/
def MemFs.getId (m : MemFs) (uri : Str) : Option Nat := m.uriToId uri
/-- `exists` (memory.rs:114-116). -/
def MemFs.exist (m : MemFs) (uri : Str) : Bool := (m.files uri).isSome
/-- `metadata` (memory.rs:119-122): a regular file and its length. -/
def MemFs.metadataLen (m : MemFs) (uri : Str) : Option Nat := (m.files uri).map fun e => blen e.content

/-- The calls that change the file system (memory.rs:47-80). -/
inductive VfsWrite where
  | write (uri content : Str)
  | remove (uri : Str)
deriving DecidableEq, Repr

/-- The calls that only look (memory.rs:95-122). -/
inductive VfsRead where
  | source (uri : Str)
  | uri (id : Nat)
  | id (uri : Str)
  | exist (uri : Str)
  | len (uri : Str)
deriving DecidableEq, Repr

/-- The answers to `VfsRead` calls (memory.rs:95-122). -/
inductive VfsAnswer where
  | source (r : Option (Str × Nat))
  | uri (r : Option Str)
  | id (r : Option Nat)
  | exist (r : Bool)
  | len (r : Option Nat)
deriving DecidableEq, Repr

/-- A changing call (memory.rs:47-80). -/
def MemFs.apply (m : MemFs) : VfsWrite → MemFs
  | .write u c => m.write u c
  | .remove u => m.remove u

/-- A sequence of changing calls by a client (memory.rs:47-80). -/
def MemFs.applyAll (m : MemFs) (ops : List VfsWrite) : MemFs := ops.foldl MemFs.apply m

/-- A looking call (memory.rs:95-122). -/
def MemFs.answer (m : MemFs) : VfsRead → VfsAnswer
  | .source u => .source (m.getSource u)
  | .uri i => .uri (m.getUri i)
  | .id u => .id (m.getId u)
  | .exist u => .exist (m.exist u)
  | .len u => .len (m.metadataLen u)

/-! ## Threads

Every call runs in steps: acquiring one lock, one access to one map or to the counter, or releasing
one lock. Any number of threads run calls in any interleaving. The `RwLock`s are numbered in the
order in which `write_file` and `remove_file` take them: 0 = `files`, 1 = `ids`, 2 = `uri_to_id`. -/

/-- Where a writing call is between its last acquisition and its first release (memory.rs:53-75). -/
inductive Body where
  /-- all locks just taken -/
  | start
  /-- `write_file`: the URI has no id (memory.rs:53, 56) -/
  | fresh
  /-- `write_file`: after `fetch_add` (memory.rs:57) -/
  | alloc (id : Nat)
  /-- `write_file`: after `uri_to_id.insert` (memory.rs:58) -/
  | mapped (id : Nat)
  /-- `write_file`: id known, only `files.insert` is left (memory.rs:63) -/
  | ready (id : Nat)
  /-- `remove_file`: after `files.remove` gave an entry (memory.rs:72) -/
  | taken (e : FileEntry)
  /-- `remove_file`: after `uri_to_id.remove` (memory.rs:73) -/
  | unmapped (e : FileEntry)

/-- Where a thread is in its call (memory.rs:47-122). -/
inductive Pc where
  | idle
  /-- a writing call that holds locks `0..held` and is acquiring lock `held` -/
  | acquire (op : VfsWrite) (held : Nat)
  | body (op : VfsWrite) (b : Body)
  /-- a writing call that has done its work and still holds locks `0..held` (guards are dropped in
  reverse order of declaration) -/
  | release (op : VfsWrite) (held : Nat)
  | readWant (q : VfsRead)
  | readHeld (q : VfsRead)
  | readDone (q : VfsRead) (a : VfsAnswer)

/-- The lock a reading call takes (memory.rs:97, 103, 109, 115, 120). -/
def VfsRead.lock : VfsRead → Nat
  | .source _ => 0
  | .uri _ => 1
  | .id _ => 2
  | .exist _ => 0
  | .len _ => 0

/-- `RwLock` (standard library; memory.rs:17-26): one writer or any number of readers (thread numbers). -/
structure RwLock where
  writer : Option Nat
  readers : List Nat

/-- One access inside `write_file` (memory.rs:53-63) or `remove_file` (memory.rs:72-75): the maps
after it and where the call goes on; `none` when the call has done its work. Combinations that do
not occur change nothing. -/
def bodyStep (m : MemFs) : VfsWrite → Body → MemFs × Option Body
  | .write u _, .start =>
    match m.uriToId u with
    | some id => (m, some (.ready id))
    | none => (m, some .fresh)
  | .write _ _, .fresh => ({ m with nextId := (m.nextId + 1) % 2 ^ 32 }, some (.alloc m.nextId))
  | .write u _, .alloc id => ({ m with uriToId := m.uriToId.insert u id }, some (.mapped id))
  | .write u _, .mapped id => ({ m with ids := m.ids.insert id u }, some (.ready id))
  | .write u c, .ready id => ({ m with files := m.files.insert u ⟨c, id⟩ }, none)
  | .remove u, .start =>
    match m.files u with
    | some e => ({ m with files := m.files.remove u }, some (.taken e))
    | none => (m, none)
  | .remove u, .taken e => ({ m with uriToId := m.uriToId.remove u }, some (.unmapped e))
  | .remove _, .unmapped e => ({ m with ids := m.ids.remove e.id }, none)
  | _, _ => (m, none)

/-- The whole system: the maps, the locks (memory.rs:17-26) and any number of client threads. -/
structure VfsSys where
  mem : MemFs
  locks : Nat → RwLock
  pc : Nat → Pc

/-- `MemoryVfs::new` (memory.rs:42-44) with all threads idle. -/
def VfsSys.new : VfsSys := ⟨MemFs.new, fun _ => ⟨none, []⟩, fun _ => .idle⟩

/-- What can be seen of a step of a call (memory.rs:47-122): calls and returns, and the marker `work` where a call does its
work. -/
inductive VfsEvent where
  | callWrite (t : Nat) (op : VfsWrite)
  | workWrite (t : Nat) (op : VfsWrite)
  | retWrite (t : Nat) (op : VfsWrite)
  | callRead (t : Nat) (q : VfsRead)
  | workRead (t : Nat) (q : VfsRead) (a : VfsAnswer)
  | retRead (t : Nat) (q : VfsRead) (a : VfsAnswer)
deriving DecidableEq

/-- Bookkeeping of the thread model of memory.rs:47-122: move thread `t`. -/
def setPc (s : VfsSys) (t : Nat) (p : Pc) : VfsSys :=
  { s with pc := fun x => if x = t then p else s.pc x }

/-- Bookkeeping of the thread model of memory.rs:47-122: set lock `i`. -/
def setLock (s : VfsSys) (i : Nat) (l : RwLock) : VfsSys :=
  { s with locks := fun x => if x = i then l else s.locks x }

/-- One step of thread `t` (memory.rs:47-122), with what can be seen of it. -/
inductive VfsStep : VfsSys → Option VfsEvent → VfsSys → Prop where
  | callWrite {s : VfsSys} {t : Nat} {op : VfsWrite} : s.pc t = .idle →
      VfsStep s (some (.callWrite t op)) (setPc s t (.acquire op 0))
  | acquire {s : VfsSys} {t : Nat} {op : VfsWrite} {k : Nat} : s.pc t = .acquire op k →
      s.locks k = ⟨none, []⟩ →
      VfsStep s none (setPc (setLock s k ⟨some t, []⟩) t
        (if k = 2 then .body op .start else .acquire op (k + 1)))
  | bodyMore {s : VfsSys} {t : Nat} {op : VfsWrite} {b b' : Body} {m' : MemFs} : s.pc t = .body op b →
      bodyStep s.mem op b = (m', some b') →
      VfsStep s none (setPc { s with mem := m' } t (.body op b'))
  | bodyEnd {s : VfsSys} {t : Nat} {op : VfsWrite} {b : Body} {m' : MemFs} : s.pc t = .body op b →
      bodyStep s.mem op b = (m', none) →
      VfsStep s (some (.workWrite t op)) (setPc { s with mem := m' } t (.release op 3))
  | release {s : VfsSys} {t : Nat} {op : VfsWrite} {k : Nat} : s.pc t = .release op (k + 1) →
      VfsStep s (if k = 0 then some (.retWrite t op) else none)
        (setPc (setLock s k ⟨none, (s.locks k).readers⟩) t (if k = 0 then .idle else .release op k))
  | callRead {s : VfsSys} {t : Nat} {q : VfsRead} : s.pc t = .idle →
      VfsStep s (some (.callRead t q)) (setPc s t (.readWant q))
  | acquireRead {s : VfsSys} {t : Nat} {q : VfsRead} : s.pc t = .readWant q →
      (s.locks q.lock).writer = none →
      VfsStep s none (setPc (setLock s q.lock ⟨none, t :: (s.locks q.lock).readers⟩) t (.readHeld q))
  | read {s : VfsSys} {t : Nat} {q : VfsRead} : s.pc t = .readHeld q →
      VfsStep s (some (.workRead t q (s.mem.answer q))) (setPc s t (.readDone q (s.mem.answer q)))
  | releaseRead {s : VfsSys} {t : Nat} {q : VfsRead} {a : VfsAnswer} : s.pc t = .readDone q a →
      VfsStep s (some (.retRead t q a))
        (setPc (setLock s q.lock ⟨(s.locks q.lock).writer, (s.locks q.lock).readers.erase t⟩) t .idle)

/-- Executions from the empty file system (memory.rs:42-44), with their traces (oldest event first). -/
inductive VfsExec : List VfsEvent → VfsSys → Prop where
  | nil : VfsExec [] VfsSys.new
  | step {tr : List VfsEvent} {s s' : VfsSys} {e : Option VfsEvent} : VfsExec tr s → VfsStep s e s' →
      VfsExec (tr ++ e.toList) s'

end Oaks
