import Verif.Base.Run

/-
Model of `projects/oak-core/src/memory/arena.rs` (`SyntaxArena`).

Addresses are naturals. The system allocator is a parameter: where a call of `alloc` puts its block is
the argument `p` of the functions below, and the theorems assume only the allocator's contract (see
`Spec/Arena.lean`). The contents of memory are not modelled, only who owns which addresses. One
thread (the chunk pool is thread-local); access to the pool does not fail (`try_with` fails only
while the thread is being destroyed). Address arithmetic does not overflow `usize` (layout sizes are
at most `isize::MAX`).
-/

namespace Oaks

/-- `CHUNK_SIZE` (arena.rs:47). -/
def chunkSize : Nat := 65536

/-- What the system has given out and not yet taken back (start, size), and `CHUNK_POOL`
(arena.rs:62-64; the top of the vector is the head of the list). -/
structure Heap where
  blocks : List (Nat × Nat)
  pool : List Nat

/-- `SyntaxArena` (arena.rs:71-84) without the metadata store. -/
structure Arena where
  ptr : Nat
  stop : Nat
  full : List (Nat × Nat)
  cur : Nat

/-- `SyntaxArena::new` (arena.rs:91-95): `ptr` and `end` dangle at 8, the chunk start at
`NonNull::<u8>::dangling()`, which is address 1. -/
def Arena.new : Arena := ⟨8, 8, [], 1⟩

/-- `(x + ALIGN - 1) & !(ALIGN - 1)` (arena.rs:224, 267). -/
def alignUp (x : Nat) : Nat := (x + 7) / 8 * 8

/-- `alloc_chunk` (arena.rs:277-296); `p` is what the system allocator answers if it is asked. -/
def Heap.allocChunk (h : Heap) (size p : Nat) : Heap × Nat :=
  if size = chunkSize then
    match h.pool with
    | c :: rest => ({ h with pool := rest }, c)
    | [] => ({ h with blocks := (p, size) :: h.blocks }, p)
  else ({ h with blocks := (p, size) :: h.blocks }, p)

/-- Retiring the current chunk (arena.rs:243-251). -/
def Arena.retire (a : Arena) : Run (List (Nat × Nat)) :=
  if a.cur ≠ 1 then do
    let actual ← checkedSub a.stop a.cur
    return (a.cur, actual) :: a.full
  else .ok a.full

/-- `alloc_slow` (arena.rs:241-274). -/
def allocSlow (h : Heap) (a : Arena) (size p : Nat) : Run (Heap × Arena × Nat) := do
  let full ← a.retire
  let allocSize := max (size + 8) chunkSize
  let r := h.allocChunk allocSize p
  return (r.1, ⟨alignUp (r.2 + size), r.2 + allocSize, full, r.2⟩, r.2)

/-- `alloc_raw` (arena.rs:210-233), the body of `alloc`, `alloc_slice_copy` and
`alloc_slice_fill_iter` (122-199) as far as addresses are concerned. The `debug_assert` on alignment
is a panic. -/
def allocRaw (h : Heap) (a : Arena) (size p : Nat) : Run (Heap × Arena × Nat) :=
  if a.ptr % 8 ≠ 0 then .error .panic
  else if alignUp (a.ptr + size) ≤ a.stop then
    .ok (h, { a with ptr := alignUp (a.ptr + size) }, a.ptr)
  else allocSlow h a size p

/-- `recycle_chunk` (arena.rs:325-344). Freeing a block that the system has not given out with that
layout is undefined behaviour, modelled as a panic. -/
def Heap.recycle (h : Heap) (c : Nat × Nat) : Run Heap :=
  if c.2 = chunkSize then
    .ok (if h.pool.length < 64 then { h with pool := c.1 :: h.pool } else h)
  else if c ∈ h.blocks then .ok { h with blocks := h.blocks.erase c }
  else .error .panic

/-- `for (ptr, size) in full_chunks { recycle_chunk }` (arena.rs:312-314). -/
def Heap.recycleAll (h : Heap) : List (Nat × Nat) → Run Heap
  | [] => .ok h
  | c :: cs => do (← h.recycle c).recycleAll cs

/-- `Drop for SyntaxArena` (arena.rs:299-317). -/
def Arena.drop (h : Heap) (a : Arena) : Run Heap := do
  if a.cur ≠ 1 then
    let actual ← checkedSub a.stop a.cur
    let h ← h.recycle (a.cur, actual)
    h.recycleAll a.full
  else h.recycleAll a.full

/-- One thread: the heap and the arenas created so far (`none` once dropped). No such structure in the code: it is the
state of a client that calls `SyntaxArena::new`, `alloc*` and `drop` (memory/arena.rs:86-317). -/
structure Mem where
  heap : Heap
  arenas : List (Option Arena)

/-- The client's state before any call; the pool starts empty (memory/arena.rs:62-64). -/
def Mem.empty : Mem := ⟨⟨[], []⟩, []⟩

/-- A call of `SyntaxArena::new` (memory/arena.rs:91-95). -/
def Mem.newArena (m : Mem) : Mem := { m with arenas := m.arenas ++ [some Arena.new] }

/-- A call of `alloc_raw` for `size` bytes in arena `i` (memory/arena.rs:210-233). -/
def Mem.alloc (m : Mem) (i size p : Nat) : Run (Mem × Nat) :=
  match m.arenas[i]? with
  | some (some a) => do
    let (h, a', r) ← allocRaw m.heap a size p
    return (⟨h, m.arenas.set i (some a')⟩, r)
  | _ => .error .panic

/-- Dropping arena `i` (memory/arena.rs:299-317). -/
def Mem.dropArena (m : Mem) (i : Nat) : Run Mem :=
  match m.arenas[i]? with
  | some (some a) => do
    let h ← a.drop m.heap
    return ⟨h, m.arenas.set i none⟩
  | _ => .error .panic

/-! ## Provenance metadata (arena.rs:97-108) -/

/-- `add_metadata` (memory/arena.rs:98-102): push, answer the new length as `u32` (`NonZeroU32::new(0)` panics). -/
def addMetadata {P : Type} (store : List P) (p : P) : Run (List P × Nat) :=
  let store' := store ++ [p]
  if store'.length % 2 ^ 32 = 0 then .error .panic else .ok (store', store'.length % 2 ^ 32)

/-- `get_metadata` for a non-zero index (memory/arena.rs:105-108). -/
def getMetadata {P : Type} (store : List P) (i : Nat) : Option P := store[i - 1]?

end Oaks
