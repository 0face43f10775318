import Verif.Model.Arena

/-
Histories of one thread's arenas, the contract of the system allocator and what ownership means.
-/
namespace Oaks.Spec
open Oaks

/-- Two address ranges (start, size) do not overlap. -/
def Apart (a b : Nat × Nat) : Prop := a.1 + a.2 ≤ b.1 ∨ b.1 + b.2 ≤ a.1

/-- `a` lies inside `b`. -/
def Inside (a b : Nat × Nat) : Prop := b.1 ≤ a.1 ∧ a.1 + a.2 ≤ b.1 + b.2

/-- The system allocator's contract for a request of `n` bytes with alignment 8: an aligned block, not
in the first bytes of memory, apart from every block it has given out and not taken back. -/
def SysPlace (h : Heap) (p n : Nat) : Prop := 8 ∣ p ∧ 8 ≤ p ∧ ∀ b ∈ h.blocks, Apart (p, n) b

/-- The chunks an arena holds. -/
def chunksOf (a : Arena) : List (Nat × Nat) :=
  if a.cur = 1 then a.full else (a.cur, a.stop - a.cur) :: a.full

def chunksOf? : Option Arena → List (Nat × Nat)
  | some a => chunksOf a
  | none => []

/-- Every chunk held by the pool or by a live arena, with multiplicity. -/
def heldChunks (m : Mem) : List (Nat × Nat) :=
  m.heap.pool.map (fun p => (p, chunkSize)) ++ m.arenas.flatMap chunksOf?

/-- Everything that can happen on one thread, with the blocks `g i` handed out by arena `i` so far
(address and size, latest first). The system allocator, if asked, answers within its contract. -/
inductive Hist : Mem → (Nat → List (Nat × Nat)) → Prop where
  | init : Hist Mem.empty (fun _ => [])
  | create {m : Mem} {g : Nat → List (Nat × Nat)} : Hist m g → Hist m.newArena g
  | alloc {m m' : Mem} {g : Nat → List (Nat × Nat)} {i size p r : Nat} : Hist m g →
      SysPlace m.heap p (max (size + 8) chunkSize) → m.alloc i size p = .ok (m', r) →
      Hist m' (fun j => if j = i then (r, size) :: g j else g j)
  | drop {m m' : Mem} {g : Nat → List (Nat × Nat)} {i : Nat} : Hist m g → m.dropArena i = .ok m' → Hist m' g

end Oaks.Spec
