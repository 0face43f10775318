import Verif.Spec.Source

/-
Specification of searching: occurrences of a pattern in a plain text.
-/
namespace Oaks.Spec
open Oaks

/-- The pattern occurs in `t` at byte offset `i`. -/
def OccursAt (t p : Str) (i : Nat) : Prop := IsSlice t i (i + blen p) p

/-- `res` is the right answer to "first occurrence of `p` in `t` at or after byte `o`". -/
def FirstFrom (t : Str) (o : Nat) (p : Str) : Option Nat → Prop
  | some i => o ≤ i ∧ OccursAt t p i ∧ ∀ j, o ≤ j → j < i → ¬ OccursAt t p j
  | none => ∀ j, o ≤ j → ¬ OccursAt t p j

/-- Chunks follow each other without gap: the chunk at the end of a chunk starts there. -/
def Contiguous (src : Source) (t : Str) : Prop :=
  ∀ o c, o < blen t → Boundary t o → src.chunkAt o = .ok c → c.stop < blen t →
    ∃ c', src.chunkAt c.stop = .ok c' ∧ c'.start = c.stop

/-- Every chunk that follows another chunk has at least `n` bytes or reaches the end. -/
def LongChunks (src : Source) (t : Str) (n : Nat) : Prop :=
  ∀ o c c', o < blen t → Boundary t o → src.chunkAt o = .ok c → c.stop < blen t →
    src.chunkAt c.stop = .ok c' → n ≤ blen c'.text ∨ c'.stop = blen t

/-- `n` bytes before the end of a chunk that does not reach the end is a character boundary. -/
def CutsAligned (src : Source) (t : Str) (n : Nat) : Prop :=
  ∀ o c, o < blen t → Boundary t o → src.chunkAt o = .ok c → c.stop < blen t → n ≤ c.stop →
    Boundary t (c.stop - n)

end Oaks.Spec
