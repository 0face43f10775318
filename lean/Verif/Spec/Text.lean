import Verif.Base.Str

/-
Specification of texts, ranges and edits. Does not mention any source, rope or chunk.
-/
namespace Oaks.Spec
open Oaks

/-- `m` is the text of `t` between byte offsets `a` and `b` (both on character boundaries). -/
def IsSlice (t : Str) (a b : Nat) (m : Str) : Prop :=
  ∃ l r, t = l ++ m ++ r ∧ blen l = a ∧ blen l + blen m = b

/-- `a` is a character boundary of `t`. -/
def Boundary (t : Str) (a : Nat) : Prop := ∃ l r, t = l ++ r ∧ blen l = a

/-- An edit: replace the bytes `start..stop` by `text`. -/
structure Change where
  start : Nat
  stop : Nat
  text : Str
deriving DecidableEq, Repr

/-- Simultaneous splice. `Spliced o s es n`: the text `s`, which begins at byte `o` of the old
text, becomes `n` when the changes `es` (positions in the old text, in order, not overlapping,
inside `s`, on character boundaries) are all made. -/
inductive Spliced : Nat → Str → List Change → Str → Prop where
  | nil (o : Nat) (s : Str) : Spliced o s [] s
  | cons {o : Nat} {gap del rest new : Str} {e : Change} {es : List Change} :
      o + blen gap = e.start → e.start + blen del = e.stop → Spliced e.stop rest es new →
      Spliced o (gap ++ del ++ rest) (e :: es) (gap ++ e.text ++ new)

/-- `sorted` lists the same changes as `edits`, changes with the same start in the same order. -/
def SameChanges (edits sorted : List Change) : Prop :=
  ∀ p, edits.filter (fun e => e.start == p) = sorted.filter (fun e => e.start == p)

/-- The batch `edits`, listed in any order, turns `old` into `new`. -/
def Batch (old : Str) (edits : List Change) (new : Str) : Prop :=
  ∃ sorted, SameChanges edits sorted ∧ Spliced 0 old sorted new

/-- A history of batches turns `old` into `new`. -/
inductive History : Str → List (List Change) → Str → Prop where
  | nil (s : Str) : History s [] s
  | cons {s t u : Str} {b : List Change} {bs : List (List Change)} :
      Batch s b t → History t bs u → History s (b :: bs) u

/-- What "valid edits" means arithmetically: on boundaries, in range, pairwise disjoint,
no two at the same start. -/
structure ValidEdits (old : Str) (edits : List Change) : Prop where
  bounds : ∀ e ∈ edits, Boundary old e.start ∧ Boundary old e.stop ∧ e.start ≤ e.stop
  disjoint : edits.Pairwise (fun e f => (e.stop ≤ f.start ∨ f.stop ≤ e.start) ∧ e.start ≠ f.start)

/-- Everything outside byte range `[a, b)` of `new` is unchanged from `old`. -/
def ChangedWithin (old new : Str) (a b : Nat) : Prop :=
  ∃ pre mid mid' post, old = pre ++ mid ++ post ∧ new = pre ++ mid' ++ post ∧
    blen pre = a ∧ blen pre + blen mid' = b

end Oaks.Spec
