import Verif.Model.Visit
import Verif.Proofs.Tree

/-! A visitor sees the elements of a tree in preorder. -/

namespace Oaks
open Spec

/-- What a visitor does at one element. -/
def visitOne {S : Type} (enter : RedNode → S → Run S) (token : Nat × Nat × Nat → S → Run S) (s : S)
    (x : Green × Nat) : Run S :=
  visitChild enter token s (Red.ofGreen x.1 x.2)

theorem foldlM_append_run {S A : Type} (f : S → A → Run S) (a b : List A) (s : S) :
    (a ++ b).foldlM f s = (a.foldlM f s >>= fun s => b.foldlM f s) := List.foldlM_append ..

theorem foldlM_row {S : Type} (f : S → Red → Run S) (g : S → Green × Nat → Run S) (cs : List Green)
    (hb : ∀ c ∈ cs, Built c)
    (h : ∀ c ∈ cs, ∀ o s, f s (Red.ofGreen c o) = (preorder o c).foldlM g s) (o : Nat) (s : S) :
    ((placeRow o cs).map (fun x => Red.ofGreen x.1 x.2)).foldlM f s = (preorderList o cs).foldlM g s := by
  induction cs generalizing o s with
  | nil => rfl
  | cons c cs ih =>
    simp only [placeRow, List.map_cons, List.foldlM_cons, preorderList, foldlM_append_run]
    rw [h c (List.mem_cons_self ..), (hb c (List.mem_cons_self ..)).len_eq.1]
    cases (preorder o c).foldlM g s with
    | error e => rfl
    | ok s' =>
      simp only [run_bind_ok]
      exact ih (fun c hc => hb c (List.mem_cons_of_mem _ hc))
        (fun c hc => h c (List.mem_cons_of_mem _ hc)) _ _

theorem visitWith_ok {S : Type} (enter : RedNode → S → Run S) (token : Nat × Nat × Nat → S → Run S) {g : Green}
    (hg : Built g) : ∀ (k n : Nat) (cs : List Green) (o fuel : Nat) (s : S), g = .node k n cs → sizeOf' g ≤ fuel →
    visitWith enter token fuel ⟨k, n, cs, o⟩ s = (preorder o g).foldlM (visitOne enter token) s := by
  refine Built.rec' (P := fun g => ∀ (k n : Nat) (cs : List Green) (o fuel : Nat) (s : S), g = .node k n cs →
    sizeOf' g ≤ fuel → visitWith enter token fuel ⟨k, n, cs, o⟩ s = (preorder o g).foldlM (visitOne enter token) s)
    ?_ ?_ hg
  · intro k n m _ k' n' cs' o fuel s he; cases he
  · intro k cs hb ih hlt k' n' cs' o fuel s he hf
    cases he
    cases fuel with
    | zero => simp [sizeOf'] at hf
    | succ fuel =>
      simp only [visitWith, preorder, List.foldlM_cons]
      have h0 : visitOne enter token s (.node k (lenSum cs) cs, o) = enter ⟨k, lenSum cs, cs, o⟩ s := rfl
      rw [h0]
      cases enter ⟨k, lenSum cs, cs, o⟩ s with
      | error e => rfl
      | ok s' =>
        have hc := childIter_ok ⟨k, lenSum cs, cs, o⟩
        simp only [] at hc
        rw [run_bind_ok, run_bind_ok, hc, run_bind_ok]
        refine foldlM_row _ _ cs hb ?_ o s'
        intro c hc o' s''
        cases c with
        | leaf k2 n2 m2 => 
          simp only [preorder, List.foldlM_cons, List.foldlM_nil, visitOne, Red.ofGreen, visitChild]
          cases token (k2, o', o' + n2) s'' <;> rfl
        | node k2 n2 cs2 =>
          have := sizeOf'_le_list hc
          refine ih _ hc k2 n2 cs2 o' fuel s'' rfl ?_
          simp only [sizeOf'] at hf ⊢ this
          omega

/-- The leaves of a tree are the leaves in preorder. -/
def leafOnly (x : Green × Nat) : Option (Nat × Nat × Nat) :=
  match x.1 with
  | .node _ _ _ => none
  | .leaf k n _ => some (k, x.2, x.2 + n)

theorem leaves_preorder {g : Green} (hg : Built g) : ∀ o, (preorder o g).filterMap leafOnly = place o (leavesOf g) := by
  refine Built.rec' (P := fun g => ∀ o, (preorder o g).filterMap leafOnly = place o (leavesOf g)) ?_ ?_ hg
  · intro k n m _ o; simp [preorder, leafOnly, leavesOf, place]
  · intro k cs hb ih _ o
    have : ∀ (l : List Green) o, (∀ c ∈ l, c ∈ cs) → (preorderList o l).filterMap leafOnly = place o (leavesOfList l) := by
      intro l
      induction l with
      | nil => intro o _; rfl
      | cons c l ihl =>
        intro o hl
        simp only [preorderList, List.filterMap_append, leavesOfList, place_append]
        rw [ih c (hl c (List.mem_cons_self ..)), ihl _ fun x hx => hl x (List.mem_cons_of_mem _ hx)]
        rfl
    simp only [preorder, leavesOf]
    rw [List.filterMap_cons]
    simp only [leafOnly]
    exact this cs o fun c hc => hc

/-- A visitor that only acts on tokens acts on the leaves, in order. -/
theorem visitTokens_ok {S : Type} (token : Nat × Nat × Nat → S → Run S) {k n : Nat} {cs : List Green}
    (hg : Built (.node k n cs)) (o : Nat) (s : S) :
    visitWith (fun _ s => .ok s) token (sizeOf' (.node k n cs)) ⟨k, n, cs, o⟩ s =
      (place o (leavesOfList cs)).foldlM (fun s l => token l s) s := by
  rw [visitWith_ok _ _ hg k n cs o _ s rfl (Nat.le_refl _)]
  have e : place o (leavesOfList cs) = (preorder o (.node k n cs)).filterMap leafOnly := by
    rw [leaves_preorder hg]; rfl
  rw [e]
  generalize preorder o (Green.node k n cs) = l
  induction l generalizing s with
  | nil => rfl
  | cons x l ih =>
    obtain ⟨c, o'⟩ := x
    cases c with
    | node k2 n2 cs2 =>
      rw [List.foldlM_cons, List.filterMap_cons]
      simp only [leafOnly]
      have : visitOne (fun _ s => .ok s) token s (Green.node k2 n2 cs2, o') = .ok s := rfl
      rw [this, run_bind_ok]
      exact ih s
    | leaf k2 n2 m2 =>
      rw [List.foldlM_cons, List.filterMap_cons]
      simp only [leafOnly, List.foldlM_cons]
      have : visitOne (fun _ s => .ok s) token s (Green.leaf k2 n2 m2, o') = token (k2, o', o' + n2) s := rfl
      rw [this]
      cases token (k2, o', o' + n2) s with
      | error e => rfl
      | ok s' => rw [run_bind_ok, run_bind_ok]; exact ih s'

end Oaks
