import Mathlib.Data.List.Nodup
import Verif.Spec.Graph

namespace Oaks
open Oaks.Spec

/-! ### Neighbours -/

/-- All ways to go along an edge, as pairs. -/
def arcsOf (g : Graph) : List (Str × Str) :=
  g.edges.flatMap fun e => (e.1, e.2) :: if g.directed = false then [(e.2, e.1)] else []

theorem mem_arcs {g : Graph} {u v : Str} : (u, v) ∈ arcsOf g ↔ Arc g u v := by
  unfold arcsOf Arc
  rw [List.mem_flatMap]
  constructor
  · rintro ⟨⟨a, b⟩, he, h⟩
    rw [List.mem_cons] at h
    rcases h with h | h
    · cases h; exact .inl he
    · split at h
      · next hd => rw [List.mem_singleton] at h; cases h; exact .inr ⟨hd, he⟩
      · cases h
  · rintro (h | ⟨hd, h⟩)
    · exact ⟨_, h, List.mem_cons_self ..⟩
    · exact ⟨_, h, by simp [hd]⟩

theorem neighbors_eq (g : Graph) (u : Str) :
    getNeighbors g u = ((arcsOf g).filter (·.1 = u)).map (·.2) := by
  unfold getNeighbors arcsOf
  induction g.edges with
  | nil => rfl
  | cons e es ih =>
    rw [List.flatMap_cons, List.flatMap_cons, List.filter_append, List.map_append, ih]
    congr 1
    unfold neighborsOf
    by_cases h1 : e.1 = u <;> by_cases h2 : e.2 = u <;> cases h3 : g.directed <;> simp [h1, h2]

theorem mem_neighbors {g : Graph} {u v : Str} : v ∈ getNeighbors g u ↔ Arc g u v := by
  rw [neighbors_eq, ← mem_arcs]
  simp only [List.mem_map, List.mem_filter, decide_eq_true_eq]
  constructor
  · rintro ⟨⟨a, b⟩, ⟨h, h1⟩, h2⟩
    simp only [] at h1 h2
    subst h1; subst h2; exact h
  · intro h; exact ⟨(u, v), ⟨h, rfl⟩, rfl⟩

/-! ### Connectivity -/

/-- What is left to do: the stack and the arcs that leave nodes not visited. -/
def connWork (g : Graph) (visited stack : List Str) : Nat :=
  stack.length + ((arcsOf g).filter (·.1 ∉ visited)).length

theorem connWork_step (g : Graph) (visited stack : List Str) (node : Str) (h : node ∉ visited) :
    connWork g (node :: visited) (((getNeighbors g node).filter (· ∉ node :: visited)).reverse ++ stack) + 1 ≤
      connWork g visited (node :: stack) := by
  unfold connWork
  rw [neighbors_eq]
  have h1 : ((((arcsOf g).filter (·.1 = node)).map (·.2)).filter (fun x => decide (x ∉ node :: visited))).length ≤
      ((arcsOf g).filter (·.1 = node)).length := by
    refine Nat.le_trans (List.length_filter_le ..) ?_
    simp
  have h2 : ((arcsOf g).filter (·.1 = node)).length + ((arcsOf g).filter (fun p => decide (p.1 ∉ node :: visited))).length =
      ((arcsOf g).filter (fun p => decide (p.1 ∉ visited))).length := by
    generalize arcsOf g = l
    induction l with
    | nil => rfl
    | cons p l ih =>
      by_cases hp : p.1 = node
      · have : p.1 ∉ visited := by rw [hp]; exact h
        simp only [List.filter_cons, hp, this, h] at ih ⊢
        simp at ih ⊢
        omega
      · by_cases hv : p.1 ∈ visited
        · simp only [List.filter_cons, hp, hv] at ih ⊢
          simp [hv] at ih ⊢
          omega
        · simp only [List.filter_cons, hp, hv] at ih ⊢
          simp [hp, hv] at ih ⊢
          omega
  simp only [List.length_append, List.length_reverse, List.length_cons]
  omega

/-- The loop ends with the nodes reached. -/
theorem connLoop_spec (g : Graph) (s : Str) (fuel : Nat) (visited stack : List Str)
    (hf : connWork g visited stack ≤ fuel) (hn : visited.Nodup)
    (hr : ∀ v, v ∈ visited ∨ v ∈ stack → Walk g s v)
    (hs : s ∈ visited ∨ s ∈ stack)
    (hc : ∀ v ∈ visited, ∀ w, Arc g v w → w ∈ visited ∨ w ∈ stack) :
    ∃ vs, connLoop g fuel visited stack = .ok vs ∧ vs.Nodup ∧ ∀ v, v ∈ vs ↔ Walk g s v := by
  induction fuel generalizing visited stack with
  | zero =>
    cases stack with
    | cons x xs => simp [connWork] at hf
    | nil =>
      refine ⟨visited, by simp [connLoop], hn, ?_⟩
      intro v
      refine ⟨fun h => hr v (.inl h), fun h => ?_⟩
      induction h with
      | refl => simpa using hs
      | tail _ hb ih => simpa using hc _ ih _ hb
  | succ fuel ih =>
    cases stack with
    | nil =>
      refine ⟨visited, by simp [connLoop], hn, ?_⟩
      intro v
      refine ⟨fun h => hr v (.inl h), fun h => ?_⟩
      induction h with
      | refl => simpa using hs
      | tail _ hb ih => simpa using hc _ ih _ hb
    | cons node stack =>
      unfold connLoop
      by_cases hv : node ∈ visited
      · rw [if_pos hv]
        refine ih visited stack ?_ hn ?_ ?_ ?_
        · simp [connWork] at hf ⊢; omega
        · rintro v (h | h)
          · exact hr v (.inl h)
          · exact hr v (.inr (List.mem_cons_of_mem _ h))
        · rcases hs with h | h
          · exact .inl h
          · rcases List.mem_cons.1 h with rfl | h
            · exact .inl hv
            · exact .inr h
        · intro v hvv w hw
          rcases hc v hvv w hw with h | h
          · exact .inl h
          · rcases List.mem_cons.1 h with rfl | h
            · exact .inl hv
            · exact .inr h
      · rw [if_neg hv]
        have hnode : Walk g s node := hr node (.inr (List.mem_cons_self ..))
        refine ih (node :: visited) _ ?_ (List.nodup_cons.2 ⟨hv, hn⟩) ?_ ?_ ?_
        · have := connWork_step g visited stack node hv
          omega
        · rintro v (h | h)
          · rcases List.mem_cons.1 h with rfl | h
            · exact hnode
            · exact hr v (.inl h)
          · rcases List.mem_append.1 h with h | h
            · rw [List.mem_reverse] at h
              exact hnode.tail (mem_neighbors.1 (List.mem_filter.1 h).1)
            · exact hr v (.inr (List.mem_cons_of_mem _ h))
        · rcases hs with h | h
          · exact .inl (List.mem_cons_of_mem _ h)
          · rcases List.mem_cons.1 h with rfl | h
            · exact .inl (List.mem_cons_self ..)
            · exact .inr (List.mem_append_right _ h)
        · intro v hvv w hw
          by_cases hwv : w ∈ node :: visited
          · exact .inl hwv
          · right
            rcases List.mem_cons.1 hvv with rfl | hvv
            · refine List.mem_append_left _ (List.mem_reverse.2 (List.mem_filter.2 ⟨mem_neighbors.2 hw, by simpa using hwv⟩))
            · rcases hc v hvv w hw with h | h
              · exact absurd (List.mem_cons_of_mem _ h) hwv
              · rcases List.mem_cons.1 h with rfl | h
                · exact absurd (List.mem_cons_self ..) hwv
                · exact List.mem_append_right _ h

theorem arcs_length_le (g : Graph) : (arcsOf g).length ≤ 2 * g.edges.length := by
  unfold arcsOf
  induction g.edges with
  | nil => simp
  | cons e es ih =>
    rw [List.flatMap_cons, List.length_append]
    cases g.directed <;> simp at ih ⊢ <;> omega

theorem isConnected_visited (g : Graph) (s : Str) (rest : List Str) (hn : g.nodes = s :: rest) :
    ∃ vs : List Str, isConnected g (2 * g.edges.length + 1) = .ok (decide (vs.length = g.nodes.length)) ∧ vs.Nodup ∧ ∀ v, v ∈ vs ↔ Walk g s v := by
  obtain ⟨vs, h1, h2, h3⟩ := connLoop_spec g s (2 * g.edges.length + 1) [] [s]
    (by have := arcs_length_le g; simp [connWork]; omega) List.nodup_nil
    (by rintro v (h | h)
        · cases h
        · rw [List.mem_singleton] at h; subst h; exact .refl)
    (.inr (List.mem_cons_self ..)) (by intro v hv; cases hv)
  refine ⟨vs, ?_, h2, h3⟩
  unfold isConnected
  rw [hn]
  simp only [h1, run_bind_ok, run_pure]

theorem walk_in_nodes {g : Graph} (h : Closed g) {u v : Str} (hw : Walk g u v) (hu : u ∈ g.nodes) : v ∈ g.nodes := by
  induction hw with
  | refl => exact hu
  | tail _ hb _ =>
    rcases hb with hb | ⟨_, hb⟩
    · exact (h.ends _ hb).2
    · exact (h.ends _ hb).1

theorem nodup_length_le {a b : List Str} (ha : a.Nodup) (hs : ∀ x ∈ a, x ∈ b) : a.length ≤ b.length := by
  induction a generalizing b with
  | nil => simp
  | cons x a ih =>
    rw [List.nodup_cons] at ha
    have hx : x ∈ b := hs x (List.mem_cons_self ..)
    have := ih ha.2 (b := b.erase x) (by
      intro y hy
      have hne : y ≠ x := by rintro rfl; exact ha.1 hy
      exact (List.mem_erase_of_ne hne).2 (hs y (List.mem_cons_of_mem _ hy)))
    rw [List.length_erase_of_mem hx] at this
    have hpos := List.length_pos_of_mem hx
    simp; omega

theorem nodup_full {a b : List Str} (ha : a.Nodup) (hb : b.Nodup) (hs : ∀ x ∈ a, x ∈ b) :
    a.length = b.length ↔ ∀ x ∈ b, x ∈ a := by
  constructor
  · intro hl x hx
    apply Classical.byContradiction
    intro hxa
    have : (x :: a).length ≤ b.length := nodup_length_le (List.nodup_cons.2 ⟨hxa, ha⟩) (by
      intro y hy
      rcases List.mem_cons.1 hy with rfl | hy
      · exact hx
      · exact hs y hy)
    simp at this; omega
  · intro h
    exact Nat.le_antisymm (nodup_length_le ha hs) (nodup_length_le hb h)

end Oaks
