import Mathlib.Data.List.Induction
import Verif.Proofs.Graph

namespace Oaks
open Oaks.Spec

/-- Every node that occurs. -/
def allIds (g : Graph) : List Str := g.nodes ++ g.edges.flatMap fun e => [e.1, e.2]

theorem arc_mem {g : Graph} {u v : Str} (h : Arc g u v) : v ∈ allIds g := by
  refine List.mem_append_right _ (List.mem_flatMap.2 ?_)
  rcases h with h | ⟨_, h⟩
  · exact ⟨_, h, by simp⟩
  · exact ⟨_, h, by simp⟩

/-- How many are not visited. -/
def unseen (g : Graph) (visited : List Str) : Nat := ((allIds g).filter (· ∉ visited)).length

theorem filter_len_le {p q : Str → Bool} (l : List Str) (h : ∀ x, p x = true → q x = true) :
    (l.filter p).length ≤ (l.filter q).length := by
  induction l with
  | nil => simp
  | cons x l ih =>
    rw [List.filter_cons, List.filter_cons]
    cases hp : p x
    · cases hq : q x
      · simpa using ih
      · simp; omega
    · rw [h x hp]; simpa using ih

theorem filter_len_lt {p q : Str → Bool} {l : List Str} (h : ∀ x, p x = true → q x = true) {x : Str} (hx : x ∈ l)
    (hq : q x = true) (hp : p x = false) : (l.filter p).length + 1 ≤ (l.filter q).length := by
  obtain ⟨a, b, rfl⟩ := List.append_of_mem hx
  have h1 := filter_len_le a h
  have h2 := filter_len_le b h
  rw [List.filter_append, List.filter_append, List.filter_cons, List.filter_cons, hq, hp]
  simp; omega

theorem unseen_mono {g : Graph} {a b : List Str} (h : ∀ x ∈ a, x ∈ b) : unseen g b ≤ unseen g a := by
  refine filter_len_le _ ?_
  intro x hx
  simp only [decide_eq_true_eq] at hx ⊢
  exact fun ha => hx (h x ha)

theorem unseen_insert {g : Graph} {a : List Str} {x : Str} (hx : x ∈ allIds g) (ha : x ∉ a) :
    unseen g (a.insert x) + 1 ≤ unseen g a := by
  refine filter_len_lt ?_ hx (by simpa using ha) (by simp)
  intro y hy
  simp only [decide_eq_true_eq] at hy ⊢
  exact fun h => hy (List.mem_insert_of_mem h)

/-- What holds between the calls. -/
structure DfsInv (g : Graph) (st : DfsState) : Prop where
  nodup : st.path.Nodup
  chain : ∀ l a b r, st.path = l ++ a :: b :: r → Arc g a b
  onPath : ∀ x, x ∈ st.recStack ↔ x ∈ st.path
  seen : ∀ x ∈ st.path, x ∈ st.visited
  cycles : ∀ c ∈ st.cycles, IsCycle g c
  done : st.cycles = [] → ∃ fin : List Str, (∀ x, x ∈ fin ↔ x ∈ st.visited ∧ x ∉ st.path) ∧
    ∀ l w r, fin = l ++ w :: r → ∀ n, Arc g w n → n ∈ l

theorem cycleFrom_spec {path : List Str} {n : Str} (h : n ∈ path) :
    ∃ pre c, path = pre ++ n :: c ∧ cycleFrom path n = some (n :: c) := by
  induction path with
  | nil => cases h
  | cons x path ih =>
    by_cases hx : x = n
    · subst hx
      exact ⟨[], path, rfl, by simp [cycleFrom]⟩
    · have hn : n ∈ path := by
        rcases List.mem_cons.1 h with h | h
        · exact absurd h.symm hx
        · exact h
      obtain ⟨pre, c, h1, h2⟩ := ih hn
      refine ⟨x :: pre, c, by rw [h1]; rfl, ?_⟩
      unfold cycleFrom at h2 ⊢
      rw [List.dropWhile_cons, if_pos (by simpa using hx)]
      exact h2

/-- The step of the loop over the neighbours. -/
def dfsStep (g : Graph) (fuel : Nat) (st : DfsState) (n : Str) : Run DfsState :=
  if n ∉ st.visited then dfsCycles g fuel n st
  else if n ∈ st.recStack then
    match cycleFrom st.path n with
    | some c => pure { st with cycles := st.cycles ++ [c] }
    | none => pure st
  else pure st

def DfsGoal (g : Graph) (st st' : DfsState) : Prop :=
  DfsInv g st' ∧ st'.path = st.path ∧ (∀ x ∈ st.visited, x ∈ st'.visited) ∧ ∃ extra, st'.cycles = st.cycles ++ extra

theorem dfsFold (g : Graph) (fuel : Nat) (node : Str) (p0 : List Str)
    (ih : ∀ (n : Str) (st : DfsState), DfsInv g st → n ∉ st.visited → n ∈ allIds g →
      (∀ l x, st.path = l ++ [x] → Arc g x n) → unseen g st.visited ≤ fuel →
      ∃ st', dfsCycles g fuel n st = .ok st' ∧ DfsGoal g st st' ∧ n ∈ st'.visited)
    (ns : List Str) (hns : ∀ n ∈ ns, Arc g node n) (st : DfsState) (hi : DfsInv g st) (hp : st.path = p0 ++ [node])
    (hf : unseen g st.visited ≤ fuel) :
    ∃ st', ns.foldlM (dfsStep g fuel) st = .ok st' ∧ DfsGoal g st st' ∧
      (st'.cycles = [] → ∀ n ∈ ns, n ∈ st'.visited ∧ n ∉ st'.path) := by
  induction ns generalizing st with
  | nil => exact ⟨st, rfl, ⟨hi, rfl, fun _ h => h, [], by simp⟩, fun _ n hn => by cases hn⟩
  | cons n ns ihn =>
    have harc := hns n (List.mem_cons_self ..)
    rw [List.foldlM_cons]
    have hstep : ∃ st1, dfsStep g fuel st n = .ok st1 ∧ DfsGoal g st st1 ∧ (st1.cycles = [] → n ∈ st1.visited ∧ n ∉ st1.path) := by
      unfold dfsStep
      by_cases hv : n ∈ st.visited
      · rw [if_neg (by simpa using hv)]
        by_cases hr : n ∈ st.recStack
        · rw [if_pos hr]
          have hnp := (hi.onPath n).1 hr
          obtain ⟨pre, c, h1, h2⟩ := cycleFrom_spec hnp
          rw [h2]
          refine ⟨_, rfl, ⟨⟨hi.nodup, hi.chain, hi.onPath, hi.seen, ?_, ?_⟩, rfl, fun _ h => h, _, rfl⟩, ?_⟩
          · intro c' hc'
            rcases List.mem_append.1 hc' with hc' | hc'
            · exact hi.cycles c' hc'
            · rw [List.mem_singleton] at hc'
              subst hc'
              refine ⟨?_, ?_, ?_⟩
              · have := hi.nodup; rw [h1] at this
                exact (List.nodup_append.1 this).2.1
              · intro l a b r hl
                exact hi.chain (pre ++ l) a b r (by rw [h1, hl, List.append_assoc])
              · refine ⟨n, node, rfl, ?_, harc⟩
                have : (pre ++ n :: c).getLast? = some node := by rw [← h1, hp]; simp
                rw [List.getLast?_append] at this
                simpa using this
          · intro h; simp at h
          · intro h; simp at h
        · rw [if_neg hr]
          exact ⟨st, rfl, ⟨hi, rfl, fun _ h => h, [], by simp⟩, fun _ => ⟨hv, fun h => hr ((hi.onPath n).2 h)⟩⟩
      · rw [if_pos hv]
        obtain ⟨st1, h1, h2, h3⟩ := ih n st hi hv (arc_mem harc) (by
          intro l x hx
          rw [hp] at hx
          have := (List.append_inj' hx rfl).2
          simp at this; subst this; exact harc) hf
        refine ⟨st1, h1, h2, fun _ => ⟨h3, ?_⟩⟩
        rw [h2.2.1]
        intro hnp
        exact hv (hi.seen n hnp)
    obtain ⟨st1, h1, ⟨hg1, hg2, hg3, ex1, hg4⟩, h3⟩ := hstep
    rw [h1, run_bind_ok]
    obtain ⟨st2, h4, ⟨hk1, hk2, hk3, ex2, hk4⟩, h6⟩ := ihn (fun x hx => hns x (List.mem_cons_of_mem _ hx)) st1 hg1 (by rw [hg2, hp])
      (Nat.le_trans (unseen_mono hg3) hf)
    refine ⟨st2, h4, ⟨hk1, by rw [hk2, hg2], fun x hx => hk3 x (hg3 x hx), ex1 ++ ex2, by rw [hk4, hg4, List.append_assoc]⟩, ?_⟩
    intro hc m hm
    rcases List.mem_cons.1 hm with rfl | hm
    · have hc1 : st1.cycles = [] := by rw [hk4] at hc; exact (List.append_eq_nil_iff.1 hc).1
      obtain ⟨a, b⟩ := h3 hc1
      exact ⟨hk3 _ a, by rw [hk2]; exact b⟩
    · exact h6 hc m hm

theorem dfsCycles_spec (g : Graph) (fuel : Nat) (n : Str) (st : DfsState) (hi : DfsInv g st) (hn : n ∉ st.visited) (hid : n ∈ allIds g)
    (hl : ∀ l x, st.path = l ++ [x] → Arc g x n) (hf : unseen g st.visited ≤ fuel) :
    ∃ st', dfsCycles g fuel n st = .ok st' ∧ DfsGoal g st st' ∧ n ∈ st'.visited := by
  induction fuel generalizing n st with
  | zero =>
    have := unseen_insert hid hn
    omega
  | succ fuel ih =>
    have hnp : n ∉ st.path := fun h => hn (hi.seen n h)
    have hu := unseen_insert hid hn
    have hi0 : DfsInv g ⟨st.visited.insert n, st.recStack.insert n, st.path ++ [n], st.cycles⟩ := by
      refine ⟨?_, ?_, ?_, ?_, hi.cycles, ?_⟩
      · rw [List.nodup_append]
        refine ⟨hi.nodup, by simp, ?_⟩
        intro a ha b hb
        rw [List.mem_singleton] at hb
        rintro rfl
        subst hb; exact hnp ha
      · intro l a b r h
        simp only [] at h
        rcases List.eq_nil_or_concat r with rfl | ⟨r', y, rfl⟩
        · have e : l ++ [a, b] = (l ++ [a]) ++ [b] := by simp
          rw [e] at h
          obtain ⟨h1, h2⟩ := List.append_inj' h rfl
          simp at h2; subst h2
          exact hl l a h1
        · have e : l ++ a :: b :: (r'.concat y) = (l ++ a :: b :: r') ++ [y] := by simp
          rw [e] at h
          exact hi.chain l a b r' (List.append_inj' h rfl).1
      · intro x
        simp only [List.mem_insert_iff, List.mem_append, List.mem_singleton, hi.onPath x]
        exact or_comm
      · intro x hx
        rcases List.mem_append.1 hx with hx | hx
        · exact List.mem_insert_of_mem (hi.seen x hx)
        · rw [List.mem_singleton] at hx; subst hx; exact List.mem_insert_self
      · intro hc
        obtain ⟨fin, h1, h2⟩ := hi.done hc
        refine ⟨fin, ?_, h2⟩
        intro x
        rw [h1 x]
        simp only [List.mem_insert_iff, List.mem_append, List.mem_singleton, not_or]
        constructor
        · rintro ⟨a, b⟩
          exact ⟨.inr a, b, by rintro rfl; exact hn a⟩
        · rintro ⟨a | a, b, c⟩
          · exact absurd a c
          · exact ⟨a, b⟩
    obtain ⟨st1, h1, ⟨hg1, hg2, hg3, ex, hg4⟩, h3⟩ := dfsFold g fuel n st.path ih (getNeighbors g n)
      (fun m hm => mem_neighbors.1 hm) _ hi0 rfl (by simp only []; omega)
    simp only [] at hg2 hg3 hg4
    have hfold : dfsCycles g (fuel + 1) n st = .ok ⟨st1.visited, st1.recStack.filter (· ≠ n), st1.path.dropLast, st1.cycles⟩ := by
      have hd : dfsCycles g (fuel + 1) n st = ((getNeighbors g n).foldlM (dfsStep g fuel)
          ⟨st.visited.insert n, st.recStack.insert n, st.path ++ [n], st.cycles⟩ >>= fun st =>
            pure ⟨st.visited, st.recStack.filter (· ≠ n), st.path.dropLast, st.cycles⟩) := by
        rw [dfsCycles]; rfl
      rw [hd, h1, run_bind_ok]; rfl
    have hpath : st1.path.dropLast = st.path := by rw [hg2]; simp
    refine ⟨_, hfold, ⟨⟨?_, ?_, ?_, ?_, hg1.cycles, ?_⟩, hpath, ?_, ex, hg4⟩, hg3 n List.mem_insert_self⟩
    · simp only [hpath]; exact hi.nodup
    · simp only [hpath]; exact hi.chain
    · intro x
      simp only [hpath, List.mem_filter, decide_eq_true_eq]
      rw [hg1.onPath x, hg2]
      simp only [List.mem_append, List.mem_singleton]
      constructor
      · rintro ⟨a | a, b⟩
        · exact a
        · exact absurd a b
      · intro a
        exact ⟨.inl a, by rintro rfl; exact hnp a⟩
    · intro x hx
      simp only [hpath] at hx
      exact hg3 x (List.mem_insert_of_mem (hi.seen x hx))
    · intro hc
      simp only [] at hc
      obtain ⟨fin, hf1, hf2⟩ := hg1.done hc
      refine ⟨fin ++ [n], ?_, ?_⟩
      · intro x
        simp only [hpath]
        simp only [List.mem_append, List.mem_singleton, hf1 x, hg2, not_or]
        constructor
        · rintro (⟨a, b, c⟩ | rfl)
          · exact ⟨a, b⟩
          · exact ⟨hg3 _ List.mem_insert_self, hnp⟩
        · rintro ⟨a, b⟩
          by_cases hx : x = n
          · exact .inr hx
          · exact .inl ⟨a, b, hx⟩
      · intro l w r hlw m hm
        rcases List.eq_nil_or_concat r with rfl | ⟨r', y, rfl⟩
        · obtain ⟨e1, e2⟩ := List.append_inj' hlw rfl
          simp at e2; subst e2
          rw [← e1]
          exact (hf1 m).2 (h3 hc m (mem_neighbors.2 hm))
        · have e : l ++ w :: (r'.concat y) = (l ++ w :: r') ++ [y] := by simp
          rw [e] at hlw
          exact hf2 l w r' (List.append_inj' hlw rfl).1 m hm
    · intro x hx
      exact hg3 x (List.mem_insert_of_mem hx)

/-- The outer loop. -/
theorem findFold (g : Graph) (fuel : Nat) (ns : List Str) (hns : ∀ n ∈ ns, n ∈ allIds g) (st : DfsState) (hi : DfsInv g st)
    (hp : st.path = []) (hf : unseen g st.visited ≤ fuel) :
    ∃ st', ns.foldlM (fun st n => if n ∉ st.visited then dfsCycles g fuel n st else pure st) st = .ok st' ∧
      DfsInv g st' ∧ st'.path = [] ∧ (∀ x ∈ st.visited, x ∈ st'.visited) ∧ ∀ n ∈ ns, n ∈ st'.visited := by
  induction ns generalizing st with
  | nil => exact ⟨st, rfl, hi, hp, fun _ h => h, fun n hn => by cases hn⟩
  | cons n ns ih =>
    rw [List.foldlM_cons]
    have hstep : ∃ st1, (if n ∉ st.visited then dfsCycles g fuel n st else pure st : Run DfsState) = .ok st1 ∧
        DfsInv g st1 ∧ st1.path = [] ∧ (∀ x ∈ st.visited, x ∈ st1.visited) ∧ n ∈ st1.visited := by
      by_cases hv : n ∈ st.visited
      · rw [if_neg (by simpa using hv)]
        exact ⟨st, rfl, hi, hp, fun _ h => h, hv⟩
      · rw [if_pos hv]
        obtain ⟨st1, h1, ⟨h2, h3, h4, _⟩, h5⟩ := dfsCycles_spec g fuel n st hi hv (hns n (List.mem_cons_self ..))
          (by intro l x hx; rw [hp] at hx; simp at hx) hf
        exact ⟨st1, h1, h2, by rw [h3, hp], h4, h5⟩
    obtain ⟨st1, h1, h2, h3, h4, h5⟩ := hstep
    rw [h1, run_bind_ok]
    obtain ⟨st2, k1, k2, k3, k4, k5⟩ := ih (fun x hx => hns x (List.mem_cons_of_mem _ hx)) st1 h2 h3 (Nat.le_trans (unseen_mono h4) hf)
    refine ⟨st2, k1, k2, k3, fun x hx => k4 x (h4 x hx), ?_⟩
    intro m hm
    rcases List.mem_cons.1 hm with rfl | hm
    · exact k4 _ h5
    · exact k5 m hm

theorem allIds_length (g : Graph) : (allIds g).length = g.nodes.length + 2 * g.edges.length := by
  unfold allIds
  rw [List.length_append]
  congr 1
  induction g.edges with
  | nil => rfl
  | cons e es ih => rw [List.flatMap_cons, List.length_append, ih]; simp; omega

/-- In a list where every arc leads to an earlier element, no element comes back to itself. -/
theorem no_return {g : Graph} {fin : List Str} (h : ∀ l w r, fin = l ++ w :: r → ∀ n, Arc g w n → n ∈ l)
    {u v : Str} (hw : Relation.TransGen (Arc g) u v) {l r : List Str} (hl : fin = l ++ u :: r) : v ∈ l := by
  induction hw with
  | single ha => exact h l u r hl _ ha
  | tail _ ha ih =>
    obtain ⟨a, b, hab⟩ := List.append_of_mem ih
    have := h a _ (b ++ u :: r) (by rw [hl, hab]; simp) _ ha
    rw [hab]; exact List.mem_append_left _ this

theorem findCycles_spec (g : Graph) :
    ∃ cs, findCycles g (g.nodes.length + 2 * g.edges.length) = .ok cs ∧ (∀ c ∈ cs, IsCycle g c) ∧
      (cs = [] → ∀ s ∈ g.nodes, ∀ v, Walk g s v → ¬ Relation.TransGen (Arc g) v v) := by
  obtain ⟨st, h1, h2, h3, _, h5⟩ := findFold g (g.nodes.length + 2 * g.edges.length) g.nodes
    (fun n hn => List.mem_append_left _ hn) ⟨[], [], [], []⟩
    ⟨by simp, by intro l a b r h; simp at h, by simp, by simp, by simp, fun _ => ⟨[], by simp, by intro l w r h; simp at h⟩⟩ rfl
    (by rw [← allIds_length]; exact List.length_filter_le ..)
  refine ⟨st.cycles, ?_, h2.cycles, ?_⟩
  · unfold findCycles
    rw [h1, run_bind_ok]; rfl
  · intro hc s hs v hw hv
    obtain ⟨fin, hf1, hf2⟩ := h2.done hc
    have hin : ∀ w, Walk g s w → w ∈ fin := by
      intro w hw
      induction hw with
      | refl => exact (hf1 s).2 ⟨h5 s hs, by rw [h3]; simp⟩
      | tail _ ha ih =>
        obtain ⟨l, r, hlr⟩ := List.append_of_mem ih
        rw [hlr]
        exact List.mem_append_left _ (hf2 l _ r hlr _ ha)
    -- the first occurrence
    have key : ∀ n, ∀ l r, l.length = n → fin = l ++ v :: r → False := by
      intro n
      induction n using Nat.strongRecOn with
      | _ n ih =>
        intro l r hn hl
        have hvl := no_return hf2 hv hl
        obtain ⟨a, b, hab⟩ := List.append_of_mem hvl
        exact ih a.length (by rw [← hn, hab]; simp) a (b ++ v :: r) rfl (by rw [hl, hab]; simp)
    obtain ⟨l, r, hlr⟩ := List.append_of_mem (hin v hw)
    exact key _ l r rfl hlr

/-- A listed cycle is a way back to every one of its nodes. -/
theorem isCycle_return {g : Graph} {c : List Str} (h : IsCycle g c) : ∀ v ∈ c, Relation.TransGen (Arc g) v v := by
  obtain ⟨first, last, hf, hl, hback⟩ := h.back
  have toLast : ∀ l v r, c = l ++ v :: r → Relation.ReflTransGen (Arc g) v last := by
    intro l v r
    induction r generalizing l v with
    | nil =>
      intro hc
      have : c.getLast? = some v := by rw [hc]; simp
      rw [hl] at this; cases this; exact .refl
    | cons x r ih =>
      intro hc
      exact .head (h.chain l v x r hc) (ih (l ++ [v]) x (by rw [hc]; simp))
  have fromFirst : ∀ (l : List Str) (v : Str) (r : List Str), c = l ++ v :: r → Relation.ReflTransGen (Arc g) first v := by
    intro l
    induction l using List.reverseRecOn with
    | nil =>
      intro v r hc
      have : c.head? = some v := by rw [hc]; rfl
      rw [hf] at this; cases this; exact .refl
    | append_singleton l x ih =>
      intro v r hc
      exact .tail (ih x (v :: r) (by rw [hc]; simp)) (h.chain l x v r (by rw [hc]; simp))
  intro v hv
  obtain ⟨l, r, hlr⟩ := List.append_of_mem hv
  exact (Relation.TransGen.tail' (toLast l v r hlr) hback).trans_left (fromFirst l v r hlr)

end Oaks
