import Verif.Proofs.Graph

namespace Oaks
open Oaks.Spec

def keysOf (deg : List (Str × Nat)) : List Str := deg.map (·.1)

/-- The table holds the nodes not removed, each with the number of edges to it that come from nodes not
removed. -/
structure DegInv (g : Graph) (removed : List Str) (deg : List (Str × Nat)) : Prop where
  nodup : (keysOf deg).Nodup
  keys : ∀ v, v ∈ keysOf deg ↔ v ∈ g.nodes ∧ v ∉ removed
  count : ∀ p ∈ deg, p.2 = g.edges.countP fun e => decide (e.2 = p.1 ∧ e.1 ∉ removed)

theorem bump_spec {deg : List (Str × Nat)} {v : Str} (h : v ∈ keysOf deg) :
    bump deg v = .ok (deg.map fun p => if p.1 = v then (p.1, p.2 + 1) else p) := by
  unfold bump
  rw [if_pos]
  obtain ⟨p, hp, rfl⟩ := List.mem_map.1 h
  exact List.any_eq_true.2 ⟨p, hp, by simp⟩

theorem bump_fold (nodes : List Str) (es : List (Str × Str)) (hes : ∀ e ∈ es, e.2 ∈ nodes) (f : Str → Nat) :
    es.foldlM (fun deg e => bump deg e.2) (nodes.map fun n => (n, f n)) =
      .ok (nodes.map fun n => (n, f n + es.countP fun e => decide (e.2 = n))) := by
  induction es generalizing f with
  | nil => simp
  | cons e es ih =>
    rw [List.foldlM_cons, bump_spec (by simpa [keysOf] using hes e (List.mem_cons_self ..)), run_bind_ok]
    have : (nodes.map fun n => (n, f n)).map (fun p => if p.1 = e.2 then (p.1, p.2 + 1) else p) =
        nodes.map fun n => (n, (fun n => f n + if e.2 = n then 1 else 0) n) := by
      rw [List.map_map]
      apply List.map_congr_left
      intro n _
      simp only [Function.comp]
      by_cases h : n = e.2
      · simp [h]
      · rw [if_neg h, if_neg (fun h' => h h'.symm)]; rfl
    rw [this, ih fun x hx => hes x (List.mem_cons_of_mem _ hx)]
    congr 1
    apply List.map_congr_left
    intro n _
    simp only [List.countP_cons]
    by_cases h : e.2 = n <;> simp [h] <;> omega

theorem init_inv (g : Graph) (hn : g.nodes.Nodup) (ht : ∀ e ∈ g.edges, e.2 ∈ g.nodes) :
    ∃ deg, g.edges.foldlM (fun deg e => bump deg e.2) (g.nodes.map fun n => (n, 0)) = .ok deg ∧ DegInv g [] deg ∧
      deg.length = g.nodes.length := by
  refine ⟨_, bump_fold g.nodes g.edges ht fun _ => 0, ⟨?_, ?_, ?_⟩, by simp⟩
  · simpa [keysOf, List.map_map, Function.comp_def] using hn
  · intro v; simp [keysOf, List.map_map, Function.comp_def]
  · intro p hp
    obtain ⟨n, _, rfl⟩ := List.mem_map.1 hp
    simp

theorem lower_fold (u : Str) (es : List (Str × Str)) (deg : List (Str × Nat)) :
    es.foldl (fun deg e => if e.1 = u then lower deg e.2 else deg) deg =
      deg.map fun p => (p.1, p.2 - es.countP fun e => decide (e.1 = u ∧ e.2 = p.1)) := by
  induction es generalizing deg with
  | nil => simp
  | cons e es ih =>
    rw [List.foldl_cons, ih]
    by_cases h : e.1 = u
    · rw [if_pos h, lower, List.map_map]
      apply List.map_congr_left
      intro p _
      simp only [Function.comp, List.countP_cons]
      by_cases h2 : p.1 = e.2
      · simp [h, h2]; omega
      · have : ¬ (e.2 = p.1) := fun h' => h2 h'.symm
        simp [h, h2, this]
    · rw [if_neg h]
      apply List.map_congr_left
      intro p _
      simp [h]

theorem takeNode_inv {g : Graph} {removed : List Str} {deg : List (Str × Nat)} (h : DegInv g removed deg) {u : Str}
    (hu : u ∈ keysOf deg) : DegInv g (removed ++ [u]) (takeNode g deg u) ∧
      (∀ v, v ∈ keysOf (takeNode g deg u) ↔ v ∈ keysOf deg ∧ v ≠ u) ∧ (takeNode g deg u).length + 1 = deg.length := by
  have hur : u ∉ removed := ((h.keys u).1 hu).2
  unfold takeNode
  rw [lower_fold]
  have hk : keysOf ((deg.filter (fun p => decide (p.1 ≠ u))).map fun p => (p.1, p.2 - g.edges.countP fun e => decide (e.1 = u ∧ e.2 = p.1))) =
      (keysOf deg).filter (fun v => decide (v ≠ u)) := by
    unfold keysOf
    rw [List.map_map, List.filter_map]
    rfl
  refine ⟨⟨?_, ?_, ?_⟩, ?_, ?_⟩
  · rw [hk]; exact h.nodup.filter _
  · intro v
    rw [hk, List.mem_filter, h.keys v]
    simp only [decide_eq_true_eq, List.mem_append, List.mem_singleton, not_or]
    exact and_assoc
  · intro p hp
    obtain ⟨q, hq, rfl⟩ := List.mem_map.1 hp
    have hq' := (List.mem_filter.1 hq).1
    simp only []
    rw [h.count q hq']
    generalize g.edges = es
    have : es.countP (fun e => decide (e.2 = q.1 ∧ e.1 ∉ removed)) =
        es.countP (fun e => decide (e.2 = q.1 ∧ e.1 ∉ removed ++ [u])) + es.countP fun e => decide (e.1 = u ∧ e.2 = q.1) := by
      induction es with
      | nil => rfl
      | cons e es ih =>
        simp only [List.countP_cons, ih]
        by_cases h1 : e.2 = q.1 <;> by_cases h2 : e.1 = u
        · subst h2; simp [h1, hur]; omega
        · by_cases h3 : e.1 ∈ removed <;> simp [h1, h2, h3]; omega
        · simp [h1]
        · simp [h1]
    omega
  · intro v
    rw [hk, List.mem_filter]; simp
  · have e1 : (keysOf deg).length = deg.length := by simp [keysOf]
    have e2 := congrArg List.length hk
    rw [show (keysOf ((deg.filter (fun p => decide (p.1 ≠ u))).map fun p => (p.1, p.2 - g.edges.countP fun e => decide (e.1 = u ∧ e.2 = p.1)))).length =
      ((deg.filter (fun p => decide (p.1 ≠ u))).map fun p => (p.1, p.2 - g.edges.countP fun e => decide (e.1 = u ∧ e.2 = p.1))).length by simp [keysOf]] at e2
    rw [e2]
    have hnd := h.nodup
    have : ((keysOf deg).filter (fun v => decide (v ≠ u))) = (keysOf deg).erase u := by
      rw [List.Nodup.erase_eq_filter hnd]
      apply List.filter_congr
      intro x _
      by_cases hx : x = u <;> simp [hx]
    rw [this, List.length_erase_of_mem hu]
    have := List.length_pos_of_mem hu
    omega

theorem takeLayer_inv {g : Graph} (layer : List Str) {removed : List Str} {deg : List (Str × Nat)} (h : DegInv g removed deg)
    (hn : layer.Nodup) (hl : ∀ u ∈ layer, u ∈ keysOf deg) :
    DegInv g (removed ++ layer) (layer.foldl (takeNode g) deg) ∧
      (∀ v, v ∈ keysOf (layer.foldl (takeNode g) deg) ↔ v ∈ keysOf deg ∧ v ∉ layer) ∧
      (layer.foldl (takeNode g) deg).length + layer.length = deg.length := by
  induction layer generalizing removed deg with
  | nil => simpa using h
  | cons u layer ih =>
    rw [List.nodup_cons] at hn
    obtain ⟨h1, h2, h3⟩ := takeNode_inv h (hl u (List.mem_cons_self ..))
    obtain ⟨k1, k2, k3⟩ := ih h1 hn.2 (by
      intro x hx
      exact (h2 x).2 ⟨hl x (List.mem_cons_of_mem _ hx), by rintro rfl; exact hn.1 hx⟩)
    rw [List.foldl_cons]
    refine ⟨by simpa using k1, ?_, by simp; omega⟩
    intro v
    rw [k2 v, h2 v, List.mem_cons, not_or, and_assoc]

theorem minEntry_mem {deg : List (Str × Nat)} (h : deg ≠ []) : ∃ p ∈ deg, minEntry deg = some p := by
  induction deg with
  | nil => exact absurd rfl h
  | cons p ps ih =>
    unfold minEntry
    cases hm : minEntry ps with
    | none => exact ⟨p, List.mem_cons_self .., rfl⟩
    | some q =>
      have hq : q ∈ ps := by
        cases ps with
        | nil => simp [minEntry] at hm
        | cons x xs =>
          obtain ⟨y, hy, he⟩ := ih (by simp)
          rw [he] at hm; cases hm; exact hy
      simp only []
      split
      · exact ⟨p, List.mem_cons_self .., rfl⟩
      · exact ⟨q, List.mem_cons_of_mem _ hq, rfl⟩

theorem currentLayer_spec {deg deg' : List (Str × Nat)} (hp : deg'.Perm deg) (h0 : deg ≠ []) (hn : (keysOf deg).Nodup) :
    currentLayer deg' ≠ [] ∧ (currentLayer deg').Nodup ∧ (∀ u ∈ currentLayer deg', u ∈ keysOf deg) ∧
    ((∃ p ∈ deg, p.2 = 0) → ∀ u ∈ currentLayer deg', (u, 0) ∈ deg) := by
  have hn' : (deg'.map (·.1)).Nodup := (hp.map _).nodup_iff.2 hn
  unfold currentLayer
  simp only []
  split
  · next hz =>
    obtain ⟨p, hpm, he⟩ := minEntry_mem (deg := deg') (by rintro rfl; exact h0 hp.nil_eq.symm)
    rw [he]
    refine ⟨by simp, by simp, ?_, ?_⟩
    · intro u hu
      rw [List.mem_singleton] at hu
      subst hu
      exact List.mem_map_of_mem (hp.mem_iff.1 hpm)
    · rintro ⟨q, hq, hq0⟩
      exfalso
      have : q.1 ∈ (deg'.filter (fun p => decide (p.2 = 0))).map (·.1) :=
        List.mem_map_of_mem (List.mem_filter.2 ⟨hp.mem_iff.2 hq, by simpa using hq0⟩)
      rw [hz] at this; cases this
  · next hz =>
    refine ⟨hz, ?_, ?_, ?_⟩
    · exact hn'.sublist (List.filter_sublist.map _)
    · intro u hu
      obtain ⟨p, hpf, rfl⟩ := List.mem_map.1 hu
      exact List.mem_map_of_mem (hp.mem_iff.1 (List.mem_filter.1 hpf).1)
    · intro _ u hu
      obtain ⟨p, hpf, rfl⟩ := List.mem_map.1 hu
      obtain ⟨h1, h2⟩ := List.mem_filter.1 hpf
      simp only [decide_eq_true_eq] at h2
      have := hp.mem_iff.1 h1
      rw [← h2]; exact this

/-- A finite set in which everything has a predecessor has a cycle. -/
theorem cycle_of_pred {R : Str → Str → Prop} (D : List Str) (hD : ∀ v ∈ D, ∃ u ∈ D, R u v) {x : Str} (hx : x ∈ D) :
    ∃ v, Relation.TransGen R v v := by
  have key : ∀ n, ∀ (x : Str) (P : List Str), (x :: P).Nodup → (∀ y ∈ x :: P, y ∈ D) → D.length - (x :: P).length = n →
      (∀ y ∈ x :: P, Relation.ReflTransGen R x y) → ∃ v, Relation.TransGen R v v := by
    intro n
    induction n with
    | zero =>
      intro x P hn hs hl hr
      obtain ⟨u, hu, hux⟩ := hD x (hs x (List.mem_cons_self ..))
      by_cases hm : u ∈ x :: P
      · exact ⟨u, .head' hux (hr u hm)⟩
      · have := nodup_length_le (List.nodup_cons.2 ⟨hm, hn⟩) (b := D) (by
          intro y hy
          rcases List.mem_cons.1 hy with rfl | hy
          · exact hu
          · exact hs y hy)
        simp at this hl; omega
    | succ n ih =>
      intro x P hn hs hl hr
      obtain ⟨u, hu, hux⟩ := hD x (hs x (List.mem_cons_self ..))
      by_cases hm : u ∈ x :: P
      · exact ⟨u, .head' hux (hr u hm)⟩
      · refine ih u (x :: P) (List.nodup_cons.2 ⟨hm, hn⟩) ?_ (by simp at hl ⊢; omega) ?_
        · intro y hy
          rcases List.mem_cons.1 hy with rfl | hy
          · exact hu
          · exact hs y hy
        · intro y hy
          rcases List.mem_cons.1 hy with rfl | hy
          · exact .refl
          · exact .head hux (hr y hy)
  exact key _ x [] (by simp) (by simpa using hx) rfl (by
    intro y hy
    rw [List.mem_singleton] at hy
    subst hy; exact .refl)

/-- A table of an acyclic graph has an entry of degree zero. -/
theorem zero_entry {g : Graph} (hc : Closed g) (ha : Acyclic g) {removed : List Str} {deg : List (Str × Nat)} (h : DegInv g removed deg)
    (h0 : deg ≠ []) : ∃ p ∈ deg, p.2 = 0 := by
  apply Classical.byContradiction
  intro hno
  obtain ⟨p, ps, rfl⟩ := List.exists_cons_of_ne_nil h0
  obtain ⟨v, hv⟩ := cycle_of_pred (R := fun a b => (a, b) ∈ g.edges) (keysOf (p :: ps)) (by
    intro v hv
    obtain ⟨q, hq, rfl⟩ := List.mem_map.1 hv
    have hpos : 0 < q.2 := by
      rcases Nat.eq_zero_or_pos q.2 with h' | h'
      · exact absurd ⟨q, hq, h'⟩ hno
      · exact h'
    rw [h.count q hq, List.countP_pos_iff] at hpos
    obtain ⟨e, he, hcond⟩ := hpos
    simp only [decide_eq_true_eq] at hcond
    refine ⟨e.1, (h.keys e.1).2 ⟨(hc.ends e he).1, hcond.2⟩, ?_⟩
    rw [← hcond.1]; exact he) (x := p.1) (List.mem_cons_self ..)
  exact ha v hv

theorem layerLoop_spec (g : Graph) (ord : Nat → List (Str × Nat) → List (Str × Nat)) (hord : ∀ n l, (ord n l).Perm l)
    (fuel n : Nat) (removed : List Str) (deg : List (Str × Nat)) (h : DegInv g removed deg) (hf : deg.length ≤ fuel) :
    ∃ layers, layerLoop g ord fuel n deg = .ok layers ∧ layers.flatten.Nodup ∧ (∀ v, v ∈ layers.flatten ↔ v ∈ keysOf deg) ∧
      [] ∉ layers ∧
      (Closed g → Acyclic g → ∀ u v, (u, v) ∈ g.edges → v ∈ keysOf deg →
        u ∈ removed ∨ ∃ i j, InLayer layers i u ∧ InLayer layers j v ∧ i < j) := by
  induction fuel generalizing n removed deg with
  | zero =>
    cases deg with
    | cons p ps => simp at hf
    | nil => exact ⟨[], by simp [layerLoop], by simp, by simp [keysOf], by simp, by intro _ _ u v _ hv; cases hv⟩
  | succ fuel ih =>
    cases deg with
    | nil => exact ⟨[], by simp [layerLoop], by simp, by simp [keysOf], by simp, by intro _ _ u v _ hv; cases hv⟩
    | cons p ps =>
      obtain ⟨l1, l2, l3, l4⟩ := currentLayer_spec (hord n (p :: ps)) (by simp) h.nodup
      obtain ⟨t1, t2, t3⟩ := takeLayer_inv (currentLayer (ord n (p :: ps))) h l2 l3
      have hpos : 0 < (currentLayer (ord n (p :: ps))).length := List.length_pos_iff.2 l1
      obtain ⟨layers, i1, i2, i3, i4, i5⟩ := ih (n + 1) (removed ++ currentLayer (ord n (p :: ps))) _ t1 (by omega)
      refine ⟨currentLayer (ord n (p :: ps)) :: layers, ?_, ?_, ?_, ?_, ?_⟩
      · rw [layerLoop]
        simp only [i1, run_bind_ok, run_pure]
      · rw [List.flatten_cons, List.nodup_append]
        refine ⟨l2, i2, ?_⟩
        intro a ha b hb
        rintro rfl
        exact ((t2 a).1 ((i3 a).1 hb)).2 ha
      · intro v
        rw [List.flatten_cons, List.mem_append, i3 v, t2 v]
        constructor
        · rintro (hv | hv)
          · exact l3 v hv
          · exact hv.1
        · intro hv
          by_cases hc : v ∈ currentLayer (ord n (p :: ps))
          · exact .inl hc
          · exact .inr ⟨hv, hc⟩
      · rw [List.mem_cons, not_or]
        exact ⟨fun h' => l1 h'.symm, i4⟩
      · intro hcl hac u v he hv
        by_cases hvl : v ∈ currentLayer (ord n (p :: ps))
        · left
          have hz := l4 (zero_entry hcl hac h (by simp)) v hvl
          have hcount := h.count _ hz
          simp only [] at hcount
          apply Classical.byContradiction
          intro hu
          have : 0 < g.edges.countP fun e => decide (e.2 = v ∧ e.1 ∉ removed) :=
            List.countP_pos_iff.2 ⟨(u, v), he, by simpa using hu⟩
          omega
        · rcases i5 hcl hac u v he ((t2 v).2 ⟨hv, hvl⟩) with hr | ⟨i, j, ⟨a, ha1, ha2⟩, ⟨b, hb1, hb2⟩, hij⟩
          · rcases List.mem_append.1 hr with hr | hr
            · exact .inl hr
            · right
              have hvf := (i3 v).2 ((t2 v).2 ⟨hv, hvl⟩)
              obtain ⟨l, hl, hvl'⟩ := List.mem_flatten.1 hvf
              obtain ⟨j, hj⟩ := List.mem_iff_getElem?.1 hl
              exact ⟨0, j + 1, ⟨_, rfl, hr⟩, ⟨l, by simpa using hj, hvl'⟩, by omega⟩
          · right
            exact ⟨i + 1, j + 1, ⟨a, by simpa using ha1, ha2⟩, ⟨b, by simpa using hb1, hb2⟩, by omega⟩

end Oaks
