import Verif.Proofs.Arena

/-! # C28–C30: arenas -/

namespace Oaks
open Spec

/-- Concrete histories for the examples and witnesses below. -/
inductive MemCmd where
  | create
  | alloc (i size p : Nat)
  | drop (i : Nat)

/-- Does the placement meet the allocator's contract? -/
def sysPlaceB (h : Heap) (p n : Nat) : Bool :=
  p % 8 == 0 && decide (8 ≤ p) && h.blocks.all (fun b => decide (p + n ≤ b.1) || decide (b.1 + b.2 ≤ p))

/-- Run a concrete history, checking placements; answers memory and handed out blocks. -/
def replay : List MemCmd → Mem → List (Nat × Nat × Nat) → Option (Mem × List (Nat × Nat × Nat))
  | [], m, g => some (m, g)
  | .create :: cs, m, g => replay cs m.newArena g
  | .alloc i size p :: cs, m, g =>
    if sysPlaceB m.heap p (max (size + 8) chunkSize) then
      match m.alloc i size p with
      | .ok (m', r) => replay cs m' ((i, r, size) :: g)
      | .error _ => none
    else none
  | .drop i :: cs, m, g =>
    match m.dropArena i with
    | .ok m' => replay cs m' g
    | .error _ => none

/-- The blocks of arena `j` in a recorded list. -/
def blocksOf (g : List (Nat × Nat × Nat)) (j : Nat) : List (Nat × Nat) :=
  (g.filter (fun x => x.1 == j)).map (·.2)

theorem replay_hist (cs : List MemCmd) : ∀ (m m' : Mem) (g g' : List (Nat × Nat × Nat)),
    Hist m (blocksOf g) → replay cs m g = some (m', g') → Hist m' (blocksOf g') := by
  induction cs with
  | nil => intro m m' g g' h hr; simp [replay] at hr; obtain ⟨rfl, rfl⟩ := hr; exact h
  | cons c cs ih =>
    intro m m' g g' h hr
    cases c with
    | create => exact ih _ _ _ _ (.create h) hr
    | alloc i size p =>
      simp only [replay] at hr
      split at hr
      · rename_i hs
        split at hr
        · rename_i m'' r ho
          refine ih m'' m' _ g' ?_ hr
          have : blocksOf ((i, r, size) :: g) = (fun j => if j = i then (r, size) :: blocksOf g j else blocksOf g j) := by
            funext j
            by_cases hj : j = i
            · subst hj; simp [blocksOf]
            · simp [blocksOf, hj, Ne.symm hj]
          rw [this]
          refine .alloc h ⟨?_, ?_, ?_⟩ ho
          · simp [sysPlaceB] at hs; omega
          · simp [sysPlaceB] at hs; omega
          · intro b hb
            simp [sysPlaceB] at hs
            exact hs.2 b.1 b.2 hb
        · simp at hr
      · simp at hr
    | drop i =>
      simp only [replay] at hr
      split at hr
      · rename_i m'' ho
        exact ih m'' m' g g' (.drop h ho) hr
      · simp at hr

theorem replay_from_empty {cs : List MemCmd} {m' : Mem} {g' : List (Nat × Nat × Nat)}
    (h : replay cs Mem.empty [] = some (m', g')) : Hist m' (blocksOf g') := by
  refine replay_hist cs Mem.empty m' [] g' ?_ h
  have : blocksOf [] = fun _ => [] := by funext j; rfl
  rw [this]; exact .init

end Oaks

namespace Oaks.Props
open Oaks Oaks.Spec

/-- In every history, the blocks handed out by a live arena are 8-byte aligned, pairwise apart, and every
non-empty one lies inside a chunk the arena holds. -/
theorem C28_blocks {m : Mem} {g : Nat → List (Nat × Nat)} (h : Hist m g) (i : Nat) (a : Arena)
    (hi : m.arenas[i]? = some (some a)) :
    (g i).Pairwise Apart ∧
      ∀ b ∈ g i, 8 ∣ b.1 ∧ (0 < b.2 → ∃ c ∈ chunksOf a, Inside b c) := by
  obtain ⟨_, hg⟩ := h.ok.arena i a hi
  refine ⟨hg.apart, fun b hb => ⟨(hg.inside b hb).1, fun h0 => ?_⟩⟩
  rcases (hg.inside b hb).2 with rfl | h
  · simp at h0
  · exact h

theorem held_apart {m : Mem} {g : Nat → List (Nat × Nat)} (h : Hist m g) : (heldChunks m).Pairwise Apart := by
  obtain ⟨lost, hl⟩ := h.ok.held
  exact (List.pairwise_append.1 ((hl.pairwise_iff (fun {a b} h => Apart.symm h)).2 h.ok.apart)).1

theorem arenas_apart (l : List (Option Arena)) (h : (l.flatMap chunksOf?).Pairwise Apart) (i j : Nat) (a b : Arena)
    (hij : i ≠ j) (hi : l[i]? = some (some a)) (hj : l[j]? = some (some b)) :
    ∀ c ∈ chunksOf a, ∀ d ∈ chunksOf b, Apart c d := by
  induction l generalizing i j with
  | nil => simp at hi
  | cons x l ih =>
    rw [List.flatMap_cons, List.pairwise_append] at h
    cases i with
    | zero =>
      cases j with
      | zero => exact absurd rfl hij
      | succ j =>
        simp at hi hj
        subst hi
        intro c hc d hd
        exact h.2.2 c hc d (List.mem_flatMap.2 ⟨some b, List.mem_of_getElem? hj, hd⟩)
    | succ i =>
      cases j with
      | zero =>
        simp at hi hj
        subst hj
        intro c hc d hd
        exact Apart.symm (h.2.2 d hd c (List.mem_flatMap.2 ⟨some a, List.mem_of_getElem? hi, hc⟩))
      | succ j =>
        simp at hi hj
        exact ih h.2.1 i j (by omega) hi hj

/-- Blocks of different live arenas do not overlap either. -/
theorem C28_across_arenas {m : Mem} {g : Nat → List (Nat × Nat)} (h : Hist m g) (i j : Nat) (a b : Arena)
    (hij : i ≠ j) (hi : m.arenas[i]? = some (some a)) (hj : m.arenas[j]? = some (some b)) :
    ∀ x ∈ g i, ∀ y ∈ g j, 0 < x.2 → 0 < y.2 → Apart x y := by
  intro x hx y hy h0 h1
  obtain ⟨c, hc, hxc⟩ := ((C28_blocks h i a hi).2 x hx).2 h0
  obtain ⟨d, hd, hyd⟩ := ((C28_blocks h j b hj).2 y hy).2 h1
  have := arenas_apart _ (List.pairwise_append.1 (held_apart h)).2.1 i j a b hij hi hj c hc d hd
  exact Apart.symm (inside_apart hyd (Apart.symm (inside_apart hxc this)))

/-- Allocation never panics on a live arena, and it hands out memory that no live arena and not the
pool uses already: the block is apart from all blocks handed out before by live arenas. -/
theorem C28_alloc_succeeds {m : Mem} {g : Nat → List (Nat × Nat)} (h : Hist m g) (i size p : Nat) (a : Arena)
    (hi : m.arenas[i]? = some (some a)) : ∃ r, m.alloc i size p = .ok r := by
  obtain ⟨hao, _⟩ := h.ok.arena i a hi
  unfold Mem.alloc allocRaw
  rw [hi]
  simp only
  rw [if_neg (by simp [hao.aligned])]
  split
  · exact ⟨_, rfl⟩
  · obtain ⟨h', r, n, heq, _⟩ := allocSlow_spec (h := m.heap) hao size p
    rw [heq]; exact ⟨_, rfl⟩

/-- Each chunk has a single owner: the chunks of the pool and of the live arenas are all distinct
(indeed they do not overlap), they are live system blocks, and the pool stays within its limit. -/
theorem C29_single_owner {m : Mem} {g : Nat → List (Nat × Nat)} (h : Hist m g) :
    (heldChunks m).Pairwise Apart ∧ (heldChunks m).Nodup ∧
      (∀ c ∈ heldChunks m, c ∈ m.heap.blocks) ∧ m.heap.pool.length ≤ 64 := by
  refine ⟨held_apart h, ?_, fun c hc => h.ok.mem_blocks hc, h.ok.pool⟩
  refine (held_apart h).imp_of_mem ?_
  intro a b ha hb hab hne
  subst hne
  have := (h.ok.good a (h.ok.mem_blocks ha)).2.2
  unfold chunkSize at this
  rcases hab with h | h <;> omega

/-- Dropping a live arena always succeeds: it never frees a block twice or with a wrong layout. -/
theorem C29_drop_safe {m : Mem} {g : Nat → List (Nat × Nat)} (h : Hist m g) (i : Nat) (a : Arena)
    (hi : m.arenas[i]? = some (some a)) : ∃ m', m.dropArena i = .ok m' := by
  obtain ⟨m', h1, _⟩ := drop_step h.ok hi
  exact ⟨m', h1⟩

/-- A dropped arena gives up every chunk, to the pool or to the system, provided the pool has room for
its standard chunks. Missing for the full property: when the pool is full the code neither pools nor
frees (see `C29_full_pool_leaks`). -/
theorem C29_no_leak_partial {m : Mem} {g : Nat → List (Nat × Nat)} (h : Hist m g) (i : Nat) (a : Arena)
    (hi : m.arenas[i]? = some (some a))
    (hroom : m.heap.pool.length + ((chunksOf a).filter (fun c => c.2 = chunkSize)).length ≤ 64)
    (hbefore : (heldChunks m).Perm m.heap.blocks) :
    ∃ m', m.dropArena i = .ok m' ∧ m'.arenas[i]? = some none ∧ (heldChunks m').Perm m'.heap.blocks := by
  obtain ⟨m', h1, _, h3⟩ := drop_step h.ok hi
  refine ⟨m', h1, ?_, h3 hroom hbefore⟩
  unfold Mem.dropArena at h1
  rw [hi] at h1
  simp only at h1
  have hlen := (List.getElem?_eq_some_iff.1 hi).1
  cases hd : a.drop m.heap with
  | error e => rw [hd] at h1; simp at h1
  | ok hp =>
    rw [hd] at h1; simp at h1; subst h1
    simp [hlen]

/-- Non-vacuity: two arenas, small and large blocks, a drop, and the pooled chunk reused. -/
example : ∃ m g, Hist m g ∧ g 0 = [(131088, 70000), (24, 3), (16, 4)] ∧ g 1 = [(16, 5)] ∧
    m.heap.pool = [] ∧ heldChunks m = [(16, 65536)] ∧ m.heap.blocks = [(16, 65536)] := by
  have h : (match replay [.create, .alloc 0 4 16, .alloc 0 3 800000, .alloc 0 70000 131088, .drop 0, .create,
      .alloc 1 5 800000] Mem.empty [] with
      | some (m, g) => blocksOf g 0 == [(131088, 70000), (24, 3), (16, 4)] &&
          (blocksOf g 1 == [(16, 5)] && (m.heap.pool == [] && (heldChunks m == [(16, 65536)] &&
            m.heap.blocks == [(16, 65536)])))
      | none => false) = true := by decide +kernel
  split at h
  · rename_i m g hr
    simp only [Bool.and_eq_true, beq_iff_eq] at h
    exact ⟨m, blocksOf g, replay_from_empty hr, h⟩
  · simp at h

/-- The commands of the leaking history: one arena fills 65 standard chunks and is dropped. -/
def leakCmds : List MemCmd :=
  .create :: (List.range 65).map (fun k => .alloc 0 65528 (65536 * (k + 1))) ++ [.drop 0]

/-- The full property fails: after one arena with 65 standard chunks is dropped, no arena is left and the pool
holds 64 chunks, but 65 blocks are still allocated from the system. One chunk has no owner and can
never be freed. -/
theorem C29_full_pool_leaks : ∃ m g, Hist m g ∧ (∀ a, some a ∉ m.arenas) ∧
    (heldChunks m).length = 64 ∧ m.heap.blocks.length = 65 := by
  have h : (match replay leakCmds Mem.empty [] with
      | some (m, _) => m.arenas.all (fun a => a.isNone) && (heldChunks m).length == 64 && m.heap.blocks.length == 65
      | none => false) = true := by decide +kernel
  cases hr : replay leakCmds Mem.empty [] with
  | none => rw [hr] at h; simp at h
  | some r =>
    obtain ⟨m, g⟩ := r
    rw [hr] at h
    simp at h
    refine ⟨m, blocksOf g, replay_from_empty hr, ?_, h.1.2, h.2⟩
    intro a ha
    have := h.1.1 _ ha
    simp at this

/-- A run of additions in which none panics: the store and the index answered for each record. -/
inductive Added {P : Type} : List P → List (P × Nat) → Prop where
  | init : Added [] []
  | add {s s' : List P} {log : List (P × Nat)} {p : P} {i : Nat} : Added s log →
      addMetadata s p = .ok (s', i) → Added s' (log ++ [(p, i)])

theorem added_inv {P : Type} {s : List P} {log : List (P × Nat)} (h : Added s log) :
    s.length < 2 ^ 32 ∧ log.length = s.length ∧ ∀ k p i, log[k]? = some (p, i) → i = k + 1 ∧ s[k]? = some p := by
  induction h with
  | init => simp
  | @add s s' log p i _ ho ih =>
    obtain ⟨h1, h2, h3⟩ := ih
    unfold addMetadata at ho
    simp only [List.length_append, List.length_singleton] at ho
    split at ho
    · simp at ho
    · rename_i hne
      simp only [Except.ok.injEq, Prod.mk.injEq] at ho
      obtain ⟨rfl, rfl⟩ := ho
      refine ⟨by simp; omega, by simp [h2], ?_⟩
      intro k q i hk
      rw [List.getElem?_append] at hk
      split at hk
      · rename_i hlt
        obtain ⟨h4, h5⟩ := h3 k q i hk
        exact ⟨h4, by rw [List.getElem?_append_left (by omega), h5]⟩
      · rename_i hge
        have hk0 : k - log.length = 0 := by
          cases hz : k - log.length with
          | zero => rfl
          | succ n => rw [hz] at hk; simp at hk
        rw [hk0] at hk
        simp at hk
        obtain ⟨rfl, rfl⟩ := hk
        have hks : k = s.length := by omega
        subst hks
        exact ⟨Nat.mod_eq_of_lt (by omega), by simp⟩

/-- Every record added so far reads back through the index that was answered for it. -/
theorem C30_read_back {P : Type} {s : List P} {log : List (P × Nat)} (h : Added s log) :
    ∀ p i, (p, i) ∈ log → getMetadata s i = some p := by
  intro p i hm
  obtain ⟨k, hk⟩ := List.getElem?_of_mem hm
  obtain ⟨rfl, h2⟩ := (added_inv h).2.2 k p i hk
  simpa [getMetadata] using h2

/-- The indices answered are non-zero and never collide. -/
theorem C30_indices_distinct {P : Type} {s : List P} {log : List (P × Nat)} (h : Added s log) :
    (log.map (·.2)).Nodup ∧ ∀ x ∈ log, 0 < x.2 := by
  have hinv := (added_inv h).2.2
  constructor
  · have : log.map (·.2) = (List.range log.length).map (· + 1) := by
      apply List.ext_getElem?
      intro k
      simp only [List.getElem?_map]
      cases hk : log[k]? with
      | none => simp at hk; simp [hk]
      | some x =>
        obtain ⟨p, i⟩ := x
        have hlt := (List.getElem?_eq_some_iff.1 hk).1
        simp [hlt, (hinv k p i hk).1]
    rw [this]
    exact List.pairwise_map.2 (List.nodup_range.imp (fun h => by simpa using h))
  · intro x hx
    obtain ⟨k, hk⟩ := List.getElem?_of_mem hx
    have := (hinv k x.1 x.2 (by simpa using hk)).1
    omega

/-- Adding works until 2^32 - 1 records are stored; the next addition panics instead of answering a
wrong index. -/
theorem C30_overflow_panics {P : Type} (s : List P) (p : P) (h : s.length = 2 ^ 32 - 1) :
    addMetadata s p = .error .panic := by
  simp [addMetadata, h]

example : Added [5, 7] [(5, 1), (7, 2)] := .add (.add .init rfl) rfl

end Oaks.Props
