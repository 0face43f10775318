import Verif.Spec.Arena

namespace Oaks
open Spec

theorem Apart.symm {a b : Nat × Nat} (h : Apart a b) : Apart b a := Or.symm h

theorem alignUp_mod (x : Nat) : alignUp x % 8 = 0 := by unfold alignUp; omega
theorem alignUp_ge (x : Nat) : x ≤ alignUp x := by unfold alignUp; omega
theorem alignUp_lt (x : Nat) : alignUp x < x + 8 := by unfold alignUp; omega

structure ArenaOk (a : Arena) : Prop where
  aligned : a.ptr % 8 = 0
  le : a.ptr ≤ a.stop
  start : (a.cur = 1 ∧ a.stop = 8 ∧ a.ptr = 8 ∧ a.full = []) ∨ (8 ≤ a.cur ∧ a.cur ≤ a.ptr)

structure GivenOk (a : Arena) (g : List (Nat × Nat)) : Prop where
  apart : g.Pairwise Apart
  inside : ∀ b ∈ g, 8 ∣ b.1 ∧ (b = (8, 0) ∨ ∃ c ∈ chunksOf a, Inside b c)
  free : ∀ b ∈ g, b.1 + b.2 ≤ a.ptr ∨ a.stop ≤ b.1

structure MemOk (m : Mem) (g : Nat → List (Nat × Nat)) : Prop where
  apart : m.heap.blocks.Pairwise Apart
  good : ∀ b ∈ m.heap.blocks, 8 ∣ b.1 ∧ 8 ≤ b.1 ∧ chunkSize ≤ b.2
  held : ∃ lost, (heldChunks m ++ lost).Perm m.heap.blocks
  pool : m.heap.pool.length ≤ 64
  arena : ∀ i a, m.arenas[i]? = some (some a) → ArenaOk a ∧ GivenOk a (g i)
  fresh : ∀ i, m.arenas.length ≤ i → g i = []

theorem set_split {α : Type} (l : List α) (i : Nat) (x : α) (h : l[i]? = some x) :
    ∃ pre post, l = pre ++ x :: post ∧ ∀ y, l.set i y = pre ++ y :: post := by
  obtain ⟨hi, rfl⟩ := List.getElem?_eq_some_iff.1 h
  refine ⟨l.take i, l.drop (i + 1), ?_, ?_⟩
  · rw [← List.drop_eq_getElem_cons hi, List.take_append_drop]
  · intro y; rw [List.set_eq_take_append_cons_drop]; simp [hi]

theorem allocSlow_spec {h : Heap} {a : Arena} (ha : ArenaOk a) (size p : Nat) :
    ∃ h' r n, allocSlow h a size p =
        .ok (h', ⟨alignUp (r + size), r + n, chunksOf a, r⟩, r) ∧ n = max (size + 8) chunkSize ∧
      ((n = chunkSize ∧ h.pool = r :: h'.pool ∧ h'.blocks = h.blocks) ∨
        (r = p ∧ h'.pool = h.pool ∧ h'.blocks = (p, n) :: h.blocks)) := by
  have hfull : a.retire = .ok (chunksOf a) := by
    unfold chunksOf Arena.retire
    rcases ha.start with h1 | h1
    · simp [h1.1]
    · have : a.cur ≠ 1 := by omega
      have hle := ha.le
      simp [this, checkedSub_ok (show a.cur ≤ a.stop by omega)]
  unfold allocSlow
  rw [hfull]
  simp only [run_bind_ok, run_pure]
  unfold Heap.allocChunk
  by_cases hc : max (size + 8) chunkSize = chunkSize
  · rw [if_pos hc]
    obtain ⟨bl, pool⟩ := h
    cases pool with
    | nil => exact ⟨_, p, _, rfl, rfl, .inr ⟨rfl, rfl, rfl⟩⟩
    | cons c rest => exact ⟨_, c, _, rfl, rfl, .inl ⟨hc, rfl, rfl⟩⟩
  · rw [if_neg hc]
    exact ⟨_, p, _, rfl, rfl, .inr ⟨rfl, rfl, rfl⟩⟩

theorem inside_apart {a b c : Nat × Nat} (h : Inside a b) (hb : Apart b c) : Apart a c := by
  obtain ⟨h1, h2⟩ := h
  rcases hb with hb | hb
  · left; omega
  · right; omega

theorem held_split (m : Mem) (i : Nat) (a : Arena) (h : m.arenas[i]? = some (some a)) :
    ∃ pre post, m.arenas = pre ++ some a :: post ∧
      (∀ hp y, heldChunks ⟨hp, m.arenas.set i y⟩ =
        hp.pool.map (fun p => (p, chunkSize)) ++ (pre.flatMap chunksOf? ++ (chunksOf? y ++ post.flatMap chunksOf?))) ∧
      heldChunks m = m.heap.pool.map (fun p => (p, chunkSize)) ++
        (pre.flatMap chunksOf? ++ (chunksOf a ++ post.flatMap chunksOf?)) := by
  obtain ⟨pre, post, h1, h2⟩ := set_split _ _ _ h
  refine ⟨pre, post, h1, ?_, ?_⟩
  · intro hp y; simp [heldChunks, h2]
  · simp [heldChunks, h1, chunksOf?]

theorem MemOk.mem_blocks {m : Mem} {g : Nat → List (Nat × Nat)} (h : MemOk m g) {c : Nat × Nat}
    (hc : c ∈ heldChunks m) : c ∈ m.heap.blocks := by
  obtain ⟨lost, hl⟩ := h.held
  exact hl.subset (by simp [hc])

theorem mem_held_arena {m : Mem} {i : Nat} {a : Arena} (h : m.arenas[i]? = some (some a)) {c : Nat × Nat}
    (hc : c ∈ chunksOf a) : c ∈ heldChunks m := by
  simp only [heldChunks, List.mem_append, List.mem_flatMap]
  exact .inr ⟨some a, List.mem_of_getElem? h, hc⟩

/-- The new current chunk does not touch chunks the arena already has. -/
theorem givenOk_slow {a : Arena} {g : List (Nat × Nat)} (hg : GivenOk a g) {r n size : Nat}
    (hr8 : 8 ∣ r) (hr : 8 ≤ r) (hn : n = max (size + 8) chunkSize) (hap : ∀ c ∈ chunksOf a, Apart c (r, n)) :
    ArenaOk ⟨alignUp (r + size), r + n, chunksOf a, r⟩ ∧
      GivenOk ⟨alignUp (r + size), r + n, chunksOf a, r⟩ ((r, size) :: g) := by
  have hge := alignUp_ge (r + size)
  have hlt := alignUp_lt (r + size)
  have hfit : size + 8 ≤ n := by omega
  have hcs : chunksOf ⟨alignUp (r + size), r + n, chunksOf a, r⟩ = (r, n) :: chunksOf a := by
    rw [chunksOf]
    have : r ≠ 1 := by omega
    simp [this]
  have hold : ∀ b ∈ g, Apart b (r, n) := by
    intro b hb
    rcases (hg.inside b hb).2 with rfl | ⟨c, hc, hin⟩
    · left; simpa using hr
    · exact inside_apart hin (hap c hc)
  refine ⟨⟨alignUp_mod _, by simp; omega, .inr ⟨hr, by simp; omega⟩⟩, ?_⟩
  constructor
  · refine List.pairwise_cons.2 ⟨fun b hb => ?_, hg.apart⟩
    refine Apart.symm ?_
    rcases hold b hb with h | h
    · left; exact h
    · right; simp at h ⊢; omega
  · intro b hb
    simp only [List.mem_cons] at hb
    rw [hcs]
    rcases hb with rfl | hb
    · exact ⟨hr8, .inr ⟨(r, n), by simp, by simp [Inside]; omega⟩⟩
    · obtain ⟨h1, h2⟩ := hg.inside b hb
      refine ⟨h1, ?_⟩
      rcases h2 with h2 | ⟨c, hc, hin⟩
      · exact .inl h2
      · exact .inr ⟨c, by simp [hc], hin⟩
  · intro b hb
    simp only [List.mem_cons] at hb
    rcases hb with rfl | hb
    · left; simpa using hge
    · rcases hold b hb with h | h
      · left; simp at h ⊢; omega
      · right; simpa using h

theorem givenOk_fast {a : Arena} (ha : ArenaOk a) {g : List (Nat × Nat)} (hg : GivenOk a g) {size : Nat}
    (hfit : alignUp (a.ptr + size) ≤ a.stop) :
    ArenaOk { a with ptr := alignUp (a.ptr + size) } ∧
      GivenOk { a with ptr := alignUp (a.ptr + size) } ((a.ptr, size) :: g) := by
  have hge := alignUp_ge (a.ptr + size)
  have h8 := ha.aligned
  refine ⟨⟨alignUp_mod _, hfit, ?_⟩, ?_⟩
  · rcases ha.start with ⟨h1, h2, h3, h4⟩ | ⟨h1, h2⟩
    · left; simp only at *; exact ⟨h1, h2, by omega, h4⟩
    · right; simp only at *; exact ⟨h1, by omega⟩
  constructor
  · refine List.pairwise_cons.2 ⟨fun b hb => ?_, hg.apart⟩
    rcases hg.free b hb with h | h
    · right; exact h
    · left; simp; omega
  · intro b hb
    simp only [List.mem_cons] at hb
    rcases hb with rfl | hb
    · refine ⟨by simp only; omega, ?_⟩
      rcases ha.start with ⟨h1, h2, h3, h4⟩ | ⟨h1, h2⟩
      · left
        have : size = 0 := by omega
        simp [h3, this]
      · right
        have : a.cur ≠ 1 := by omega
        exact ⟨(a.cur, a.stop - a.cur), by simp [chunksOf, this], by simp only [Inside]; omega⟩
    · exact hg.inside b hb
  · intro b hb
    simp only [List.mem_cons] at hb
    rcases hb with rfl | hb
    · left; simpa using hge
    · rcases hg.free b hb with h | h
      · left; simp; omega
      · right; exact h

theorem alloc_step {m m' : Mem} {g : Nat → List (Nat × Nat)} {i size p r : Nat} (h : MemOk m g)
    (hsys : SysPlace m.heap p (max (size + 8) chunkSize)) (ho : m.alloc i size p = .ok (m', r)) :
    MemOk m' (fun j => if j = i then (r, size) :: g j else g j) := by
  unfold Mem.alloc at ho
  split at ho
  case h_2 => simp at ho
  case h_1 a hi =>
    obtain ⟨hao, hgo⟩ := h.arena i a hi
    have hlen : i < m.arenas.length := by
      obtain ⟨hi', _⟩ := List.getElem?_eq_some_iff.1 hi; exact hi'
    unfold allocRaw at ho
    rw [if_neg (by simp [hao.aligned])] at ho
    split at ho
    · -- fast path
      rename_i hfit
      simp only [run_bind_ok, run_pure, Except.ok.injEq, Prod.mk.injEq] at ho
      obtain ⟨rfl, rfl⟩ := ho
      obtain ⟨hao', hgo'⟩ := givenOk_fast hao hgo hfit
      obtain ⟨pre, post, _, hs1, hs2⟩ := held_split m i a hi
      have hheld : heldChunks ⟨m.heap, m.arenas.set i (some { a with ptr := alignUp (a.ptr + size) })⟩ =
          heldChunks m := by
        rw [hs1, hs2]; rfl
      refine ⟨h.apart, h.good, ?_, h.pool, ?_, ?_⟩
      · rw [hheld]; exact h.held
      · intro j b hj
        simp only at hj ⊢
        by_cases hji : j = i
        · subst hji
          rw [List.getElem?_set_self hlen] at hj
          simp at hj; subst hj
          simp only [if_true]
          exact ⟨hao', hgo'⟩
        · rw [List.getElem?_set_ne (by omega)] at hj
          simp only [hji, if_false]
          exact h.arena j b hj
      · intro j hj
        simp only [List.length_set] at hj
        have : j ≠ i := by omega
        simp only [this, if_false]
        exact h.fresh j hj
    · -- slow path
      obtain ⟨hp', c, n, heq, hn, hcase⟩ := allocSlow_spec (h := m.heap) hao size p
      rw [heq] at ho
      simp only [run_bind_ok, run_pure, Except.ok.injEq, Prod.mk.injEq] at ho
      obtain ⟨rfl, rfl⟩ := ho
      obtain ⟨pre, post, _, hs1, hs2⟩ := held_split m i a hi
      obtain ⟨lost, hlost⟩ := h.held
      have hc1 : c ≠ 1 ∧ 8 ∣ c ∧ 8 ≤ c := by
        rcases hcase with ⟨_, hpool, _⟩ | ⟨rfl, _, _⟩
        · have : (c, chunkSize) ∈ heldChunks m := by simp [heldChunks, hpool]
          have := h.good _ (h.mem_blocks this)
          exact ⟨by have := this.2.1; simp at this; omega, this.1, this.2.1⟩
        · exact ⟨by have := hsys.2.1; omega, hsys.1, hsys.2.1⟩
      have hnew : chunksOf? (some ⟨alignUp (c + size), c + n, chunksOf a, c⟩) = (c, n) :: chunksOf a := by
        simp [chunksOf?, chunksOf, hc1.1]
      have hperm : (heldChunks ⟨hp', m.arenas.set i (some ⟨alignUp (c + size), c + n, chunksOf a, c⟩)⟩ ++ lost).Perm
          hp'.blocks := by
        rw [hs1, hnew]
        rw [hs2] at hlost
        rcases hcase with ⟨hn', hpool, hbl⟩ | ⟨rfl, hpool, hbl⟩
        · rw [hbl]
          refine List.Perm.trans ?_ hlost
          rw [hpool, hn']
          rw [List.perm_iff_count]
          intro x
          simp [List.count_append, List.count_cons]
          omega
        · rw [hbl, hpool]
          refine List.Perm.trans ?_ (hlost.cons (c, n))
          rw [List.perm_iff_count]
          intro x
          simp [List.count_append, List.count_cons]
          omega
      have hpw : hp'.blocks.Pairwise Apart := by
        rcases hcase with ⟨_, _, hbl⟩ | ⟨rfl, _, hbl⟩
        · rw [hbl]; exact h.apart
        · rw [hbl, hn]; exact List.pairwise_cons.2 ⟨hsys.2.2, h.apart⟩
      have hapart : ∀ d ∈ chunksOf a, Apart d (c, n) := by
        intro d hd
        have hpw' := (hperm.pairwise_iff (fun {a b} h => Apart.symm h)).2 hpw
        rw [hs1, hnew, List.append_assoc, List.append_assoc] at hpw'
        have h2 := (List.pairwise_append.1 (List.pairwise_append.1 hpw').2.1).2.1
        simp only [List.cons_append, List.append_assoc] at h2
        exact Apart.symm ((List.pairwise_cons.1 h2).1 d (by simp [hd]))
      obtain ⟨hao', hgo'⟩ := givenOk_slow hgo (size := size) hc1.2.1 hc1.2.2 hn hapart
      refine ⟨hpw, ?_, ⟨lost, hperm⟩, ?_, ?_, ?_⟩
      · intro b hb
        rcases hcase with ⟨_, _, hbl⟩ | ⟨rfl, _, hbl⟩
        · simp only [hbl] at hb; exact h.good b hb
        · simp only [hbl, List.mem_cons] at hb
          rcases hb with rfl | hb
          · exact ⟨hsys.1, hsys.2.1, by simp [hn]; omega⟩
          · exact h.good b hb
      · have := h.pool
        rcases hcase with ⟨_, hpool, _⟩ | ⟨_, hpool, _⟩
        · rw [hpool] at this; simp at this ⊢; omega
        · simp only [hpool]; exact this
      · intro j b hj
        simp only at hj ⊢
        by_cases hji : j = i
        · subst hji
          rw [List.getElem?_set_self hlen] at hj
          simp at hj; subst hj
          simp only [if_true]
          exact ⟨hao', hgo'⟩
        · rw [List.getElem?_set_ne (by omega)] at hj
          simp only [hji, if_false]
          exact h.arena j b hj
      · intro j hj
        simp only [List.length_set] at hj
        have : j ≠ i := by omega
        simp only [this, if_false]
        exact h.fresh j hj

/-- Recycling a list of chunks that are all live. -/
theorem recycleAll_spec (cs : List (Nat × Nat)) : ∀ (h : Heap) (R L : List (Nat × Nat)),
    (h.pool.map (fun p => (p, chunkSize)) ++ (cs ++ (R ++ L))).Perm h.blocks → h.pool.length ≤ 64 →
    ∃ h' L', h.recycleAll cs = .ok h' ∧ (h'.pool.map (fun p => (p, chunkSize)) ++ (R ++ L')).Perm h'.blocks ∧
      h'.pool.length ≤ 64 ∧ h'.blocks.Sublist h.blocks ∧
      (h.pool.length + (cs.filter (fun c => c.2 = chunkSize)).length ≤ 64 → L' = L) := by
  induction cs with
  | nil =>
    intro h R L hp hl
    exact ⟨h, L, rfl, by simpa using hp, hl, List.Sublist.refl _, fun _ => rfl⟩
  | cons c cs ih =>
    intro h R L hp hl
    rw [Heap.recycleAll]
    unfold Heap.recycle
    by_cases hc : c.2 = chunkSize
    · rw [if_pos hc, run_bind_ok]
      by_cases hr : h.pool.length < 64
      · rw [if_pos hr]
        have hcc : (c.1, chunkSize) = c := by rw [← hc]
        obtain ⟨h', L', h1, h2, h3, h4, h5⟩ := ih { h with pool := c.1 :: h.pool } R L (by
          refine List.Perm.trans ?_ hp
          simp only [List.map_cons, hcc]
          rw [List.perm_iff_count]
          intro x
          simp [List.count_append, List.count_cons]
          omega) (by simp; omega)
        refine ⟨h', L', h1, h2, h3, h4, fun hroom => h5 ?_⟩
        simp [hc] at hroom ⊢
        omega
      · rw [if_neg hr]
        obtain ⟨h', L', h1, h2, h3, h4, h5⟩ := ih h R (c :: L) (by
          refine List.Perm.trans ?_ hp
          rw [List.perm_iff_count]
          intro x
          simp [List.count_append, List.count_cons]
          omega) hl
        refine ⟨h', L', h1, h2, h3, h4, fun hroom => ?_⟩
        simp [hc] at hroom
        omega
    · rw [if_neg hc]
      have hmem : c ∈ h.blocks := hp.subset (by simp)
      rw [if_pos hmem, run_bind_ok]
      obtain ⟨h', L', h1, h2, h3, h4, h5⟩ := ih { h with blocks := h.blocks.erase c } R L (by
          have : (c :: (h.pool.map (fun p => (p, chunkSize)) ++ (cs ++ (R ++ L)))).Perm h.blocks := by
            refine List.Perm.trans ?_ hp
            rw [List.perm_iff_count]
            intro x
            simp [List.count_append, List.count_cons]
            omega
          exact (this.trans (List.perm_cons_erase hmem)).cons_inv) hl
      refine ⟨h', L', h1, h2, h3, h4.trans List.erase_sublist, fun hroom => h5 ?_⟩
      simp [hc] at hroom ⊢
      exact hroom

theorem drop_eq (h : Heap) {a : Arena} (ha : ArenaOk a) : a.drop h = h.recycleAll (chunksOf a) := by
  unfold Arena.drop chunksOf
  rcases ha.start with h1 | h1
  · simp [h1.1]
  · have : a.cur ≠ 1 := by omega
    have hle := ha.le
    simp [this, checkedSub_ok (show a.cur ≤ a.stop by omega), Heap.recycleAll]

theorem drop_step {m : Mem} {g : Nat → List (Nat × Nat)} {i : Nat} {a : Arena} (h : MemOk m g)
    (hi : m.arenas[i]? = some (some a)) :
    ∃ m', m.dropArena i = .ok m' ∧ MemOk m' g ∧
      ((m.heap.pool.length + ((chunksOf a).filter (fun c => c.2 = chunkSize)).length ≤ 64) →
        (heldChunks m).Perm m.heap.blocks → (heldChunks m').Perm m'.heap.blocks) := by
  obtain ⟨hao, hgo⟩ := h.arena i a hi
  have hlen : i < m.arenas.length := by
    obtain ⟨hi', _⟩ := List.getElem?_eq_some_iff.1 hi; exact hi'
  obtain ⟨pre, post, _, hs1, hs2⟩ := held_split m i a hi
  have key : ∀ lost, (heldChunks m ++ lost).Perm m.heap.blocks → 
      (m.heap.pool.map (fun p => (p, chunkSize)) ++ (chunksOf a ++
        ((pre.flatMap chunksOf? ++ post.flatMap chunksOf?) ++ lost))).Perm m.heap.blocks := by
    intro lost hlost
    refine List.Perm.trans ?_ hlost
    rw [hs2, List.perm_iff_count]
    intro x
    simp [List.count_append]
    omega
  obtain ⟨lost, hlost⟩ := h.held
  obtain ⟨h', L', h1, h2, h3, h4, h5⟩ := recycleAll_spec (chunksOf a) m.heap _ lost (key lost hlost) h.pool
  refine ⟨⟨h', m.arenas.set i none⟩, ?_, ⟨?_, ?_, ⟨L', ?_⟩, h3, ?_, ?_⟩, ?_⟩
  · unfold Mem.dropArena
    rw [hi]; simp only
    rw [drop_eq _ hao, h1]; rfl
  · exact h.apart.sublist h4
  · exact fun b hb => h.good b (h4.subset hb)
  · rw [hs1]; simpa [chunksOf?] using h2
  · intro j b hj
    simp only at hj
    by_cases hji : j = i
    · subst hji
      rw [List.getElem?_set_self hlen] at hj; simp at hj
    · rw [List.getElem?_set_ne (by omega)] at hj
      exact h.arena j b hj
  · intro j hj
    simp only [List.length_set] at hj
    exact h.fresh j hj
  · intro hroom hperm
    have hl0 : lost = [] := by
      have := (hperm.trans hlost.symm).length_eq
      simp at this; exact this
    have hL := h5 hroom
    rw [hL, hl0] at h2
    rw [hs1]
    simpa [chunksOf?] using h2

theorem Spec.Hist.ok {m : Mem} {g : Nat → List (Nat × Nat)} (h : Hist m g) : MemOk m g := by
  induction h with
  | init => exact ⟨by simp [Mem.empty], by simp [Mem.empty], ⟨[], by simp [Mem.empty, heldChunks]⟩, by simp [Mem.empty],
      by simp [Mem.empty], by simp⟩
  | @create m g _ ih =>
    have hheld : heldChunks m.newArena = heldChunks m := by
      simp [heldChunks, Mem.newArena, chunksOf?, chunksOf, Arena.new]
    refine ⟨ih.apart, ih.good, by rw [hheld]; exact ih.held, ih.pool, ?_, ?_⟩
    · intro i a hi
      simp only [Mem.newArena] at hi
      rw [List.getElem?_append] at hi
      split at hi
      · exact ih.arena i a hi
      · rename_i hge
        have hfr := ih.fresh i (by omega)
        cases hk : i - m.arenas.length with
        | zero =>
          rw [hk] at hi; simp at hi
          subst hi
          rw [hfr]
          exact ⟨⟨rfl, by simp [Arena.new], .inl ⟨rfl, rfl, rfl, rfl⟩⟩, ⟨.nil, by simp, by simp⟩⟩
        | succ k => rw [hk] at hi; simp at hi
    · intro i hi
      simp [Mem.newArena] at hi
      exact ih.fresh i (by omega)
  | alloc _ hsys ho ih => exact alloc_step ih hsys ho
  | @drop m m' g i _ ho ih =>
    have : ∃ a, m.arenas[i]? = some (some a) := by
      unfold Mem.dropArena at ho
      split at ho
      · rename_i a ha; exact ⟨a, ha⟩
      · simp at ho
    obtain ⟨a, ha⟩ := this
    obtain ⟨m'', h1, h2, _⟩ := drop_step ih ha
    rw [h1] at ho; simp at ho; subst ho
    exact h2

end Oaks
