import Verif.Proofs.Chunkify

/-! `text_in_chunks` on well-formed tables. -/

namespace Oaks

theorem append_split_of_le {a b c d : Str} (h : a ++ b = c ++ d) (hle : blen a ≤ blen c) :
    ∃ k, c = a ++ k ∧ b = k ++ d := by
  rw [List.append_eq_append_iff] at h
  rcases h with ⟨k, rfl, rfl⟩ | ⟨k, rfl, rfl⟩
  · exact ⟨k, rfl, rfl⟩
  · simp at hle
    have : k = [] := blen_eq_zero.mp (by omega)
    subst this
    exact ⟨[], by simp, by simp⟩

theorem strGet_ok (l m r : Str) : strGet (l ++ m ++ r) (blen l) (blen l + blen m) = some m :=
  strGet_eq_some.mpr ⟨l, r, rfl, rfl, rfl⟩

theorem strGet_ok' {s l m r : Str} {a b : Nat} (hs : s = l ++ m ++ r) (ha : a = blen l)
    (hb : b = blen l + blen m) : strGet s a b = some m := by
  subst hs ha hb; exact strGet_ok l m r

theorem segLoop_append (starts : List Nat) (i j a b : Nat) (xs ys : List (Str × Nat)) {u v : Str}
    (hx : segLoop starts i j a b xs = .ok u) (hy : segLoop starts i j a b ys = .ok v) :
    segLoop starts i j a b (xs ++ ys) = .ok (u ++ v) := by
  induction xs generalizing u with
  | nil => simp [segLoop] at hx; subst hx; simpa using hy
  | cons x xs ih =>
    obtain ⟨c, k⟩ := x
    simp only [List.cons_append, segLoop] at hx ⊢
    cases hs : segOf starts i j a b k c with
    | error e => rw [hs] at hx; simp at hx
    | ok seg =>
      rw [hs] at hx
      cases hm : segLoop starts i j a b xs with
      | error e => rw [hm] at hx; simp at hx
      | ok more =>
        rw [hm] at hx
        simp at hx; subst hx
        simp [ih hm]

theorem segLoop_mid (starts : List Nat) (i j a b : Nat) (mid : List Str) (k : Nat)
    (hi : i < k) (hj : k + mid.length ≤ j) (hs : k + mid.length ≤ starts.length) :
    segLoop starts i j a b (mid.zipIdx k) = .ok mid.flatten := by
  induction mid generalizing k with
  | nil => simp [segLoop]
  | cons c mid ih =>
    simp at hj hs
    simp only [List.zipIdx_cons, segLoop, segOf]
    rw [index_ok (by omega), ih (k + 1) (by omega) (by omega) (by omega)]
    have h1 : ¬ k = i := by omega
    have h2 : ¬ k = j := by omega
    simp only [run_bind_ok, run_pure, h1, h2, if_false]
    rw [strGet_ok' (l := []) (m := c) (r := []) (by simp) (by simp) (by simp)]
    simp

/-- Reading a boundary-aligned range inside the text. -/
theorem Table.WF.textIn_spec {t : Table} (h : t.WF) {l m r : Str} (ht : t.text = l ++ m ++ r) :
    textInChunks t.chunks t.starts t.len (blen l) (blen l + blen m) = .ok m := by
  have hlen := h.len_eq
  rw [ht] at hlen
  simp only [blen_append] at hlen
  unfold textInChunks
  by_cases hm : m = []
  · subst hm; simp
  have hmpos := blen_pos hm
  have hcond : (decide (blen l ≥ blen l + blen m) || decide (blen l ≥ t.len)) = false := by
    simp; omega
  rw [hcond]
  simp only [Bool.false_eq_true, if_false]
  rw [show min (blen l + blen m) t.len = blen l + blen m by omega]
  have hne : t.chunks ≠ [] := by
    intro he
    have := h.len_eq
    simp [Table.text, he] at this; omega
  obtain ⟨pre, c, post, he, hi, hs, hc, hle, hlt⟩ := h.locate_lt (x := blen l) (by omega)
  obtain ⟨pre', c', post', he', hi', hs', hc', hle', hpost'⟩ := h.locate hne (blen l + blen m)
  rw [hi, hi']
  have htext : t.text = pre.flatten ++ (c ++ post.flatten) := by simp [Table.text, he]
  have htext' : t.text = pre'.flatten ++ (c' ++ post'.flatten) := by simp [Table.text, he']
  have hstop' : blen l + blen m ≤ blen pre'.flatten + blen c' := by
    by_cases hp : post' = []
    · subst hp
      have h1 := congrArg blen htext'
      rw [ht] at h1
      simp at h1; omega
    · exact Nat.le_of_lt (hpost' hp)
  -- split off the part of `l` inside the first chunk
  obtain ⟨k, hk1, hk2⟩ := append_split_of_le (a := pre.flatten) (b := c ++ post.flatten)
    (c := l) (d := m ++ r) (by rw [← htext, ht, List.append_assoc]) hle
  by_cases hidx : pre.length = pre'.length
  · rw [if_pos hidx]
    have := List.append_inj (he.symm.trans he') hidx
    obtain ⟨rfl, h2⟩ := this
    simp at h2
    obtain ⟨rfl, rfl⟩ := h2
    have hk3 : c ++ post.flatten = (k ++ m) ++ r := by rw [hk2, List.append_assoc]
    obtain ⟨r', hr1, _⟩ := append_split_of_le hk3.symm
      (by
        have : blen l = blen pre.flatten + blen k := by rw [hk1]; simp
        simp; omega)
    rw [index_of_getElem? hs, index_of_getElem? hc]
    simp only [run_bind_ok]
    rw [checkedSub_ok hle, checkedSub_ok (by omega)]
    simp only [run_bind_ok, run_pure]
    rw [strGet_ok' (s := c) (l := k) (m := m) (r := r') hr1 (by rw [hk1]; simp)
      (by rw [hk1]; simp; omega)]
    rfl
  · rw [if_neg hidx]
    -- the end chunk lies strictly after the start chunk
    have hlt' : pre.length < pre'.length := by
      rcases Nat.lt_or_gt_of_ne hidx with h' | h'
      · exact h'
      · exfalso
        have heq := he'.symm.trans he
        rw [List.append_eq_append_iff] at heq
        rcases heq with ⟨q, hq1, hq2⟩ | ⟨q, hq1, hq2⟩
        · cases q with
          | nil => simp at hq1; subst hq1; omega
          | cons q0 q =>
            simp at hq2
            obtain ⟨rfl, hq3⟩ := hq2
            have : blen pre.flatten = blen pre'.flatten + blen c' + blen q.flatten := by
              rw [hq1]; simp [Nat.add_assoc]
            omega
        · have := congrArg List.length hq1
          simp at this; omega
    have heq := he.symm.trans he'
    rw [List.append_eq_append_iff] at heq
    obtain ⟨mid, hpre', hpost⟩ : ∃ mid, pre' = pre ++ c :: mid ∧ post = mid ++ c' :: post' := by
      rcases heq with ⟨q, hq1, hq2⟩ | ⟨q, hq1, hq2⟩
      · cases q with
        | nil => simp at hq1; subst hq1; omega
        | cons q0 q =>
          simp at hq2
          obtain ⟨rfl, hq3⟩ := hq2
          exact ⟨q, hq1, hq3⟩
      · have := congrArg List.length hq1
        simp at this; omega
    subst hpre' hpost
    have hlist : (t.chunks.zipIdx.drop pre.length).take
        ((pre ++ c :: mid).length - pre.length + 1) =
        [(c, pre.length)] ++ (mid.zipIdx (pre.length + 1) ++ [(c', (pre ++ c :: mid).length)]) := by
      rw [he', List.zipIdx_append, List.zipIdx_append, List.append_assoc,
        List.drop_append_of_le_length (by simp)]
      rw [show List.drop pre.length (pre.zipIdx) = [] by simp]
      simp only [List.nil_append, List.zipIdx_cons, List.cons_append]
      rw [show (pre ++ c :: mid).length - pre.length + 1 = (mid.length + 1) + 1 by simp]
      rw [List.take_succ_cons, List.take_append, List.take_of_length_le (by simp)]
      simp [List.length_zipIdx]
    rw [hlist]
    have hst : t.starts.length = t.chunks.length := by
      rw [h.starts, rebuildStarts, rebuildStartsFrom_length]
    have hlen2 : t.chunks.length = pre.length + 1 + mid.length + 1 + post'.length := by
      rw [he]; simp; omega
    -- first segment
    have hstop2 : blen (pre.flatten) + blen c + blen mid.flatten ≤ blen l + blen m := by
      have : blen (pre ++ c :: mid).flatten = blen pre.flatten + blen c + blen mid.flatten := by
        simp [Nat.add_assoc]
      omega
    have hk3 : k ++ (m ++ r) = c ++ (mid ++ c' :: post').flatten := hk2.symm
    have hbl : blen l = blen pre.flatten + blen k := by rw [hk1]; simp
    obtain ⟨m1, hc1, hm1⟩ := append_split_of_le hk3 (by omega)
    have hm1' : m1 ++ (mid.flatten ++ (c' ++ post'.flatten)) = m ++ r := by
      rw [hm1]; simp
    have hcl : blen c = blen k + blen m1 := by rw [hc1]; simp
    obtain ⟨m2, hc2, hm2⟩ := append_split_of_le hm1' (by omega)
    have hml : blen m = blen m1 + blen m2 := by rw [hc2]; simp
    obtain ⟨m3, hc3, hm3⟩ := append_split_of_le hm2 (by omega)
    have hml3 : blen m2 = blen mid.flatten + blen m3 := by rw [hc3]; simp
    have hpre'l : blen (pre ++ c :: mid).flatten = blen pre.flatten + blen c + blen mid.flatten := by
      simp [Nat.add_assoc]
    obtain ⟨r3, hc4, _⟩ := append_split_of_le hm3.symm (by omega)
    have e1 : segLoop t.starts pre.length (pre ++ c :: mid).length (blen l) (blen l + blen m)
        [(c, pre.length)] = .ok m1 := by
      simp only [segLoop, segOf, index_of_getElem? hs, run_bind_ok, run_pure]
      have h1 : ¬ pre.length = (pre ++ c :: mid).length := by simp
      simp only [if_true, h1, if_false]
      rw [strGet_ok' (l := k) (m := m1) (r := []) (by simp [hc1]) (by omega) (by omega)]
      simp
    have e2 : segLoop t.starts pre.length (pre ++ c :: mid).length (blen l) (blen l + blen m)
        (mid.zipIdx (pre.length + 1)) = .ok mid.flatten :=
      segLoop_mid _ _ _ _ _ _ _ (by omega) (by simp; omega) (by omega)
    have e3 : segLoop t.starts pre.length (pre ++ c :: mid).length (blen l) (blen l + blen m)
        [(c', (pre ++ c :: mid).length)] = .ok m3 := by
      simp only [segLoop, segOf, index_of_getElem? hs', run_bind_ok, run_pure]
      have h1 : ¬ (pre ++ c :: mid).length = pre.length := by simp
      simp only [if_true, h1, if_false]
      rw [strGet_ok' (l := []) (m := m3) (r := r3) (by simp [hc4]) (by simp)
        (by rw [blen_nil]; omega)]
      simp
    rw [segLoop_append _ _ _ _ _ _ _ e1 (segLoop_append _ _ _ _ _ _ _ e2 e3)]
    rw [hc2, hc3]

end Oaks
