import Verif.Proofs.TextIn

/-! Rope editing refines string splicing. -/

namespace Oaks

/-- The table has a chunk boundary at byte `x`. -/
def Table.HasCut (t : Table) (x : Nat) : Prop :=
  ∃ pre post, t.chunks = pre ++ post ∧ blen pre.flatten = x

theorem insert_set (pre : List Str) (c : Str) (post : List Str) (l r : Str) :
    (((pre ++ c :: post).set pre.length l).insertIdx (pre.length + 1) r) =
      pre ++ l :: r :: post := by
  induction pre with
  | nil => simp
  | cons a pre ih => simpa using ih

theorem Table.WF.splitAt_spec {t : Table} (h : t.WF) {x : Nat} (hb : isBoundary t.text x = true) :
    ∃ t', t.splitAt x = .ok t' ∧ t'.WF ∧ t'.text = t.text ∧ t'.HasCut x ∧
      ∀ y, t.HasCut y → t'.HasCut y := by
  unfold Table.splitAt
  by_cases h0 : x = 0
  · exact ⟨t, by simp [h0], h, rfl, ⟨[], t.chunks, by simp, by simp [h0]⟩, fun _ h => h⟩
  by_cases hl : x ≥ t.len
  · refine ⟨t, by simp [hl], h, rfl, ⟨t.chunks, [], by simp, ?_⟩, fun _ h => h⟩
    have := isBoundary_le hb
    have h2 := h.len_eq
    have : blen t.chunks.flatten = blen t.text := rfl
    omega
  obtain ⟨pre, c, post, he, hci, hle, hlt⟩ := h.chunkIndex_spec (Nat.not_le.mp hl)
  simp only [h0, hl, decide_false, Bool.or_self, Bool.false_eq_true, if_false, hci, run_bind_ok]
  rw [checkedSub_ok hle, index_of_getElem? (show t.chunks[pre.length]? = some c by simp [he])]
  simp only [run_bind_ok, run_pure]
  by_cases hrel : x - blen pre.flatten = 0
  · refine ⟨t, by simp [hrel], h, rfl, ⟨pre, c :: post, he, by omega⟩, fun _ h => h⟩
  have hnge : ¬ (x - blen pre.flatten ≥ blen c) := by omega
  simp only [hrel, hnge, decide_false, Bool.or_self, Bool.false_eq_true, if_false]
  -- the boundary falls inside `c`
  obtain ⟨L, R, hLR, hL⟩ := isBoundary_iff.mp hb
  have htext : pre.flatten ++ (c ++ post.flatten) = L ++ R := by
    rw [← hLR]; simp [Table.text, he]
  obtain ⟨cl, hcl, hcr⟩ := append_split_of_le htext (by omega)
  have hbl : blen L = blen pre.flatten + blen cl := by rw [hcl]; simp
  obtain ⟨cr, hc, hR⟩ := append_split_of_le hcr.symm (by omega)
  have hxl : x - blen pre.flatten = blen cl := by omega
  rw [hxl]
  have g1 : strGet c 0 (blen cl) = some cl :=
    strGet_ok' (l := []) (r := cr) (by simp [hc]) (by simp) (by simp)
  have g2 : strFrom c (blen cl) = some cr := strFrom_eq_some.mpr ⟨cl, hc, rfl⟩
  have hclne : cl ≠ [] := by rintro rfl; simp at hxl; omega
  have hcrne : cr ≠ [] := by
    rintro rfl
    have : blen c = blen cl := by rw [hc]; simp
    omega
  simp only [g1, g2, hclne, hcrne, decide_false, Bool.or_self, Bool.false_eq_true, if_false]
  rw [he, insert_set]
  refine ⟨_, rfl, Table.WF.ofChunks ?_, ?_, ⟨pre ++ [cl], cr :: post, by simp [Table.ofChunks], ?_⟩, ?_⟩
  · intro d hd
    have hn := h.nonempty
    rw [he] at hn
    simp at hd
    rcases hd with hd | rfl | rfl | hd
    · exact hn d (by simp [hd])
    · exact hclne
    · exact hcrne
    · exact hn d (by simp [hd])
  · simp [Table.text, Table.ofChunks, he, hc]
  · simp; omega
  · rintro y ⟨p, q, hpq, rfl⟩
    have heq := he.symm.trans hpq
    rw [List.append_eq_append_iff] at heq
    rcases heq with ⟨k, hk1, hk2⟩ | ⟨k, hk1, hk2⟩
    · cases k with
      | nil =>
        simp at hk1; subst hk1
        exact ⟨p, cl :: cr :: post, by simp [Table.ofChunks], rfl⟩
      | cons k0 k =>
        simp at hk2
        obtain ⟨rfl, rfl⟩ := hk2
        refine ⟨pre ++ cl :: cr :: k, q, by simp [Table.ofChunks], ?_⟩
        rw [hk1, hc]; simp
    · exact ⟨p, k ++ cl :: cr :: post, by simp [Table.ofChunks, hk1], rfl⟩

theorem flatten_eq_nil_of_ne {cs : List Str} (h : ∀ c ∈ cs, c ≠ []) (hb : blen cs.flatten = 0) :
    cs = [] := by
  cases cs with
  | nil => rfl
  | cons c cs =>
    have := blen_pos (h c (by simp))
    simp at hb; omega

theorem Table.WF.boundaryIndex_spec {t : Table} (h : t.WF) {pre post : List Str}
    (he : t.chunks = pre ++ post) : t.boundaryIndex (blen pre.flatten) = pre.length := by
  unfold Table.boundaryIndex
  have hl := h.len_eq
  have ht : t.text = pre.flatten ++ post.flatten := by simp [Table.text, he]
  by_cases hge : blen pre.flatten ≥ t.len
  · rw [if_pos hge]
    have : post = [] := by
      apply flatten_eq_nil_of_ne
      · intro c hc; exact h.nonempty c (by simp [he, hc])
      · rw [ht] at hl; simp at hl; omega
    simp [he, this]
  · rw [if_neg hge]
    have hp : post ≠ [] := by
      rintro rfl
      rw [ht] at hl; simp at hl; omega
    rw [bsearch_found h.sorted (h.get_start he hp)]

theorem Table.WF.replaceRange_spec {t : Table} (h : t.WF) {l m r : Str} (rep : Str)
    (ht : t.text = l ++ m ++ r) :
    ∃ t', t.replaceRange (blen l) (blen l + blen m) rep = .ok t' ∧ t'.WF ∧
      t'.text = l ++ rep ++ r := by
  have hlen := h.len_eq
  rw [ht] at hlen; simp only [blen_append] at hlen
  unfold Table.replaceRange
  simp only []
  rw [show min (blen l) t.len = blen l by omega,
    show max (min (blen l + blen m) t.len) (blen l) = blen l + blen m by omega]
  obtain ⟨t1, h1, wf1, tx1, cut1, _⟩ := h.splitAt_spec (x := blen l)
    (by rw [ht, List.append_assoc]; exact isBoundary_append _ _)
  obtain ⟨t2, h2, wf2, tx2, cut2, keep⟩ := wf1.splitAt_spec (x := blen l + blen m)
    (by rw [tx1, ht, ← blen_append]; exact isBoundary_append _ _)
  obtain ⟨p1, q1, he1, hb1⟩ := keep _ cut1
  obtain ⟨p2, q2, he2, hb2⟩ := cut2
  have bi1 : t2.boundaryIndex (blen l) = p1.length := by
    rw [← hb1]; exact wf2.boundaryIndex_spec he1
  have bi2 : t2.boundaryIndex (blen l + blen m) = p2.length := by
    rw [← hb2]; exact wf2.boundaryIndex_spec he2
  simp only [h1, h2, run_bind_ok, bi1, bi2]
  have htx : t2.text = l ++ m ++ r := by rw [tx2, tx1, ht]
  have hp1 : p1.flatten = l ∧ q1.flatten = m ++ r :=
    append_inj_blen (by rw [← List.flatten_append, ← he1, ← List.append_assoc]; exact htx) hb1
  have hp2 : p2.flatten = l ++ m ∧ q2.flatten = r :=
    append_inj_blen (by rw [← List.flatten_append, ← he2]; exact htx) (by simpa using hb2)
  have hle : p1.length ≤ p2.length := by
    rcases Nat.lt_or_ge p2.length p1.length with hlt | hge
    · exfalso
      have heq := he2.symm.trans he1
      rw [List.append_eq_append_iff] at heq
      rcases heq with ⟨k, hk1, hk2⟩ | ⟨k, hk1, hk2⟩
      · have hk : blen k.flatten = 0 := by
          have := hb1; rw [hk1] at this; simp at this; omega
        have : k = [] := flatten_eq_nil_of_ne
          (fun c hc => wf2.nonempty c (by rw [he1, hk1]; simp [hc])) hk
        subst this; simp at hk1; subst hk1; omega
      · have := congrArg List.length hk1; simp at this; omega
    · exact hge
  have hchunks : (if p1.length < p2.length then
      t2.chunks.take p1.length ++ t2.chunks.drop p2.length else t2.chunks) = p1 ++ q2 := by
    split
    · have e1 : t2.chunks.take p1.length = p1 := by simp [he1]
      have e2 : t2.chunks.drop p2.length = q2 := by simp [he2]
      rw [e1, e2]
    · have hl : p1.length = p2.length := by omega
      obtain ⟨rfl, rfl⟩ := List.append_inj (he1.symm.trans he2) hl
      exact he1
  rw [hchunks]
  have hne : ∀ c ∈ p1 ++ q2, c ≠ [] := by
    intro c hc
    simp at hc
    rcases hc with hc | hc
    · exact wf2.nonempty c (by rw [he1]; simp [hc])
    · exact wf2.nonempty c (by rw [he2]; simp [hc])
  by_cases hrep : rep = []
  · subst hrep
    simp only [ne_eq, not_true_eq_false, if_false, run_pure, run_bind_ok]
    exact ⟨_, rfl, Table.WF.ofChunks hne, by simp [hp1.1, hp2.2]⟩
  · obtain ⟨cs, hc1, hc2, hc3, _⟩ := chunkify_spec rep
    simp only [ne_eq, hrep, not_false_eq_true, if_true, hc1, run_bind_ok, run_pure]
    refine ⟨_, rfl, Table.WF.ofChunks ?_, ?_⟩
    · intro c hc
      simp at hc
      rcases hc with hc | hc | hc
      · exact hne c (by simp [hc])
      · exact hc2 c hc
      · exact hne c (by simp [hc])
    · simp [hp1.1, hp2.2, hc3]

end Oaks
