import Verif.Proofs.Table

/-! `chunkify` and the constructors built on it. -/

namespace Oaks

theorem isBoundary_zero (s : Str) : isBoundary s 0 = true :=
  isBoundary_iff.mpr ⟨[], s, rfl, rfl⟩

theorem isBoundary_end (s : Str) : isBoundary s (blen s) = true :=
  isBoundary_iff.mpr ⟨s, [], by simp, rfl⟩

theorem isBoundary_append (l r : Str) : isBoundary (l ++ r) (blen l) = true :=
  isBoundary_iff.mpr ⟨l, r, rfl, rfl⟩

theorem isBoundary_le {s : Str} {n : Nat} (h : isBoundary s n = true) : n ≤ blen s := by
  obtain ⟨l, r, rfl, rfl⟩ := isBoundary_iff.mp h
  simp

theorem backoff_spec (text : Str) (start : Nat) (hb : isBoundary text start = true) (e : Nat)
    (he : start ≤ e) :
    start ≤ backoff text start e ∧ backoff text start e ≤ e ∧
      isBoundary text (backoff text start e) = true ∧
      ∀ b, isBoundary text b = true → b ≤ e → start ≤ b → b ≤ backoff text start e := by
  induction e with
  | zero =>
    obtain rfl : start = 0 := by omega
    simp [backoff, isBoundary_zero]
  | succ e ih =>
    unfold backoff
    by_cases hc : (decide (e + 1 > start) && !isBoundary text (e + 1)) = true
    · rw [if_pos hc]
      simp at hc
      obtain ⟨h1, h2, h3, h4⟩ := ih (by omega)
      refine ⟨h1, by omega, h3, ?_⟩
      intro b hbb hle hs
      by_cases hbe : b = e + 1
      · subst hbe; rw [hbb] at hc; simp at hc
      · exact h4 b hbb (by omega) hs
    · rw [if_neg hc]
      refine ⟨he, Nat.le_refl _, ?_, fun b _ hle _ => hle⟩
      simp at hc
      by_cases h : start < e + 1
      · exact hc h
      · obtain rfl : start = e + 1 := by omega
        exact hb

theorem chunkEndAt_spec {size : Nat} (text : Str) {start : Nat}
    (hb : isBoundary text start = true) (hlt : start < blen text) :
    start < chunkEndAt size text start ∧ chunkEndAt size text start ≤ blen text ∧
      isBoundary text (chunkEndAt size text start) = true := by
  unfold chunkEndAt
  obtain ⟨h1, h2, h3, _⟩ := backoff_spec text start hb (min (start + size) (blen text)) (by omega)
  simp only []
  split
  · exact ⟨hlt, Nat.le_refl _, isBoundary_end text⟩
  · exact ⟨by omega, by omega, h3⟩

theorem chunkEndAt_size {size : Nat} (hsz : 4 ≤ size) (text : Str) {start : Nat}
    (hb : isBoundary text start = true) (hlt : start < blen text) :
    chunkEndAt size text start ≤ start + size := by
  unfold chunkEndAt
  obtain ⟨h1, h2, h3, h4⟩ := backoff_spec text start hb (min (start + size) (blen text)) (by omega)
  simp only []
  split
  · rename_i heq
    exfalso
    obtain ⟨l, r, rfl, rfl⟩ := isBoundary_iff.mp hb
    cases r with
    | nil => simp at hlt
    | cons c r =>
      have hc := utf8Size_pos c
      have hc4 := utf8Size_le_four c
      have := h4 (blen (l ++ [c]))
        (by rw [show l ++ c :: r = (l ++ [c]) ++ r by simp]; exact isBoundary_append _ _)
        (by simp; omega) (by simp)
      rw [heq] at this
      simp at this; omega
  · omega

/-- A slice between two boundaries exists. -/
theorem strGet_of_boundaries {s : Str} {a b : Nat} (ha : isBoundary s a = true)
    (hb : isBoundary s b = true) (hab : a ≤ b) :
    ∃ l m r, s = l ++ m ++ r ∧ blen l = a ∧ blen l + blen m = b ∧ strGet s a b = some m := by
  obtain ⟨l, r, rfl, rfl⟩ := isBoundary_iff.mp ha
  obtain ⟨l2, r2, h2, rfl⟩ := isBoundary_iff.mp hb
  rw [List.append_eq_append_iff] at h2
  rcases h2 with ⟨m, rfl, rfl⟩ | ⟨m, rfl, rfl⟩
  · have h : l ++ (m ++ r2) = l ++ m ++ r2 := by simp
    exact ⟨l, m, r2, h, rfl, by simp, strGet_eq_some.mpr ⟨l, r2, h, rfl, by simp⟩⟩
  · simp at hab
    have hm : m = [] := blen_eq_zero.mp (by omega)
    subst hm
    have h : l2 ++ [] ++ r = (l2 ++ []) ++ [] ++ r := by simp
    exact ⟨l2 ++ [], [], r, h, rfl, by simp, strGet_eq_some.mpr ⟨l2 ++ [], r, h, rfl, by simp⟩⟩

theorem chunkifyLoop_spec (size : Nat) (text : Str) (fuel start : Nat) (l r : Str)
    (ht : text = l ++ r) (hl : blen l = start) (hf : blen text - start ≤ fuel) :
    ∃ cs, chunkifyLoop size text fuel start = .ok cs ∧ (∀ c ∈ cs, c ≠ []) ∧ cs.flatten = r ∧
      (4 ≤ size → ∀ c ∈ cs, blen c ≤ size) := by
  induction fuel generalizing start l r with
  | zero =>
    have : ¬ start < blen text := by omega
    have hr : r = [] := by
      subst ht; simp at this; exact blen_eq_zero.mp (by omega)
    exact ⟨[], by unfold chunkifyLoop; simp [this], by simp, by simp [hr], by simp⟩
  | succ fuel ih =>
    by_cases hlt : start < blen text
    · have hb : isBoundary text start = true := isBoundary_iff.mpr ⟨l, r, ht, hl⟩
      obtain ⟨h1, h2, h3⟩ := chunkEndAt_spec (size := size) text hb hlt
      obtain ⟨l', m, r', he, hl', hm, hg⟩ := strGet_of_boundaries hb h3 (by omega)
      have : l = l' ∧ r = m ++ r' :=
        append_inj_blen (by rw [← ht, he, List.append_assoc]) (by omega)
      obtain ⟨rfl, rfl⟩ := this
      obtain ⟨cs, hcs, hne, hfl, hsz⟩ := ih (chunkEndAt size text start) (l ++ m) r'
        (by rw [he]) (by simp; omega) (by omega)
      refine ⟨m :: cs, ?_, ?_, by simp [hfl], ?_⟩
      · unfold chunkifyLoop
        simp [hlt, hg, hcs]
      · intro c hc
        rw [List.mem_cons] at hc
        rcases hc with rfl | hc
        · rintro rfl; simp at hm; omega
        · exact hne c hc
      · intro h4 c hc
        rw [List.mem_cons] at hc
        rcases hc with rfl | hc
        · have := chunkEndAt_size h4 text hb hlt; omega
        · exact hsz h4 c hc
    · have hr : r = [] := by
        subst ht; simp at hlt; exact blen_eq_zero.mp (by omega)
      exact ⟨[], by unfold chunkifyLoop; simp [hlt], by simp, by simp [hr], by simp⟩

/-- `chunkify` never panics, produces non-empty chunks of at most `CHUNK_SIZE` bytes that
concatenate to the text. -/
theorem chunkify_spec (text : Str) :
    ∃ cs, chunkify text = .ok cs ∧ (∀ c ∈ cs, c ≠ []) ∧ cs.flatten = text ∧
      ∀ c ∈ cs, blen c ≤ CHUNK_SIZE := by
  unfold chunkify
  by_cases h : text = []
  · exact ⟨[], by simp [h], by simp, by simp [h], by simp⟩
  · rw [if_neg h]
    obtain ⟨cs, h1, h2, h3, h4⟩ :=
      chunkifyLoop_spec CHUNK_SIZE text (blen text) 0 [] text rfl rfl (by omega)
    exact ⟨cs, h1, h2, h3, h4 (by decide)⟩

theorem ropeNew_spec (text : Str) : ∃ t, ropeNew text = .ok t ∧ t.WF ∧ t.text = text := by
  obtain ⟨cs, h1, h2, h3, _⟩ := chunkify_spec text
  exact ⟨Table.ofChunks cs, by simp [ropeNew, h1], Table.WF.ofChunks h2, by simpa using h3⟩

theorem rebuildStartsFrom_snoc (o : Nat) (cs : List Str) (c : Str) :
    rebuildStartsFrom o (cs ++ [c]) =
      ((rebuildStartsFrom o cs).1 ++ [(rebuildStartsFrom o cs).2],
        (rebuildStartsFrom o cs).2 + blen c) := by
  induction cs generalizing o with
  | nil => simp [rebuildStartsFrom]
  | cons d cs ih => simp [rebuildStartsFrom, ih]

theorem chunkedPushAll_spec (t : Table) (h : t.WF) (cs : List Str) (hne : ∀ c ∈ cs, c ≠ []) :
    (chunkedPushAll t cs).WF ∧ (chunkedPushAll t cs).chunks = t.chunks ++ cs := by
  induction cs generalizing t with
  | nil => simp [chunkedPushAll, h]
  | cons c cs ih =>
    have hwf : Table.WF ⟨t.chunks ++ [c], t.starts ++ [t.len], t.len + blen c⟩ := by
      refine ⟨?_, ?_, ?_⟩
      · intro d hd
        simp at hd
        rcases hd with hd | rfl
        · exact h.nonempty d hd
        · exact hne d (by simp)
      · simp [rebuildStarts, rebuildStartsFrom_snoc, h.starts, h.len]
      · simp [rebuildStarts, rebuildStartsFrom_snoc, h.len]
    obtain ⟨h1, h2⟩ := ih _ hwf (fun d hd => hne d (by simp [hd]))
    exact ⟨h1, by simp [chunkedPushAll, h2]⟩

theorem chunkedNew_WF : chunkedNew.WF := ⟨by simp [chunkedNew], rfl, rfl⟩

theorem chunkedPush_spec {t : Table} (h : t.WF) (text : Str) :
    ∃ t', chunkedPush t text = .ok t' ∧ t'.WF ∧ t'.text = t.text ++ text := by
  unfold chunkedPush
  by_cases ht : text = []
  · exact ⟨t, by simp [ht], h, by simp [ht]⟩
  · obtain ⟨cs, h1, h2, h3, _⟩ := chunkify_spec text
    obtain ⟨g1, g2⟩ := chunkedPushAll_spec t h cs h2
    exact ⟨_, by simp [ht, h1], g1, by simp [Table.text, g2, h3]⟩

end Oaks
