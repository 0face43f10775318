import Verif.Proofs.Cursor
import Verif.Spec.Search

namespace Oaks
open Spec

theorem isPrefixOf_iff {p s : Str} : p.isPrefixOf s = true ↔ ∃ r, s = p ++ r := by
  rw [List.isPrefixOf_iff_prefix]
  constructor
  · rintro ⟨r, h⟩; exact ⟨r, h.symm⟩
  · rintro ⟨r, h⟩; exact ⟨r, h.symm⟩

theorem isPrefixOf_append_of_le {p s x : Str} (h : blen p ≤ blen s) :
    p.isPrefixOf (s ++ x) = p.isPrefixOf s := by
  rw [Bool.eq_iff_iff, isPrefixOf_iff, isPrefixOf_iff]
  constructor
  · rintro ⟨r, hr⟩
    obtain ⟨k, hk, _⟩ := append_split_of_le hr.symm h
    exact ⟨k, hk⟩
  · rintro ⟨r, rfl⟩; exact ⟨r ++ x, by simp⟩

theorem occursAt_cons_zero {p : Str} {c : Char} {s : Str} :
    OccursAt (c :: s) p 0 ↔ p.isPrefixOf (c :: s) = true := by
  rw [isPrefixOf_iff]
  constructor
  · rintro ⟨l, r, h1, h2, _⟩
    rw [blen_eq_zero.mp h2] at h1
    exact ⟨r, by simpa using h1⟩
  · rintro ⟨r, h⟩; exact ⟨[], r, by simp [h], rfl, rfl⟩

theorem occursAt_append {a s b p : Str} {i : Nat} (h : OccursAt s p i) :
    OccursAt (a ++ s ++ b) p (blen a + i) := by
  obtain ⟨l, r, rfl, rfl, _⟩ := h
  exact ⟨a ++ l, r ++ b, by simp, by simp, by simp [Nat.add_assoc]⟩

/-- An occurrence inside a window is an occurrence of the window. -/
theorem occursAt_window {a s b p : Str} {j : Nat} (h : OccursAt (a ++ s ++ b) p j)
    (h1 : blen a ≤ j) (h2 : j + blen p ≤ blen a + blen s) : OccursAt s p (j - blen a) := by
  obtain ⟨l, r, he, hl, _⟩ := h
  rw [List.append_assoc, List.append_assoc] at he
  obtain ⟨k, hk, hk2⟩ := append_split_of_le he (by omega)
  have hbl : blen l = blen a + blen k := by rw [hk]; simp
  rw [← List.append_assoc] at hk2
  obtain ⟨m, hm, hm2⟩ := append_split_of_le hk2.symm (by simp; omega)
  exact ⟨k, m, hm, by omega, by omega⟩

theorem occursAt_succ {p : Str} {c : Char} {s : Str} {j : Nat} :
    OccursAt s p j ↔ OccursAt (c :: s) p (c.utf8Size + j) := by
  constructor
  · intro h
    have := occursAt_append (a := [c]) (b := []) h
    simpa using this
  · intro h
    have h' : OccursAt ([c] ++ s ++ []) p (c.utf8Size + j) := by simpa using h
    obtain ⟨l, r, hlr, hl, _⟩ := h
    have hb := congrArg blen hlr
    simp at hb
    have := occursAt_window h' (by simp) (by simp; omega)
    simpa using this

/-- An occurrence in `c :: s` is at the front or inside `s`. -/
theorem occursAt_cons {p : Str} {c : Char} {s : Str} {j : Nat} (h : OccursAt (c :: s) p j) :
    j = 0 ∨ ∃ k, j = c.utf8Size + k ∧ OccursAt s p k := by
  obtain ⟨l, r, he, hl, _⟩ := h
  cases l with
  | nil => left; simpa using hl.symm
  | cons d l =>
    right
    simp at he hl
    obtain ⟨rfl, he⟩ := he
    exact ⟨blen l, hl.symm, l, r, by simp [he], rfl, rfl⟩

theorem findSub_spec (p s : Str) : FirstFrom s 0 p (findSub p s) := by
  induction s with
  | nil =>
    unfold findSub
    split
    · rename_i h; subst h
      exact ⟨Nat.le_refl _, ⟨[], [], rfl, rfl, rfl⟩, by omega⟩
    · rename_i h
      rintro j _ ⟨l, r, hh, _, _⟩
      simp at hh; exact h hh.2.1
  | cons c s ih =>
    unfold findSub
    by_cases hp : p.isPrefixOf (c :: s) = true
    · rw [if_pos hp]
      exact ⟨Nat.le_refl _, occursAt_cons_zero.mpr hp, by omega⟩
    · rw [if_neg hp]
      have h0 : ¬ OccursAt (c :: s) p 0 := mt occursAt_cons_zero.mp hp
      cases hf : findSub p s with
      | none =>
        rw [hf] at ih
        intro j _ hj
        rcases occursAt_cons hj with rfl | ⟨k, _, hk⟩
        · exact h0 hj
        · exact ih k (Nat.zero_le _) hk
      | some n =>
        rw [hf] at ih
        refine ⟨Nat.zero_le _, occursAt_succ.mp ih.2.1, ?_⟩
        intro j _ hlt hj
        rcases occursAt_cons hj with rfl | ⟨k, rfl, hk⟩
        · exact h0 hj
        · exact ih.2.2 k (Nat.zero_le _) (by omega) hk

/-- The right answer is unique. -/
theorem firstFrom_unique {t : Str} {o : Nat} {p : Str} {x y : Option Nat}
    (hx : FirstFrom t o p x) (hy : FirstFrom t o p y) : x = y := by
  cases x with
  | none =>
    cases y with
    | none => rfl
    | some j => exact absurd hy.2.1 (hx j hy.1)
  | some i =>
    cases y with
    | none => exact absurd hx.2.1 (hy i hx.1)
    | some j =>
      have h1 : ¬ i < j := fun h => hy.2.2 i hx.1 h hx.2.1
      have h2 : ¬ j < i := fun h => hx.2.2 j hy.1 h hy.2.1
      congr 1; omega

theorem findCh_eq_findSub (ch : Char) (s : Str) : findCh ch s = findSub [ch] s := by
  induction s with
  | nil => simp [findCh, findSub]
  | cons c s ih =>
    simp only [findCh, findSub, ih]
    by_cases h : c = ch
    · subst h; simp [List.isPrefixOf]
    · have h' : (ch == c) = false := by simpa using fun e => h e.symm
      simp [h, List.isPrefixOf, h']

/-- Answers in the rest of the text are answers in the text. -/
theorem firstFrom_shift {l r p : Str} {x : Option Nat} (h : FirstFrom r 0 p x) :
    FirstFrom (l ++ r) (blen l) p (x.map (blen l + ·)) := by
  have back : ∀ j, blen l ≤ j → OccursAt (l ++ r) p j → OccursAt r p (j - blen l) := by
    intro j hj ho
    have ho' : OccursAt (l ++ r ++ []) p j := by simpa using ho
    obtain ⟨a, b, hab, ha, hb⟩ := ho
    have hl := congrArg blen hab
    simp at hl
    exact occursAt_window ho' hj (by omega)
  cases x with
  | none => intro j hj ho; exact h _ (Nat.zero_le _) (back j hj ho)
  | some i =>
    refine ⟨by simp, ?_, ?_⟩
    · have := occursAt_append (a := l) (b := []) h.2.1
      simpa using this
    · intro j hj hlt ho
      simp at hlt
      exact h.2.2 _ (Nat.zero_le _) (by omega) (back j hj ho)

theorem blen_ascii {s : Str} (h : ∀ c ∈ s, c.utf8Size = 1) : blen s = s.length := by
  induction s with
  | nil => rfl
  | cons c s ih =>
    have := h c (by simp)
    have := ih (fun d hd => h d (by simp [hd]))
    simp; omega

/-- Next chunk after the current one. -/
theorem next_chunk {src : Source} {t : Str} (hs : Lawful src t) {l m r' : Str} {c : Chunk}
    (ht : t = l ++ m ++ r') (hr' : r' ≠ []) (hc : src.chunkAt (blen (l ++ m)) = .ok c)
    (hstart : c.start = blen (l ++ m)) :
    ∃ r'', r' = c.text ++ r'' ∧ c.text ≠ [] := by
  have hpos := blen_pos hr'
  obtain ⟨c', h1, h2, h3, h4⟩ := hs.chunk (blen (l ++ m)) (by rw [ht]; simp; omega)
    ⟨l ++ m, r', by rw [ht], rfl⟩
  rw [hc] at h1; cases h1
  obtain ⟨cl, cr, hct, hcs, _⟩ := h2
  rw [ht] at hct
  have := append_inj_blen (a := l ++ m) (b := r') (c := cl) (d := c.text ++ cr)
    (by rw [hct, List.append_assoc]) (by omega)
  refine ⟨cr, this.2, ?_⟩
  intro h0
  unfold Chunk.stop at h4
  rw [h0] at h4
  simp at h4 hstart; omega

/-- What a chunk promises about its successor. -/
def Linked (src : Source) (t : Str) (n : Nat) (c : Chunk) : Prop :=
  c.stop < blen t → ∃ c', src.chunkAt c.stop = .ok c' ∧ c'.start = c.stop ∧
    (n ≤ blen c'.text ∨ c'.stop = blen t) ∧ (n ≤ c.stop → Boundary t (c.stop - n))

theorem linked_of {src : Source} {t : Str} {n : Nat} (hs : Lawful src t) (h1 : Contiguous src t)
    (h2 : LongChunks src t n) (h3 : CutsAligned src t n) {o : Nat} {c : Chunk} (hb : Boundary t o) (hc : src.chunkAt o = .ok c) :
    Linked src t n c := by
  intro hlt
  by_cases ho : o < blen t
  · obtain ⟨c', g1, g2⟩ := h1 o c ho hb hc hlt
    exact ⟨c', g1, g2, h2 o c c' ho hb hc hlt g1, h3 o c ho hb hc hlt⟩
  · rw [hs.past o (by omega)] at hc
    cases hc
    simp [Chunk.stop] at hlt

theorem supply_linked {src : Source} {t : Str} {n : Nat} (hs : Lawful src t) (h1 : Contiguous src t)
    (h2 : LongChunks src t n) (h3 : CutsAligned src t n) : Supply src t (Linked src t n) :=
  ⟨hs, fun _ _ hb hc => linked_of hs h1 h2 h3 hb hc⟩

theorem longChunks_zero (src : Source) (t : Str) : LongChunks src t 0 :=
  fun _ _ _ _ _ _ _ _ => Or.inl (Nat.zero_le _)

theorem cutsAligned_zero {src : Source} {t : Str} (hs : Lawful src t) : CutsAligned src t 0 := by
  intro o c ho hb hc _ _
  obtain ⟨c', h1, ⟨l, r, h2, h3, h4⟩, _⟩ := hs.chunk o ho hb
  rw [hc] at h1; cases h1
  exact ⟨l ++ c.text, r, h2, by simp; omega⟩

/-! ### starts_with -/

theorem gather_spec {src : Source} {t : Str} {n : Nat} (hs : Supply src t (Linked src t n)) (need : Nat)
    (fuel : Nat) {l scratch r2 : Str} (ht : t = l ++ scratch ++ r2)
    (hnext : r2 ≠ [] → ∃ c, src.chunkAt (blen (l ++ scratch)) = .ok c ∧ c.start = blen (l ++ scratch))
    (hf : blen r2 ≤ fuel) :
    ∃ s' r3, Cur.gather src need fuel scratch (blen (l ++ scratch)) = .ok s' ∧
      scratch ++ r2 = s' ++ r3 ∧ (need ≤ blen s' ∨ r3 = []) := by
  induction fuel generalizing scratch r2 with
  | zero =>
    have hr2 : r2 = [] := blen_eq_zero.mp (by omega)
    subst hr2
    refine ⟨scratch, [], ?_, by simp, Or.inr rfl⟩
    unfold Cur.gather
    rw [if_neg (by rw [hs.length_eq, ht]; simp)]; rfl
  | succ fuel ih =>
    unfold Cur.gather
    by_cases hcond : (decide (blen scratch < need) && decide (blen (l ++ scratch) < src.length)) = true
    · rw [if_pos hcond]
      simp at hcond
      have hr2 : r2 ≠ [] := by
        rintro rfl
        rw [hs.length_eq, ht] at hcond
        simp at hcond
      obtain ⟨c, hc1, hc2⟩ := hnext hr2
      obtain ⟨r3, hr3, hne⟩ := next_chunk hs.toLawful ht hr2 hc1 hc2
      have hstop : c.stop = blen (l ++ (scratch ++ c.text)) := by
        unfold Chunk.stop; rw [hc2]; simp; omega
      have hbr := congrArg blen hr3
      simp at hbr
      have hpos := blen_pos hne
      have hpos2 := blen_pos hr2
      have hbt : blen t = blen (l ++ scratch) + blen r2 := by rw [ht]; simp; omega
      obtain ⟨s', r4, g1, g2, g3⟩ := ih (scratch := scratch ++ c.text) (r2 := r3)
        (by rw [ht, hr3]; simp)
        (by
          intro hr3ne
          have := blen_pos hr3ne
          obtain ⟨c', k1, k2, _⟩ := hs.good _ c ⟨l ++ scratch, r2, ht, rfl⟩ hc1
            (by rw [hstop, hbt]; simp [hbr]; omega)
          rw [hstop] at k1 k2
          exact ⟨c', k1, k2⟩) (by omega)
      refine ⟨s', r4, ?_, ?_, g3⟩
      · simp only [hc1, run_bind_ok, hstop]; exact g1
      · rw [← g2, hr3]; simp
    · rw [if_neg hcond]
      refine ⟨scratch, r2, rfl, rfl, ?_⟩
      simp at hcond
      by_cases hn : need ≤ blen scratch
      · exact Or.inl hn
      · right
        have := hcond (by omega)
        rw [hs.length_eq, ht] at this
        simp at this
        exact blen_eq_zero.mp (by omega)

theorem startsWith_spec {src : Source} {t : Str} {n : Nat} (hs : Supply src t (Linked src t n))
    (fuel : Nat) {l r : Str} {cur : Cur} (h : CurAt (Linked src t n) t l r cur)
    (hf : blen r ≤ fuel) (p : Str) :
    ∃ cur', cur.startsWith src fuel p = .ok (cur', p.isPrefixOf r) ∧
      CurAt (Linked src t n) t l r cur' := by
  obtain ⟨cur1, k, m, r', he, hin⟩ := ensureChunk_spec hs h
  have hl1 := hin.good
  have hoff : cur1.offset - cur1.chunk.start = blen k := by
    have := hin.pos; have := hin.offset; omega
  unfold Cur.startsWith
  simp only [he, run_bind_ok, hoff]
  rw [hin.split, if_pos (isBoundary_append k m), strFrom_append]
  simp only [Option.getD_some]
  by_cases hle : blen m ≥ blen p
  · rw [if_pos hle]
    exact ⟨cur1, by rw [hin.rest, isPrefixOf_append_of_le hle]; rfl, hin.toCurAt⟩
  · rw [if_neg hle]
    have hbr := congrArg blen hin.rest
    simp at hbr
    obtain ⟨s', r3, g1, g2, g3⟩ := gather_spec hs (blen p) fuel (l := l) (scratch := m) (r2 := r')
      (by rw [hin.text, hin.rest]; simp)
      (by
        intro hne
        have := blen_pos hne
        obtain ⟨c', k1, k2, _⟩ := hl1 (by rw [hin.stop, hin.text, hin.rest]; simp; omega)
        rw [hin.stop] at k1 k2
        exact ⟨c', k1, k2⟩) (by omega)
    rw [hin.stop, g1]
    refine ⟨cur1, ?_, hin.toCurAt⟩
    rw [hin.rest, g2]
    rcases g3 with g3 | g3
    · rw [isPrefixOf_append_of_le g3]; rfl
    · rw [g3]; simp

theorem consume_spec {src : Source} {t : Str} {n : Nat} (hs : Supply src t (Linked src t n))
    (fuel : Nat) {l r : Str} {cur : Cur} (h : CurAt (Linked src t n) t l r cur)
    (hf : blen r ≤ fuel) (p : Str) :
    (∃ r', r = p ++ r' ∧ ∃ cur', cur.consumeIfStartsWith src fuel p = .ok (cur', true) ∧
      CurAt (Linked src t n) t (l ++ p) r' cur') ∨
    ((¬ ∃ r', r = p ++ r') ∧ ∃ cur', cur.consumeIfStartsWith src fuel p = .ok (cur', false) ∧
      CurAt (Linked src t n) t l r cur') := by
  obtain ⟨cur1, h1, h2⟩ := startsWith_spec hs fuel h hf p
  by_cases hp : p.isPrefixOf r = true
  · left
    obtain ⟨r', rfl⟩ := isPrefixOf_iff.mp hp
    refine ⟨r', rfl, _, ?_, advanceBytes_spec hs h2⟩
    simp [Cur.consumeIfStartsWith, h1, hp]
  · right
    refine ⟨fun he => hp (isPrefixOf_iff.mpr he), cur1, ?_, h2⟩
    simp [Cur.consumeIfStartsWith, h1, hp]

/-! ### find_str -/

theorem getD_tail (text : Str) (keep : Nat) :
    ∃ a tail, (strFrom text (blen text - keep)).getD [] = tail ∧ text = a ++ tail ∧ blen tail ≤ keep := by
  cases h : strFrom text (blen text - keep) with
  | none => exact ⟨text, [], rfl, by simp, by simp⟩
  | some m =>
    obtain ⟨a, h1, h2⟩ := strFrom_eq_some.mp h
    refine ⟨a, m, rfl, h1, ?_⟩
    have := congrArg blen h1
    simp at this; omega

/-- Whatever the chunking, a reported position is a real occurrence at or after the start. -/
theorem findStrLoop_sound {src : Source} {t p : Str} {n : Nat} (hs : Supply src t (Linked src t n))
    (fuel : Nat) {l r : Str} {cur : Cur}
    (h : CurAt (Linked src t n) t l r { cur with offset := blen l }) (hf : blen r ≤ fuel) :
    ∃ res, Cur.findStrLoop src p fuel cur (blen l) = .ok res ∧
      ∀ i, res = some i → blen l ≤ i ∧ OccursAt t p i := by
  induction fuel generalizing l r cur with
  | zero =>
    have : r = [] := blen_eq_zero.mp (by omega)
    subst this
    refine ⟨none, ?_, by simp⟩
    unfold Cur.findStrLoop
    rw [if_neg (by rw [hs.length_eq, h.text]; simp)]; rfl
  | succ fuel ih =>
    unfold Cur.findStrLoop
    by_cases hlt : blen l < src.length
    · rw [if_pos hlt]
      obtain ⟨cur1, k, m, r', he, hin⟩ := ensureChunk_spec hs h
      have hl1 := hin.good
      simp only [he, run_bind_ok, hin.sliceFrom]
      have htm : t = l ++ m ++ r' := by rw [hin.text, hin.rest]; simp
      cases hfs : findSub p m with
      | some pos =>
        refine ⟨_, rfl, ?_⟩
        intro i hi
        cases hi
        have := findSub_spec p m
        rw [hfs] at this
        refine ⟨by omega, ?_⟩
        rw [htm]; exact occursAt_append this.2.1
      | none =>
        simp only [hin.stop]
        by_cases hend : blen (l ++ m) ≥ src.length
        · rw [if_pos hend]; exact ⟨none, rfl, by simp⟩
        · rw [if_neg hend]
          have hr' : r' ≠ [] := by
            rintro rfl; rw [hs.length_eq, htm] at hend; simp at hend
          have hrne : r ≠ [] := by rw [hin.rest]; simp [hr']
          have hmpos := blen_pos (hin.nonempty hrne)
          have hbr := congrArg blen hin.rest
          simp at hbr
          obtain ⟨res, g1, g2⟩ := ih (l := l ++ m) (r := r') (cur := cur1)
            ⟨by rw [htm], rfl, hin.chunk, hin.good⟩ (by omega)
          have g3 : ∀ i, res = some i → blen l ≤ i ∧ OccursAt t p i := by
            intro i hi
            have := g2 i hi
            simp at this
            exact ⟨by omega, this.2⟩
          by_cases hp1 : blen p > 1
          · rw [if_pos hp1]
            obtain ⟨c', k1, k2, _⟩ := hl1 (by rw [hin.stop]; have := hs.length_eq; omega)
            rw [hin.stop] at k1 k2
            obtain ⟨r'', hr'', _⟩ := next_chunk hs.toLawful htm hr' k1 k2
            obtain ⟨a, tail, e1, e2, e3⟩ := getD_tail m (blen p - 1)
            simp only [e1, k1, run_bind_ok]
            cases hf2 : findSub p (tail ++ c'.text) with
            | none => exact ⟨res, g1, g3⟩
            | some pos =>
              refine ⟨_, rfl, ?_⟩
              intro i hi
              cases hi
              have := findSub_spec p (tail ++ c'.text)
              rw [hf2] at this
              have hw : t = (l ++ a) ++ (tail ++ c'.text) ++ r'' := by
                rw [htm, e2, hr'']; simp
              have hb2 := congrArg blen e2
              simp at hb2
              have ho := occursAt_append (a := l ++ a) (b := r'') this.2.1
              rw [← hw] at ho
              have : blen (l ++ m) - blen tail + pos = blen (l ++ a) + pos := by simp; omega
              rw [this]
              exact ⟨by simp; omega, ho⟩
          · rw [if_neg hp1]; exact ⟨res, g1, g3⟩
    · rw [if_neg hlt]; exact ⟨none, rfl, by simp⟩

/-- The tail kept when the cut is on a boundary or before the piece. -/
theorem aligned_tail {l m r' : Str} {t : Str} (ht : t = l ++ m ++ r') (keep : Nat)
    (h : keep ≤ blen (l ++ m) → Boundary t (blen (l ++ m) - keep)) :
    ∃ a tail, (strFrom m (blen m - keep)).getD [] = tail ∧ m = a ++ tail ∧
      blen tail = min keep (blen m) := by
  by_cases hk : blen m ≤ keep
  · refine ⟨[], m, ?_, rfl, by omega⟩
    rw [show blen m - keep = 0 by omega]
    simp [strFrom, splitAt?_zero]
  · obtain ⟨x, y, h1, h2⟩ := h (by simp; omega)
    rw [ht, List.append_assoc] at h1
    simp at h2
    obtain ⟨a, h3, h4⟩ := append_split_of_le h1 (by omega)
    have hxa : blen x = blen l + blen a := by rw [h3]; simp
    obtain ⟨tail, h5, h6⟩ := append_split_of_le h4.symm (by omega)
    have hb := congrArg blen h5
    simp at hb
    refine ⟨a, tail, ?_, h5, by omega⟩
    rw [show blen m - keep = blen a by omega, h5, strFrom_append]; rfl

/-- When the chunks are long enough and the cuts are aligned, the loop finds the first occurrence. -/
theorem findStrLoop_spec {src : Source} {t p : Str} (hs : Supply src t (Linked src t (blen p - 1)))
    (hp : p ≠ []) (fuel : Nat) {l r : Str} {cur : Cur}
    (h : CurAt (Linked src t (blen p - 1)) t l r { cur with offset := blen l }) (hf : blen r ≤ fuel) :
    ∃ res, Cur.findStrLoop src p fuel cur (blen l) = .ok res ∧ FirstFrom t (blen l) p res := by
  have hppos := blen_pos hp
  have hocc : ∀ j, OccursAt t p j → j + blen p ≤ blen t := by
    rintro j ⟨a, b, h1, h2, h3⟩
    have := congrArg blen h1
    simp at this; omega
  induction fuel generalizing l r cur with
  | zero =>
    have : r = [] := blen_eq_zero.mp (by omega)
    subst this
    refine ⟨none, ?_, ?_⟩
    · unfold Cur.findStrLoop
      rw [if_neg (by rw [hs.length_eq, h.text]; simp)]; rfl
    · intro j hj ho
      have := hocc j ho
      rw [h.text] at this
      simp at this; omega
  | succ fuel ih =>
    unfold Cur.findStrLoop
    by_cases hlt : blen l < src.length
    · rw [if_pos hlt]
      obtain ⟨cur1, k, m, r', he, hin⟩ := ensureChunk_spec hs h
      have hl1 := hin.good
      simp only [he, run_bind_ok, hin.sliceFrom]
      have htm : t = l ++ m ++ r' := by rw [hin.text, hin.rest]; simp
      have hbt : blen t = blen l + blen m + blen r' := by rw [htm]; simp; omega
      have hm := findSub_spec p m
      have inm : ∀ j, blen l ≤ j → j + blen p ≤ blen l + blen m → OccursAt t p j →
          OccursAt m p (j - blen l) := by
        intro j h1 h2 ho
        rw [htm] at ho
        exact occursAt_window ho h1 h2
      cases hfs : findSub p m with
      | some pos =>
        rw [hfs] at hm
        refine ⟨_, rfl, by omega, by rw [htm]; exact occursAt_append hm.2.1, ?_⟩
        intro j hj1 hj2 ho
        have hpos : pos + blen p ≤ blen m := by
          obtain ⟨a, b, h1, h2, h3⟩ := hm.2.1
          have := congrArg blen h1
          simp at this; omega
        exact hm.2.2 (j - blen l) (Nat.zero_le _) (by omega) (inm j hj1 (by omega) ho)
      | none =>
        rw [hfs] at hm
        have notin : ∀ j, blen l ≤ j → j + blen p ≤ blen l + blen m → ¬ OccursAt t p j :=
          fun j h1 h2 ho => hm _ (Nat.zero_le _) (inm j h1 h2 ho)
        simp only [hin.stop]
        by_cases hend : blen (l ++ m) ≥ src.length
        · rw [if_pos hend]
          refine ⟨none, rfl, ?_⟩
          intro j hj ho
          have := hocc j ho
          rw [hs.length_eq] at hend
          simp at hend
          exact notin j hj (by omega) ho
        · rw [if_neg hend]
          have hr' : r' ≠ [] := by
            rintro rfl; rw [hs.length_eq, htm] at hend; simp at hend
          have hrne : r ≠ [] := by rw [hin.rest]; simp [hr']
          have hmpos := blen_pos (hin.nonempty hrne)
          have hbr := congrArg blen hin.rest
          simp at hbr
          obtain ⟨res, g1, g2⟩ := ih (l := l ++ m) (r := r') (cur := cur1)
            ⟨by rw [htm], rfl, hin.chunk, hin.good⟩ (by omega)
          have lift : (∀ j, blen l ≤ j → j < blen l + blen m → ¬ OccursAt t p j) →
              FirstFrom t (blen l) p res := by
            intro hno
            cases res with
            | none =>
              intro j hj ho
              by_cases hjm : j < blen l + blen m
              · exact hno j hj hjm ho
              · exact g2 j (by simp; omega) ho
            | some i =>
              obtain ⟨q1, q2, q3⟩ := g2
              simp at q1
              refine ⟨by omega, q2, ?_⟩
              intro j hj hji ho
              by_cases hjm : j < blen l + blen m
              · exact hno j hj hjm ho
              · exact q3 j (by simp; omega) hji ho
          by_cases hp1 : blen p > 1
          · rw [if_pos hp1]
            obtain ⟨c', k1, k2, k3, k4⟩ := hl1 (by rw [hin.stop]; have := hs.length_eq; omega)
            rw [hin.stop] at k1 k2 k4
            obtain ⟨r'', hr'', _⟩ := next_chunk hs.toLawful htm hr' k1 k2
            obtain ⟨a, tail, e1, e2, e3⟩ := aligned_tail htm (blen p - 1) k4
            have hw : t = (l ++ a) ++ (tail ++ c'.text) ++ r'' := by
              rw [htm, e2, hr'']; simp
            have hb2 := congrArg blen e2
            have hb3 := congrArg blen hr''
            simp at hb2 hb3
            have hbnext : blen p - 1 ≤ blen c'.text ∨ blen r'' = 0 := by
              rcases k3 with k3 | k3
              · exact Or.inl k3
              · right
                unfold Chunk.stop at k3
                rw [k2] at k3; simp at k3; omega
            -- an occurrence starting in `m` and not contained in it lies in the window
            have inw : ∀ j, blen l ≤ j → j < blen l + blen m → OccursAt t p j →
                blen (l ++ a) ≤ j ∧ OccursAt (tail ++ c'.text) p (j - blen (l ++ a)) := by
              intro j h1 h2 ho
              by_cases h3 : j + blen p ≤ blen l + blen m
              · exact absurd ho (notin j h1 h3)
              · have hle := hocc j ho
                have hge : blen (l ++ a) ≤ j := by simp; omega
                refine ⟨hge, ?_⟩
                rw [hw] at ho
                exact occursAt_window ho hge (by simp; omega)
            simp only [e1, k1, run_bind_ok]
            have hwin := findSub_spec p (tail ++ c'.text)
            cases hf2 : findSub p (tail ++ c'.text) with
            | none =>
              rw [hf2] at hwin
              exact ⟨res, g1, lift (fun j h1 h2 ho => hwin _ (Nat.zero_le _) (inw j h1 h2 ho).2)⟩
            | some pos =>
              rw [hf2] at hwin
              have hpe : blen (l ++ m) - blen tail + pos = blen (l ++ a) + pos := by simp; omega
              refine ⟨_, rfl, ?_⟩
              rw [hpe]
              refine ⟨by simp; omega, ?_, ?_⟩
              · rw [hw]; exact occursAt_append hwin.2.1
              · intro j h1 h2 ho
                have hpos : pos + blen p ≤ blen tail + blen c'.text := by
                  obtain ⟨a, b, h1, h2, h3⟩ := hwin.2.1
                  have := congrArg blen h1
                  simp at this; omega
                by_cases hjm : j < blen l + blen m
                · have := inw j h1 hjm ho
                  exact hwin.2.2 _ (Nat.zero_le _) (by omega) this.2
                · have hge : blen (l ++ a) ≤ j := by simp; omega
                  rw [hw] at ho
                  exact hwin.2.2 _ (Nat.zero_le _) (by omega) (occursAt_window ho hge (by simp at h2 ⊢; omega))
          · rw [if_neg hp1]
            exact ⟨res, g1, lift (fun j h1 h2 ho => notin j h1 (by omega) ho)⟩
    · rw [if_neg hlt]
      refine ⟨none, rfl, ?_⟩
      intro j hj ho
      have := hocc j ho
      have := hs.length_eq
      omega

/-! ### the source kinds are contiguous -/

theorem strSource_contiguous (t : Str) : Contiguous (strSource t) t := by
  rintro o c ho ⟨l, r, rfl, rfl⟩ hc hlt
  simp only [strSource, strChunkAt] at hc
  rw [if_neg (by omega), strFrom_append] at hc
  cases hc
  simp [Chunk.stop] at hlt

theorem textSource_contiguous (t : Str) : Contiguous (textSource t) t := by
  rintro o c ho ⟨l, r, rfl, rfl⟩ hc hlt
  simp only [textSource, textChunkAt] at hc
  rw [if_neg (by omega), strFrom_append] at hc
  cases hc
  simp [Chunk.stop] at hlt

theorem Table.WF.contiguous {t : Table} (h : t.WF) : Contiguous t.source t.text := by
  intro o c ho _ hc hlt
  obtain ⟨pre, d, post, he, hd, hle, hlt'⟩ := h.chunkAt_spec (x := o) (by rw [h.len_eq]; exact ho)
  have hc' : t.chunkAt o = .ok c := hc
  rw [hd] at hc'; cases hc'
  obtain ⟨pre2, d2, post2, he2, hd2, hle2, hlt2⟩ := h.chunkAt_spec (x := Chunk.stop ⟨blen pre.flatten, d⟩)
    (by rw [h.len_eq]; exact hlt)
  refine ⟨_, hd2, ?_⟩
  -- the located chunk starts where this one stops
  simp only [Chunk.stop] at *
  have hcs : pre2 ++ d2 :: post2 = pre ++ d :: post := by rw [← he2, ← he]
  rcases List.append_eq_append_iff.mp hcs with ⟨as, h1, h2⟩ | ⟨as, h1, h2⟩
  · -- pre = pre2 ++ as
    cases as with
    | nil =>
      simp at h1 h2
      rw [h1, h2.1] at hlt2
      omega
    | cons a as =>
      simp at h2
      rw [h1, h2.1] at hlt2
      simp at hlt2; omega
  · cases as with
    | nil =>
      simp at h1 h2
      rw [← h1, ← h2.1] at hlt2
      omega
    | cons a as =>
      simp at h2
      rw [h1, ← h2.1] at hle2 ⊢
      have has : as = [] := by
        cases as with
        | nil => rfl
        | cons b as =>
          have hb : b ∈ t.chunks := by rw [he2, h1]; simp
          have := blen_pos (h.nonempty b hb)
          simp at hle2; omega
      rw [has]; simp

theorem Table.WF.bufferContiguous {t : Table} (h : t.WF) : Contiguous t.bufferSource t.text := by
  intro o c ho hb hc hlt
  have hc' : t.source.chunkAt o = .ok c := by rw [← hc]; exact (h.bufferChunkAt_eq o).symm
  obtain ⟨c', h1, h2⟩ := h.contiguous o c ho hb hc' hlt
  exact ⟨c', by rw [← h1]; exact h.bufferChunkAt_eq _, h2⟩

end Oaks
