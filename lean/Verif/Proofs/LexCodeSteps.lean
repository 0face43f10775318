import Verif.Proofs.LexCodeDomain

/-! The single statements: what the analysis says after them holds. -/
namespace Oaks.Lc
open Spec

section
variable {u : Uni} {src : Source} {t : Str} {m : Mode} {a b : Abs} {st st' : LSt} {l r : Str} {toks : List Tok}

@[simp] theorem set_lex (st : LSt) (q n : Nat) : (st.set q n).lex = st.lex := rfl
@[simp] theorem set_same (st : LSt) (q n : Nat) : (st.set q n).regs q = n := by simp [LSt.set]

theorem Ok.mark (h : Ok u src t m a st l r toks) (q : Nat) : Ok u src t m (a.mark q) (st.set q st.lex.pos) l r toks := by
  have hb := h.forget q st.lex.pos
  have hq : (st.set q st.lex.pos).regs q = blen l := by rw [set_same, h.lex.pos]
  have hbit : ∀ i, (2 ^ q).testBit i = true → (st.set q st.lex.pos).regs i = blen l := by
    intro i hi; rw [tb_pow] at hi; simp at hi; rw [← hi]; exact hq
  generalize st.set q st.lex.pos = st' at *
  unfold Abs.mark
  generalize a.forget q = b at *
  have hpos : PtOk u { b.pos with le := b.pos.le ||| 2 ^ q } st'.regs (last toks) (blen l) r := by
    refine ⟨hb.pos.nxt, hb.pos.e, hb.pos.o, ?_, hb.pos.lt⟩
    intro i hi
    simp only [] at hi
    rw [Nat.testBit_or, Bool.or_eq_true] at hi
    rcases hi with hi | hi
    · exact hb.pos.le i hi
    · exact Nat.le_of_eq (hbit i hi)
  refine ⟨hb.lex, hpos, ?_, ?_, hb.chars, ?_, hb.toks⟩
  · intro i hi
    simp only [] at hi
    rw [Nat.testBit_or, Bool.or_eq_true] at hi
    rcases hi with hi | hi
    · exact hb.here i hi
    · exact hbit i hi
  · intro x hx
    rcases List.mem_cons.mp hx with rfl | hx
    · exact ⟨l, r, hb.text, hq, hpos⟩
    · obtain ⟨y, hy, rfl⟩ := List.mem_map.mp hx
      obtain ⟨l', r', h1, h2, h3⟩ := hb.regs y hy
      by_cases hh : b.here.testBit y.1 = true
      · rw [if_pos hh]
        have := hb.here _ hh
        refine ⟨l', r', h1, h2, h3.nxt, h3.e, h3.o, ?_, h3.lt⟩
        intro i hi
        simp only [] at hi
        rw [Nat.testBit_or, Bool.or_eq_true] at hi
        rcases hi with hi | hi
        · exact h3.le i hi
        · rw [hbit i hi]; omega
      · rw [if_neg hh]
        exact ⟨l', r', h1, h2, h3⟩
  · intro x hx
    obtain ⟨y, hy, rfl⟩ := List.mem_map.mp hx
    obtain ⟨h1, h2⟩ := hb.flags y hy
    refine ⟨h1, fun hne i hi => ?_⟩
    by_cases hz : y.2.1 = true
    · exact absurd (h1 hz) hne
    · simp only [hz] at hi; exact h2 hne i (by simpa using hi)

theorem tb_dup {q p x i : Nat} (h : (Abs.dup q p x).testBit i = true) : x.testBit i = true ∨ (i = q ∧ x.testBit p = true) := by
  unfold Abs.dup at h
  split at h
  · rename_i hp
    rw [Nat.testBit_or, Bool.or_eq_true, tb_pow] at h
    rcases h with h | h
    · exact .inl h
    · exact .inr ⟨by simpa using (Eq.symm (by simpa using h)), hp⟩
  · exact .inl h

theorem Ok.copy (h : Ok u src t m a st l r toks) (q p : Nat) : Ok u src t m (a.copy q p) (st.set q (st.regs p)) l r toks := by
  have hb := h.forget q (st.regs p)
  have hqp : (st.set q (st.regs p)).regs q = (st.set q (st.regs p)).regs p := by
    simp [LSt.set]
  generalize st.set q (st.regs p) = st' at *
  unfold Abs.copy
  generalize a.forget q = b at *
  have hd : ∀ (x : Nat) (P : Nat → Prop), (∀ i, x.testBit i = true → P (st'.regs i)) → ∀ i, (Abs.dup q p x).testBit i = true → P (st'.regs i) := by
    intro x P hx i hi
    rcases tb_dup hi with hi | ⟨he, hi⟩
    · exact hx i hi
    · rw [he, hqp]; exact hx p hi
  have hpt : ∀ x z v r', PtOk u x st'.regs z v r' → PtOk u (x.restrict (Abs.dup q p)) st'.regs z v r' := by
    intro x z v r' hx
    exact ⟨hx.nxt, hx.e, hx.o, hd _ (· ≤ v) hx.le, hd _ (· < v) hx.lt⟩
  have hregs : ∀ x ∈ b.regs.map (fun x => (x.1, x.2.restrict (Abs.dup q p))),
      ∃ l' r', t = l' ++ r' ∧ st'.regs x.1 = blen l' ∧ PtOk u x.2 st'.regs (last toks) (blen l') r' := by
    intro x hx
    obtain ⟨y, hy, rfl⟩ := List.mem_map.mp hx
    obtain ⟨l', r', h1, h2, h3⟩ := hb.regs y hy
    exact ⟨l', r', h1, h2, hpt _ _ _ _ h3⟩
  have hflags : ∀ x ∈ b.flags.map (fun x => (x.1, x.2.1, Abs.dup q p x.2.2)), (x.2.1 = true → st'.regs x.1 = 0) ∧
      (st'.regs x.1 ≠ 0 → ∀ i, x.2.2.testBit i = true → st'.regs i < blen l) := by
    intro x hx
    obtain ⟨y, hy, rfl⟩ := List.mem_map.mp hx
    obtain ⟨h1, h2⟩ := hb.flags y hy
    exact ⟨h1, fun hne => hd _ (· < blen l) (h2 hne)⟩
  refine ⟨hb.lex, hpt _ _ _ _ hb.pos, hd _ (· = blen l) hb.here, ?_, ?_, ?_, hb.toks⟩
  · simp only []
    split
    · rename_i x hx
      intro y hy
      rcases List.mem_cons.mp hy with rfl | hy
      · obtain ⟨l', r', h1, h2, h3⟩ := hregs _ (lookup_mem hx)
        exact ⟨l', r', h1, by rw [hqp]; exact h2, h3⟩
      · exact hregs y hy
    · exact hregs
  · simp only []
    split
    · rename_i x hx
      intro y hy
      rcases List.mem_cons.mp hy with rfl | hy
      · obtain ⟨c, h1, h2⟩ := hb.chars _ (lookup_mem hx)
        exact ⟨c, by rw [hqp]; exact h1, h2⟩
      · exact hb.chars y hy
    · exact hb.chars
  · simp only []
    split
    · rename_i x hx
      intro y hy
      rcases List.mem_cons.mp hy with rfl | hy
      · have := hflags _ (lookup_mem hx)
        simp only [] at this ⊢
        rw [hqp]; exact this
      · exact hflags y hy
    · exact hflags

theorem Ok.before (h : Ok u src t m a st l r toks) {z : Nat} (hz : ∀ q, z.testBit q = true → st.regs q < blen l) :
    Ok u src t m (a.before z) st l r toks := by
  have hlt : ∀ q, (a.pos.lt ||| z).testBit q = true → st.regs q < blen l := by
    intro q hq
    rw [Nat.testBit_or, Bool.or_eq_true] at hq
    exact hq.elim (h.pos.lt q) (hz q)
  refine ⟨h.lex, ⟨h.pos.nxt, h.pos.e, h.pos.o, ?_, hlt⟩, h.here, h.regs, h.chars, ?_, h.toks⟩
  · intro q hq
    simp only [Abs.before] at hq
    rw [Nat.testBit_or, Bool.or_eq_true] at hq
    exact hq.elim (h.pos.le q) (fun hq => Nat.le_of_lt (hz q hq))
  · intro x hx
    obtain ⟨y, hy, rfl⟩ := List.mem_map.mp hx
    obtain ⟨h1, h2⟩ := h.flags y hy
    refine ⟨h1, fun hne q hq => ?_⟩
    simp only [] at hq
    rw [Nat.testBit_or, Bool.or_eq_true] at hq
    exact hq.elim (h2 hne q) (hlt q)

theorem Ok.under (h : Ok u src t m a st l r toks) {q : Nat} (hq : st.regs q < blen l) :
    ∀ i, (a.under q).testBit i = true → st.regs i < blen l := by
  intro i hi
  unfold Abs.under at hi
  split at hi
  · rename_i p hp
    obtain ⟨l', r', h1, h2, h3⟩ := h.regs _ (lookup_mem hp)
    rw [Nat.testBit_or, Bool.or_eq_true, tb_pow] at hi
    rcases hi with hi | hi
    · simp at hi; rw [← hi]; exact hq
    · have := h3.le i hi
      simp only [] at h2 this
      omega
  · rw [tb_pow] at hi; simp at hi; rw [← hi]; exact hq

theorem goto_at (hs : Supplied src t) (h : LexAt src t l r toks st.lex) {l' r' : Str} (ht : t = l' ++ r') :
    LexAt src t l' r' toks { st.lex with cur := st.lex.cur.setPosition src (blen l') } := by
  refine ⟨⟨ht, ?_, h.cur.chunk, h.cur.good⟩, h.toks⟩
  simp only [Cur.setPosition]
  have := hs.length_eq
  rw [ht] at this
  simp at this
  omega

theorem Ok.goto (hs : Supplied src t) (h : Ok u src t m a st l r toks) {q : Nat} (hg : a.goto q = some b) :
    ∃ l' r', Ok u src t m b { st with lex := { st.lex with cur := st.lex.cur.setPosition src (st.regs q) } } l' r' toks := by
  unfold Abs.goto at hg
  split at hg
  · cases hg
  · rename_i p hp
    split at hg
    · rename_i hh
      cases hg
      rw [h.here q hh]
      exact ⟨l, r, h.move (goto_at hs h.lex h.text)⟩
    · cases hg
      obtain ⟨l', r', h1, h2, h3⟩ := h.regs _ (lookup_mem hp)
      simp only [] at h2
      rw [h2]
      have hbit : ∀ i, (2 ^ q).testBit i = true → st.regs i = blen l' := by
        intro i hi; rw [tb_pow] at hi; simp at hi; rw [← hi]; exact h2
      refine ⟨l', r', goto_at hs h.lex h1, ⟨h3.nxt, h3.e, h3.o, ?_, h3.lt⟩, hbit, h.regs, ?_, ?_, h.toks⟩
      · intro i hi
        simp only [] at hi
        rw [Nat.testBit_or, Bool.or_eq_true] at hi
        rcases hi with hi | hi
        · exact h3.le i hi
        · exact Nat.le_of_eq (hbit i hi)
      · intro x hx
        obtain ⟨y, hy, rfl⟩ := List.mem_map.mp hx
        obtain ⟨i, k, y⟩ := y
        obtain ⟨c, g1, g2, g3⟩ := h.eff hy
        exact ⟨c, g1, g2, by simp⟩
      · intro x hx
        obtain ⟨y, hy, rfl⟩ := List.mem_map.mp hx
        obtain ⟨g1, g2⟩ := h.flags y hy
        refine ⟨g1, fun hne i hi => ?_⟩
        by_cases hz : y.2.1 = true
        · exact absurd (g1 hz) hne
        · simp only [hz] at hi; exact h3.lt i (by simpa using hi)

/-- A token that ends at the position is recorded. -/
theorem Ok.ended (h : Ok u src t m a st l r toks) {k : Tok} (hk : k.stop = blen l) (hl : LexAt src t l r (toks ++ [k]) st'.lex)
    (hr : st'.regs = st.regs) (hb : Boundary t k.start)
    (ho : m.order = true → last toks ≤ k.start ∧ k.start ≤ k.stop) (hti : m.tile = true → k.start = last toks)
    (hp : m.proper = true → k.start < k.stop) : Ok u src t m a.ended st' l r (toks ++ [k]) := by
  have hlast : last (toks ++ [k]) = blen l := by rw [last_append, hk]
  refine ⟨hl, ?_, ?_, ?_, ?_, ?_, ?_⟩
  · rw [hlast, hr]
    exact ⟨h.pos.nxt, fun _ => rfl, fun _ => Nat.le_refl _, h.pos.le, h.pos.lt⟩
  · rw [hr]; exact h.here
  · rw [hlast, hr]
    intro x hx
    obtain ⟨y, hy, rfl⟩ := List.mem_map.mp hx
    obtain ⟨l', r', h1, h2, h3⟩ := h.regs y hy
    exact ⟨l', r', h1, h2, h3.nxt, fun he => by rw [← h2]; exact h.here _ he, fun he => by rw [← h2]; exact Nat.le_of_eq (h.here _ he).symm, h3.le, h3.lt⟩
  · rw [hr]; exact h.chars
  · rw [hr]; exact h.flags
  · refine ⟨?_, ?_, ?_, ?_⟩
    · intro x hx
      rcases List.mem_append.mp hx with hx | hx
      · exact h.toks.whole x hx
      · rw [List.mem_singleton.mp hx]
        exact ⟨hb, l, r, h.text, hk.symm⟩
    · intro hm
      obtain ⟨h1, h2⟩ := h.toks.order hm
      obtain ⟨h3, h4⟩ := ho hm
      rw [hlast]
      refine ⟨?_, ?_⟩
      · unfold InOrder
        rw [List.pairwise_append]
        refine ⟨h1, List.pairwise_singleton _ _, ?_⟩
        intro x hx y hy
        rw [List.mem_singleton.mp hy]
        exact Nat.le_trans (h2 x hx).2 h3
      · intro x hx
        rcases List.mem_append.mp hx with hx | hx
        · have := h2 x hx; omega
        · rw [List.mem_singleton.mp hx]; omega
    · intro hm
      rw [last_append]
      exact .snoc (h.toks.tile hm) (hti hm)
    · intro hm x hx
      rcases List.mem_append.mp hx with hx | hx
      · exact h.toks.proper hm x hx
      · rw [List.mem_singleton.mp hx]; exact hp hm

theorem Ok.tok (h : Ok u src t m a st l r toks) {q : Nat} (hg : a.tok m q = some b) (stop : Nat) (hstop : stop = blen l) :
    Ok u src t m b { st with lex := st.lex.addToken 0 (st.regs q) stop } l r (toks ++ [⟨0, st.regs q, stop⟩]) := by
  unfold Abs.tok at hg
  split at hg
  · cases hg
  · rename_i p hp
    split at hg
    · rename_i hc
      cases hg
      simp only [Bool.and_eq_true, Bool.or_eq_true, Bool.not_eq_true'] at hc
      obtain ⟨⟨c1, c2⟩, c3⟩ := hc
      obtain ⟨l', r', h1, h2, h3⟩ := h.regs _ (lookup_mem hp)
      simp only [] at h2 h3
      refine h.ended (st' := { st with lex := st.lex.addToken 0 (st.regs q) stop }) hstop (addToken_at h.lex _ _ _) rfl ⟨l', r', h1, h2.symm⟩ ?_ ?_ ?_
      · intro hm
        rw [hm] at c1
        simp at c1
        have := h.pos.le q c1.2
        exact ⟨by rw [h2]; exact h3.o c1.1, by simp only []; omega⟩
      · intro hm
        rw [hm] at c2
        simp at c2
        simp only []
        rw [h2]; exact h3.e c2
      · intro hm
        rw [hm] at c3
        simp at c3
        have := h.pos.lt q c3
        simp only []; omega
    · cases hg

/-- A scanner of the library recorded the token it found. -/
theorem Ok.scanned (h : Ok u src t m a st l r toks) (hg : a.scanned m = some b) {s r' : Str} (hr : r = s ++ r') (hne : s ≠ [])
    {lex : Lex} (hl : LexAt src t (l ++ s) r' (toks ++ [⟨0, blen l, blen l + blen s⟩]) lex) :
    Ok u src t m b { st with lex := lex } (l ++ s) r' (toks ++ [⟨0, blen l, blen l + blen s⟩]) := by
  unfold Abs.scanned at hg
  split at hg
  · rename_i hc
    cases hg
    simp only [Bool.and_eq_true, Bool.or_eq_true, Bool.not_eq_true'] at hc
    obtain ⟨c1, c2⟩ := hc
    have hp := blen_pos hne
    have h0 : LexAt src t (l ++ s) r' toks { lex with toks := toks } := ⟨hl.cur, rfl⟩
    have h1 := h.strict hr hne h0 (Nx.nil (ahead u r')) (d := none) (by simp)
    refine h1.ended (by simp) hl rfl ⟨l, r, h.text, rfl⟩ ?_ ?_ ?_
    · intro hm
      rw [hm] at c1
      simp at c1
      exact ⟨h.pos.o c1, by simp only []; omega⟩
    · intro hm
      rw [hm] at c2
      simp at c2
      exact h.pos.e c2
    · intro _; simp only []; omega
  · cases hg

theorem nx_all {f : Nat → Nat} : ∀ {p q : List Nat}, Nx p f → Nx q f → Nx (Abs.unmoved.refineAll p q) f
  | [], q, _, h2 => by simpa [Abs.unmoved.refineAll] using h2
  | x :: p, [], h1, _ => by simpa [Abs.unmoved.refineAll] using h1
  | x :: p, y :: q, h1, h2 => by
    have ih := nx_all (p := p) (q := q) (f := fun i => f (i + 1)) h1.tail h2.tail
    simp only [Abs.unmoved.refineAll]
    exact Nx.cons (by rw [Nat.testBit_and, h1.head, h2.head]; rfl) ih

theorem split_unique {l l' r r' : Str} (h : l ++ r = l' ++ r') (hb : blen l = blen l') : l = l' ∧ r = r' := by
  induction l generalizing l' with
  | nil =>
    have : l' = [] := blen_eq_zero.mp (by simpa using hb.symm)
    subst this
    exact ⟨rfl, h⟩
  | cons c l ih =>
    cases l' with
    | nil => simp at hb; have := Char.utf8Size_pos c; omega
    | cons d l' =>
      simp at h hb
      obtain ⟨rfl, h⟩ := h
      obtain ⟨rfl, h2⟩ := ih h (by omega)
      exact ⟨rfl, h2⟩

theorem Ok.unmoved (h : Ok u src t m a st l r toks) {q : Nat} (hq : blen l ≤ st.regs q) :
    ∃ b, a.unmoved q = some b ∧ Ok u src t m b st l r toks := by
  unfold Abs.unmoved
  by_cases h1 : a.pos.lt.testBit q = true
  · have := h.pos.lt q h1; omega
  rw [if_neg h1]
  by_cases h2 : a.pos.le.testBit q = true
  · have hle := h.pos.le q h2
    rw [if_pos h2]
    cases hp : a.regs.lookup q with
    | none => exact ⟨a, rfl, h⟩
    | some p =>
      obtain ⟨l', r', g1, g2, g3⟩ := h.regs _ (lookup_mem hp)
      simp only [] at g2 g3
      obtain ⟨rfl, rfl⟩ := split_unique (l := l) (r := r) (l' := l') (r' := r') (by rw [← g1, h.text]) (by omega)
      have hn := nx_all h.pos.nxt g3.nxt
      simp only [nx_alive hn]
      refine ⟨_, rfl, h.lex, ⟨hn, ?_, ?_, ?_, ?_⟩, ?_, h.regs, h.chars, h.flags, h.toks⟩
      · intro he; simp at he; exact he.elim h.pos.e g3.e
      · intro he; simp at he; exact he.elim h.pos.o g3.o
      · intro i hi
        simp only [] at hi
        rw [Nat.testBit_or, Bool.or_eq_true] at hi; exact hi.elim (h.pos.le i) (g3.le i)
      · intro i hi
        simp only [] at hi
        rw [Nat.testBit_or, Bool.or_eq_true] at hi; exact hi.elim (h.pos.lt i) (g3.lt i)
      · intro i hi
        simp only [] at hi
        rw [Nat.testBit_or, Bool.or_eq_true, tb_pow] at hi
        rcases hi with hi | hi
        · exact h.here i hi
        · simp at hi; rw [← hi]; omega
  · rw [if_neg h2]
    exact ⟨a, rfl, h⟩

theorem prefix_sound {n : List Nat} {k i : Nat} {r : Str} (h : prefixLen n k = some i) (hn : Nx n (ahead u r)) :
    ∃ s r', r = s ++ r' ∧ s.length = i ∧ blen s = k ∧ Nx (n.drop i) (ahead u r') := by
  induction n generalizing k i r with
  | nil =>
    cases k with
    | zero => simp [prefixLen] at h; subst h; exact ⟨[], r, rfl, rfl, rfl, by simpa using hn⟩
    | succ k => simp [prefixLen] at h
  | cons x n ih =>
    cases k with
    | zero => simp [prefixLen] at h; subst h; exact ⟨[], r, rfl, rfl, rfl, by simpa using hn⟩
    | succ k =>
      unfold prefixLen at h
      split at h
      · cases h
      · rename_i w hw
        split at h
        · rename_i hle
          have hle : w ≤ k + 1 := Nat.le_of_ble_eq_true hle
          obtain ⟨j, hj, rfl⟩ := Option.map_eq_some_iff.mp h
          have h0 := hn.head
          unfold ahead at h0
          obtain ⟨c, hc, hcw⟩ := width_sound hw h0
          cases r with
          | nil => simp at hc
          | cons d r =>
            simp at hc
            subst hc
            have ht : Nx n (ahead u r) := by
              have := hn.tail
              intro i m hi
              have := this i m hi
              simpa [ahead] using this
            obtain ⟨s, r', e1, e2, e3, e4⟩ := ih hj ht
            exact ⟨d :: s, r', by simp [e1], by simp [e2], by simp [e3, hcw]; omega, by simpa using e4⟩
        · cases h

theorem advance_end (hs : Supplied src t) (h : LexAt src t l [] toks st.lex) (n : Nat) : LexAt src t l [] toks (st.lex.advance src n) := by
  have hl := h.len hs
  simp at hl
  refine ⟨⟨h.cur.text, ?_, h.cur.chunk, h.cur.good⟩, h.toks⟩
  have := h.cur.offset
  simp only [Lex.advance, Cur.advanceBytes]
  omega

theorem Ok.adv (hs : Supplied src t) (h : Ok u src t m a st l r toks) {n : Nat} (hg : advAbs a n = some b) :
    ∃ l' r', Ok u src t m b { st with lex := st.lex.advance src n } l' r' toks := by
  unfold advAbs at hg
  split at hg
  · rename_i hn
    subst hn
    cases hg
    have := advance_at hs (m := []) (l := l) (r := r) h.lex
    simp at this
    exact ⟨l, r, h.move this⟩
  split at hg
  · rename_i hz
    cases hg
    have h0 := h.pos.nxt.at 0
    have hz : (a.pos.nxt[0]?).getD top = 1 := hz
    rw [hz, tb_one] at h0
    have : r = [] := by
      have := ahead_zero.mp (Eq.symm (of_decide_eq_true h0))
      exact List.length_eq_zero_iff.mp (by omega)
    subst this
    exact ⟨l, [], h.move (advance_end hs h.lex n)⟩
  split at hg
  · cases hg
  · rename_i hn _ i hi
    cases hg
    obtain ⟨s, r', e1, e2, e3, e4⟩ := prefix_sound hi h.pos.nxt
    subst e1
    have hl := advance_at hs (m := s) h.lex
    rw [e3] at hl
    exact ⟨l ++ s, r', h.strict rfl (by rintro rfl; simp at e3; omega) hl e4 (by rintro k hk; cases hk; exact e2)⟩

theorem Ok.refineStr (h : Ok u src t m a st l r toks) {s : Str} {k : Nat} (hp : s <+: r.drop k) :
    ∃ b, refineStr a k s = some b ∧ Ok u src t m b st l r toks := by
  induction s generalizing a k with
  | nil => exact ⟨a, rfl, h⟩
  | cons c s ih =>
    obtain ⟨w, hw⟩ := hp
    have hc : r[k]? = some c := by
      have : (r.drop k)[0]? = some c := by rw [← hw]; simp
      simpa using this
    obtain ⟨a', h1, h2⟩ := h.refine (k := k) (x := sortOf c) (by unfold ahead; rw [hc]; exact sortOf_sound c)
    have : s <+: r.drop (k + 1) := by
      refine ⟨w, ?_⟩
      rw [← List.tail_drop, ← hw]; simp
    obtain ⟨b, h3, h4⟩ := ih h2 this
    exact ⟨b, by simp only [Lc.refineStr, h1]; exact h3, h4⟩

theorem Ok.notStarts (h : Ok u src t m a st l r toks) {s : Str} (hp : s.isPrefixOf r = false) :
    ∃ b, notStarts a s = some b ∧ Ok u src t m b st l r toks := by
  unfold Lc.notStarts
  split
  · rename_i c
    split
    · rename_i hc
      apply h.refine
      rw [tb_minus, show top.testBit (ahead u r 0) = true from top_atom _]
      cases r with
      | nil =>
        simp [ahead, atom, sortOf, hc]
      | cons d r =>
        have hd : d ≠ c := by rintro rfl; simp at hp
        cases hx : (sortOf c).testBit (ahead u (d :: r) 0) with
        | false => rfl
        | true => exact absurd (sortOf_exact hc hx) hd
    · exact ⟨a, rfl, h⟩
  · exact ⟨a, rfl, h⟩

theorem joinO_left {x y : Option Abs} (h : ∃ a, x = some a ∧ Ok u src t m a st l r toks) :
    ∃ a, joinO x y = some a ∧ Ok u src t m a st l r toks := by
  obtain ⟨a, rfl, h⟩ := h
  cases y with
  | none => exact ⟨a, rfl, h⟩
  | some b => exact ⟨_, rfl, h.left⟩

theorem joinO_right {x y : Option Abs} (h : ∃ a, y = some a ∧ Ok u src t m a st l r toks) :
    ∃ a, joinO x y = some a ∧ Ok u src t m a st l r toks := by
  obtain ⟨a, rfl, h⟩ := h
  cases x with
  | none => exact ⟨a, rfl, h⟩
  | some b => exact ⟨_, rfl, h.right⟩

theorem Ok.advc (hs : Supplied src t) (h : Ok u src t m a st l r toks) {q : Nat} {o : Outs} (hg : advcAbs a q = some o) :
    ∃ b l' r', o.t = some b ∧ Ok u src t m b { st with lex := st.lex.advance src (charLen (st.regs q)) } l' r' toks := by
  unfold advcAbs at hg
  split at hg
  · cases hg
  · rename_i x hl
    cases hg
    obtain ⟨c, h1, h2, h3⟩ := h.eff (lookup_mem hl)
    have hc := h3 0 rfl
    cases r with
    | nil =>
      simp at hc
      subst hc
      obtain ⟨a', g1, g2⟩ := h.setChar (q := q) (x := 1) (by
        intro c hc
        have : c = none := code_inj (by rw [← hc, h1])
        subst this; rw [tb_one]; rfl)
      obtain ⟨b, g3, g4⟩ := joinO_right (x := (a.setChar q (minus top 1)).map (fun x => x.strict (x.pos.nxt.drop 1) (some 1))) ⟨a', g1, g2⟩
      exact ⟨b, l, [], g3, g4.move (advance_end hs h.lex _)⟩
    | cons d r =>
      simp at hc
      subst hc
      obtain ⟨a', g1, g2⟩ := h.setChar (q := q) (x := minus top 1) (by
        intro c hc
        have : c = some d := code_inj (by rw [← hc, h1])
        subst this
        rw [tb_minus, top_atom, tb_one]
        have : atom u (some d) ≠ 0 := fun h => by simpa using atom_zero.mp h
        simp; omega)
      have hl' : LexAt src t (l ++ [d]) r toks (st.lex.advance src (charLen (st.regs q))) := by
        have : charLen (st.regs q) = d.utf8Size := by rw [h1]; simp [charLen, uncode_code]
        rw [this]; exact advance_char hs h.lex
      have hn : Nx (a'.pos.nxt.drop 1) (ahead u r) := by
        have := g2.pos.nxt.drop 1
        rwa [show (fun i => ahead u (d :: r) (1 + i)) = ahead u r from ahead_drop (m := [d])] at this
      have g3 := g2.strict (s := [d]) (r' := r) rfl (by simp) hl' hn (d := some 1) (by rintro k hk; cases hk; rfl)
      obtain ⟨b, g5, g6⟩ := joinO_left (y := a.setChar q 1) ⟨_, rfl, g3⟩
      exact ⟨b, _, _, by simp only [g1, Option.map_some]; exact g5, g6⟩
  · rename_i k x hk hl
    split at hg
    · cases hg
    · rename_i w hw
      obtain ⟨b, hb, rfl⟩ := Option.map_eq_some_iff.mp hg
      obtain ⟨c, h1, h2, h3⟩ := h.eff (lookup_mem hl)
      obtain ⟨d, rfl, hd⟩ := width_sound hw h2
      have : charLen (st.regs q) = w := by rw [h1]; simp [charLen, uncode_code, hd]
      rw [this]
      obtain ⟨l', r', g⟩ := h.adv hs hb
      exact ⟨b, l', r', rfl, g⟩

theorem Ok.guard (h : Ok u src t m a st l r toks) {q : Nat} {lex : Lex}
    (hl : if blen l = st.regs q then LexAt src t (l ++ r.take 1) (r.drop 1) toks lex else LexAt src t l r toks lex) :
    ∃ b l' r', (guardAbs a q).t = some b ∧ Ok u src t m b { st with lex := lex } l' r' toks := by
  unfold guardAbs
  by_cases h1 : a.pos.lt.testBit q = true
  · have := h.pos.lt q h1
    rw [if_neg (by omega)] at hl
    rw [if_pos h1]
    exact ⟨a, l, r, rfl, h.move hl⟩
  rw [if_neg h1]
  by_cases he : blen l = st.regs q
  · rw [if_pos he] at hl
    have key : ∃ l' r', Ok u src t m (if (!(a.pos.at? 0).testBit 0 || (match a.regs.lookup q with
        | some p => !(p.at? 0).testBit 0
        | none => false)) = true then a.strict (a.pos.nxt.drop 1) (some 1) else a.weak []) { st with lex := lex } l' r' toks := by
      refine iteInduction (motive := fun x => ∃ l' r', Ok u src t m x { st with lex := lex } l' r' toks) (fun hsure => ?_) (fun _ => ?_)
      · have hr : r ≠ [] := by
          rintro rfl
          rw [Bool.or_eq_true] at hsure
          rcases hsure with hsure | hsure
          · have := h.pos.nxt.at 0
            have h0 : ahead u [] 0 = 0 := rfl
            rw [h0] at this
            have this : (a.pos.at? 0).testBit 0 = true := this
            rw [this] at hsure; cases hsure
          · split at hsure
            · rename_i p hp
              obtain ⟨l', r', g1, g2, g3⟩ := h.regs _ (lookup_mem hp)
              simp only [] at g2 g3
              obtain ⟨rfl, rfl⟩ := split_unique (l := l) (r := []) (l' := l') (r' := r') (by rw [← g1, h.text]) (by omega)
              have := g3.nxt.at 0
              have h0 : ahead u [] 0 = 0 := rfl
              rw [h0] at this
              have this : (p.at? 0).testBit 0 = true := this
              rw [this] at hsure; cases hsure
            · cases hsure
        cases r with
        | nil => exact absurd rfl hr
        | cons d r =>
          simp at hl
          have hn : Nx (a.pos.nxt.drop 1) (ahead u r) := by
            have := h.pos.nxt.drop 1
            rwa [show (fun i => ahead u (d :: r) (1 + i)) = ahead u r from ahead_drop (m := [d])] at this
          exact ⟨_, _, h.strict (s := [d]) (r' := r) rfl (by simp) hl hn (d := some 1) (by rintro k hk; cases hk; rfl)⟩
      · exact ⟨_, _, h.weak hl (Nx.nil _)⟩
    obtain ⟨l', r', key⟩ := key
    simp only []
    split
    · exact ⟨_, l', r', rfl, key⟩
    · exact ⟨_, l', r', rfl, key.left⟩
  · rw [if_neg he] at hl
    have hh : a.here.testBit q = true → False := fun hh => he (h.here q hh).symm
    simp only []
    rw [if_neg hh]
    refine ⟨_, l, r, rfl, Ok.right ?_⟩
    split
    · rename_i hle
      have := h.pos.le q hle
      exact (h.before (h.under (by omega))).move hl
    · exact h.move hl

end

end Oaks.Lc
