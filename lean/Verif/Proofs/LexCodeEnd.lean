import Verif.Proofs.LexCode

/-! What a lexer that passes does with a text. -/
namespace Oaks.Lc
open Spec

section
variable {u : Uni} {src : Source} {t : Str} {m : Mode} {ω : Nat → Nat}

theorem slice_of {a b : Nat} (ha : Boundary t a) (hb : Boundary t b) (hab : a ≤ b) : ∃ s, IsSlice t a b s := by
  obtain ⟨l, r, rfl, rfl⟩ := ha
  obtain ⟨l', r', h, rfl⟩ := hb
  rcases List.append_eq_append_iff.mp h with ⟨s, rfl, rfl⟩ | ⟨s, rfl, rfl⟩
  · exact ⟨s, l, r', by simp, rfl, by simp⟩
  · have : s = [] := by
      cases s with
      | nil => rfl
      | cons c s => have := blen_pos (s := c :: s) (by simp); simp at hab this; omega
    subst this
    exact ⟨[], l', r, by simp, by simp, by simp⟩

theorem tile_lossless {ks : List Tok} {z : Nat} (h : TileTo ks z) (hw : ∀ k ∈ ks, Boundary t k.start ∧ Boundary t k.stop)
    (ho : ∀ k ∈ ks, k.start ≤ k.stop) : ∃ texts, List.Forall₂ (Piece t) ks texts ∧ ∃ r, t = texts.flatten ++ r ∧ z = blen texts.flatten := by
  induction h with
  | nil => exact ⟨[], .nil, t, rfl, rfl⟩
  | @snoc ks a k _ ha ih =>
    obtain ⟨texts, h1, r, h2, h3⟩ := ih (fun k hk => hw k (by simp [hk])) (fun k hk => ho k (by simp [hk]))
    have hk : k ∈ ks ++ [k] := by simp
    obtain ⟨s, l', r', g1, g2, g3⟩ := slice_of (hw k hk).1 (hw k hk).2 (ho k hk)
    have : l' = texts.flatten ∧ s ++ r' = r := by
      apply split_unique
      · rw [← List.append_assoc, ← g1, h2]
      · rw [g2, ha, h3]
    obtain ⟨rfl, rfl⟩ := this
    refine ⟨texts ++ [s], ?_, r', by rw [g1]; simp, by rw [← g3]; simp⟩
    exact List.rel_append h1 (.cons ⟨_, r', g1, g2, g3⟩ .nil)

theorem passes_sound (hs : Supplied src t) {p : Code} (hp : passes m p = true) (u : Uni) (ω : Nat → Nat) :
    ∃ toks, scanAll src u ω p = .ok toks ∧ TokOk t m toks ∧ (m.tile = true → TileTo toks (blen t)) := by
  unfold passes at hp
  split at hp
  · cases hp
  rename_i o ho
  obtain ⟨lex, e1, e2⟩ := lex_new hs
  have hstart : Ok u src t m start ⟨lex, fun _ => 0, 0⟩ [] t [] := by
    refine ⟨e2, ⟨Nx.nil _, fun _ => rfl, fun _ => Nat.le_refl _, ?_, ?_⟩, ?_, by simp [start], by simp [start], by simp [start], ?_⟩
    · intro q hq; simp [start] at hq
    · intro q hq; simp [start] at hq
    · intro q hq; simp [start] at hq
    · exact ⟨by simp, fun _ => ⟨List.Pairwise.nil, by simp⟩, fun _ => .nil, by simp⟩
  obtain ⟨st, out, f1, f2, -⟩ := check_right (ω := ω) hs p start o _ _ _ _ ho hstart
  simp only [Bool.and_eq_true, Option.isNone_iff_eq_none] at hp
  obtain ⟨⟨⟨⟨hb, hc⟩, hx⟩, hy⟩, hend⟩ := hp
  have hj : Holds u src t m (joinO o.t o.f) st := by
    cases out with
    | val v => cases v with
      | true => exact Holds.left f2
      | false => exact Holds.right f2
    | brk => obtain ⟨_, _, _, _, h, _⟩ := f2; simp only [Outs.pick, hb] at h; cases h
    | cont => obtain ⟨_, _, _, _, h, _⟩ := f2; simp only [Outs.pick, hc] at h; cases h
    | ret v =>
      obtain ⟨_, _, _, _, h, _⟩ := f2
      cases v with
      | true => simp only [Outs.pick, hx] at h; cases h
      | false => simp only [Outs.pick, hy] at h; cases h
  obtain ⟨a, l, r, toks, ha, h⟩ := hj
  refine ⟨toks, by simp only [scanAll, e1, f1, run_bind_ok, h.lex.toks]; rfl, h.toks, fun hm => ?_⟩
  rw [ha, hm] at hend
  simp only [Bool.not_true, Bool.false_or, Bool.and_eq_true] at hend
  have h0 := h.pos.nxt.at 0
  have hz : h.pos.nxt = h.pos.nxt := rfl
  have : ahead u r 0 = 0 := by
    have h1 : (1 : Nat).testBit (ahead u r 0) = true := by
      have := Nat.eq_of_beq_eq_true hend.2
      rw [← this]; exact h0
    rw [tb_one] at h1
    simpa [eq_comm] using h1
  have hr : r = [] := by simpa using ahead_zero.mp this
  subst hr
  have he := h.pos.e hend.1
  have := h.toks.tile hm
  rw [← he] at this
  rw [h.lex.cur.text]
  simpa using this

/-- A lexer that passes ends on every text. -/
theorem passes_ends (hs : Supplied src t) {p : Code} (hp : passes m p = true) (u : Uni) (ω : Nat → Nat) :
    ∃ toks, scanAll src u ω p = .ok toks := by
  obtain ⟨toks, h, _⟩ := passes_sound hs hp u ω
  exact ⟨toks, h⟩

/-- Its tokens stand for pieces of the text, in order. -/
theorem passes_pieces (hs : Supplied src t) {p : Code} (hp : passes m p = true) (hm : m.order = true) {u : Uni} {ω : Nat → Nat} {toks : List Tok}
    (h : scanAll src u ω p = .ok toks) : (∀ k ∈ toks, ∃ s, Piece t k s) ∧ InOrder toks := by
  obtain ⟨toks', h1, h2, _⟩ := passes_sound hs hp u ω
  rw [h] at h1; cases h1
  exact ⟨fun k hk => slice_of (h2.whole k hk).1 (h2.whole k hk).2 ((h2.order hm).2 k hk).1, (h2.order hm).1⟩

/-- None of its tokens is empty. -/
theorem passes_proper (hs : Supplied src t) {p : Code} (hp : passes m p = true) (hm : m.proper = true) {u : Uni} {ω : Nat → Nat} {toks : List Tok}
    (h : scanAll src u ω p = .ok toks) : ∀ k ∈ toks, ∃ s, s ≠ [] ∧ Piece t k s := by
  obtain ⟨toks', h1, h2, _⟩ := passes_sound hs hp u ω
  rw [h] at h1; cases h1
  intro k hk
  have := h2.proper hm k hk
  obtain ⟨s, l, r, g1, g2, g3⟩ := slice_of (h2.whole k hk).1 (h2.whole k hk).2 (by omega)
  refine ⟨s, ?_, l, r, g1, g2, g3⟩
  rintro rfl
  simp at g3
  omega

/-- Its tokens are the text, cut into pieces. -/
theorem passes_lossless (hs : Supplied src t) {p : Code} (hp : passes m p = true) (ho : m.order = true) (hm : m.tile = true) {u : Uni} {ω : Nat → Nat}
    {toks : List Tok} (h : scanAll src u ω p = .ok toks) : Lossless t toks := by
  obtain ⟨toks', h1, h2, h3⟩ := passes_sound hs hp u ω
  rw [h] at h1; cases h1
  obtain ⟨texts, g1, r, g2, g3⟩ := tile_lossless (h3 hm) h2.whole (fun k hk => ((h2.order ho).2 k hk).1)
  refine ⟨texts, g1, ?_⟩
  cases r with
  | nil => simpa using g2.symm
  | cons c r =>
    have := blen_pos (s := c :: r) (by simp)
    have g4 : blen t = blen texts.flatten + blen (c :: r) := by rw [g2]; simp
    omega

end

end Oaks.Lc
