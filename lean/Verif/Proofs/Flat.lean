import Verif.Model.Flat
import Verif.Proofs.ParserAt

/-! Parsers with one node. -/
namespace Oaks
open Spec

section
variable {ign : Nat → Bool} {pre suf : List (Nat × Nat)} {gs : List Green} {errs : List PErr} {s : PState}

/-- `advance` drops a token and keeps the trivia after it. -/
theorem PAt.advance {t : Nat × Nat} {tri rest : List (Nat × Nat)} (h : PAt pre (t :: (tri ++ rest)) gs errs s)
    (ht : ∀ t ∈ tri, ign t.1 = true) (hr : ∀ t, rest.head? = some t → ign t.1 = false) :
    ∃ s', s.advance ign = .ok s' ∧ PAt (pre ++ t :: tri) rest (gs ++ tri.map leafOf) errs s' := by
  unfold PState.advance
  have h' : PAt (pre ++ [t]) (tri ++ rest) gs errs s.tokenAdvance :=
    ⟨by simp [PState.tokenAdvance, h.tokens], by simp [PState.tokenAdvance, h.index], h.sink, h.errors, h.inc⟩
  obtain ⟨s', h1, h2⟩ := h'.skipTrivia ht hr
  exact ⟨s', h1, by simpa using h2⟩

end

namespace FlatParser

/-- What the loop leaves of a token and its trivia. -/
def keepG (p : FlatParser) (g : Group) : List Green := if p.bumps then leavesG g else g.2.map leafOf

theorem loop_at (p : FlatParser) {pre : List (Nat × Nat)} {gs : List Green} {errs : List PErr} {s : PState} {rest : List Group}
    (h : PAt pre (flat rest) gs errs s) (hg : Grouped p.ign rest) {fuel : Nat} (hf : rest.length ≤ fuel) :
    ∃ s', p.loop fuel s = .ok s' ∧ PAt (pre ++ flat rest) [] (gs ++ rest.flatMap p.keepG) errs s' := by
  induction rest generalizing pre gs s fuel with
  | nil =>
    have hl := h.length
    have hi := h.index
    refine ⟨s, ?_, by simpa [flat] using h⟩
    unfold loop
    rw [if_neg (by simp [flat] at hl; omega)]
    rfl
  | cons g rest ih =>
    have hl := h.length
    have hi := h.index
    obtain ⟨n, rfl⟩ : ∃ n, fuel = n + 1 := ⟨fuel - 1, by simp at hf; omega⟩
    unfold loop
    rw [if_pos (by simp [flat] at hl; omega)]
    cases hb : p.bumps with
    | true =>
      obtain ⟨s1, h1, h2⟩ := h.bumpG hg
      obtain ⟨s2, h3, h4⟩ := ih h2 hg.tail (by simpa using hf)
      refine ⟨s2, ?_, ?_⟩
      · simp only [if_true, h1]; exact h3
      · simpa [flat, keepG, hb] using h4
    | false =>
      have h' : PAt pre (g.1 :: (g.2 ++ flat rest)) gs errs s := by simpa [flat] using h
      obtain ⟨s1, h1, h2⟩ := h'.advance (hg g List.mem_cons_self).2 hg.tail.head
      obtain ⟨s2, h3, h4⟩ := ih h2 hg.tail (by simpa using hf)
      refine ⟨s2, ?_, ?_⟩
      · simp only [Bool.false_eq_true, if_false, h1]; exact h3
      · simpa [flat, keepG, hb] using h4

theorem leavesOfList_leafOf (ts : List (Nat × Nat)) (hl : ∀ t ∈ ts, t.2 < 2 ^ 32) : leavesOfList (ts.map leafOf) = ts := by
  induction ts with
  | nil => rfl
  | cons t ts ih =>
    simp only [List.map_cons, leavesOfList, leafOf, leavesOf]
    rw [ih (fun t h => hl t (List.mem_cons_of_mem _ h)), Nat.mod_eq_of_lt (hl t List.mem_cons_self)]
    rfl

theorem lenSum_leafOf (ts : List (Nat × Nat)) (hl : ∀ t ∈ ts, t.2 < 2 ^ 32) : lenSum (ts.map leafOf) = (ts.map (·.2)).sum := by
  induction ts with
  | nil => rfl
  | cons t ts ih =>
    have := ih (fun t h => hl t (List.mem_cons_of_mem _ h))
    simp only [List.map_cons, lenSum] at this ⊢
    simp [leafOf, Green.len, Nat.mod_eq_of_lt (hl t List.mem_cons_self)] at this ⊢
    omega

theorem sum_filter_le (ts : List (Nat × Nat)) (f : Nat × Nat → Bool) : ((ts.filter f).map (·.2)).sum ≤ (ts.map (·.2)).sum := by
  induction ts with
  | nil => simp
  | cons t ts ih => rw [List.filter_cons]; split <;> simp <;> omega

theorem mem_le_sum {ts : List (Nat × Nat)} {t : Nat × Nat} (h : t ∈ ts) : t.2 ≤ (ts.map (·.2)).sum := by
  induction ts with
  | nil => simp at h
  | cons a ts ih =>
    rcases List.mem_cons.mp h with rfl | h
    · simp
    · have := ih h; simp; omega

/-- The tokens the root keeps. -/
def kept (p : FlatParser) (ts : List (Nat × Nat)) : List (Nat × Nat) :=
  (ts.dropWhile (fun t => p.ign t.1)).filter (fun t => p.bumps || p.ign t.1)

theorem keep_flat (p : FlatParser) {rest : List Group} (hg : Grouped p.ign rest) :
    rest.flatMap p.keepG = ((flat rest).filter (fun t => p.bumps || p.ign t.1)).map leafOf := by
  induction rest with
  | nil => rfl
  | cons g rest ih =>
    have h1 := (hg g List.mem_cons_self).1
    have h2 := (hg g List.mem_cons_self).2
    rw [List.flatMap_cons, ih hg.tail]
    simp only [flat, List.flatMap_cons, List.filter_append, List.map_append]
    congr 1
    cases hb : p.bumps with
    | true =>
      have : g.2.filter (fun _ => true) = g.2 := List.filter_eq_self.mpr (by simp)
      simp [keepG, hb, leavesG, this]
    | false =>
      have : g.2.filter (fun t => p.ign t.1) = g.2 := List.filter_eq_self.mpr h2
      simp [keepG, hb, h1, this]

theorem parse_at (p : FlatParser) {toks : List Tok} {n : Nat} (hl : (toks.map Tok.length).sum < 2 ^ 32) :
    ∃ cs, p.parse toks n = .ok (.node p.root ((p.kept (toks.map Tok.kl)).map (·.2)).sum cs, []) ∧
      leavesOfList cs = p.kept (toks.map Tok.kl) := by
  obtain ⟨tri, gs, h1, h2, h3⟩ := groups_exist p.ign (toks.map Tok.kl)
  obtain ⟨s, g1, g2⟩ := PAt.new (ign := p.ign) h1 h2 h3.head n
  have hk : p.kept (toks.map Tok.kl) = (flat gs).filter (fun t => p.bumps || p.ign t.1) := by
    unfold kept
    rw [h1, List.dropWhile_append_of_pos h2]
    congr 1
    have := h3.head
    cases hf : flat gs with
    | nil => rfl
    | cons a b => rw [List.dropWhile_cons_of_neg]; simp [this a (by simp [hf])]
  have hsum : (toks.map Tok.length).sum = ((tri ++ flat gs).map (·.2)).sum := by
    rw [← h1, List.map_map]; rfl
  have hsub : (((flat gs).filter (fun t => p.bumps || p.ign t.1)).map (·.2)).sum ≤ ((flat gs).map (·.2)).sum :=
    sum_filter_le _ _
  have hle : ((p.kept (toks.map Tok.kl)).map (·.2)).sum < 2 ^ 32 := by
    rw [hk]; rw [List.map_append, List.sum_append] at hsum; omega
  have heach : ∀ t ∈ p.kept (toks.map Tok.kl), t.2 < 2 ^ 32 := fun t ht =>
    Nat.lt_of_le_of_lt (mem_le_sum ht) hle
  obtain ⟨s1, g3, g4⟩ := p.loop_at g2 h3 (fuel := s.tokens.length - s.index) (by
    rw [g2.left]; exact length_le_flat gs)
  rw [keep_flat p h3, ← hk] at g4
  obtain ⟨e, s2, g5, g6, g7⟩ := g4.finish s.checkpoint (by simp [PState.checkpoint, g2.sink_length]) p.root
    (by rw [lenSum_leafOf _ heach]; exact hle)
  refine ⟨(p.kept (toks.map Tok.kl)).map leafOf, ?_, leavesOfList_leafOf _ heach⟩
  unfold parse
  rw [g1]
  simp only [run_bind_ok, g3, g5]
  rw [← lenSum_leafOf _ heach, g6, g7.errors]
  rfl

end FlatParser
end Oaks
