import Verif.Proofs.Scan

/-! Evaluating scanner programs: the laws used for every lexer, and the text cut piece by piece. -/
namespace Oaks
open Spec

namespace Scn

theorem eval_bind {α β : Type} (p : Scn α) (f : α → Scn β) (st : PSt) :
    (p >>= f).eval st = (p.eval st).bind fun x => (f x.1).eval x.2 := by
  change (Scn.bind p f).eval st = _
  induction p generalizing st with
  | ret a => simp [Scn.bind, eval]
  | peek k ih => simp only [Scn.bind, eval]; exact ih _ _ _
  | peekN n k ih =>
    simp only [Scn.bind, eval]
    split
    · exact ih _ _ _
    · rfl
  | starts w k ih => simp only [Scn.bind, eval]; exact ih _ _ _
  | adv n k ih =>
    simp only [Scn.bind, eval]
    split
    · exact ih _ _
    · rfl
  | text k ih => simp only [Scn.bind, eval]; exact ih _ _ _
  | moved k ih => simp only [Scn.bind, eval]; exact ih _ _ _
  | reset k ih => simp only [Scn.bind, eval]; exact ih _ _
  | mark k ih => simp only [Scn.bind, eval]; exact ih _ _
  | emit n k ih => simp only [Scn.bind, eval]; exact ih _ _
  | loop i b k ihb ihk =>
    simp only [Scn.bind, eval]
    split
    · exact ihk _ _ _
    · rfl
  | takeWhile w k ih => simp only [Scn.bind, eval]; exact ih _ _
  | space w u n k ih =>
    simp only [Scn.bind, eval]
    by_cases h : List.takeWhile (if u = true then w else isWs) st.r = []
    · rw [if_pos h, if_pos h]; exact ih _ _ _
    · rw [if_neg h, if_neg h]; exact ih _ _ _
  | quoted cfg n k ih =>
    simp only [Scn.bind, eval]
    cases st.r with
    | nil => exact ih _ _ _
    | cons q s =>
      simp only
      by_cases h : q ∈ cfg.quotes
      · rw [if_pos h, if_pos h]
        by_cases h' : cfg.escape = some q
        · rw [if_pos h', if_pos h']; rfl
        · rw [if_neg h', if_neg h']; exact ih _ _ _
      · rw [if_neg h, if_neg h]; exact ih _ _ _
  | comment cfg n n' k ih =>
    simp only [Scn.bind, eval]
    split
    · exact ih _ _ _
    · exact ih _ _ _
  | within n q k ihq ih =>
    simp only [Scn.bind, eval]
    split
    · exact ih _ _
    · rfl

theorem eval_pure {α : Type} (a : α) (st : PSt) : (pure a : Scn α).eval st = some (a, st) := rfl
theorem eval_ret {α : Type} (a : α) (st : PSt) : (ret a).eval st = some (a, st) := rfl
theorem eval_look (st : PSt) : look.eval st = some (st.r.head?, st) := rfl
theorem eval_sees (p : Str) (st : PSt) : (sees p).eval st = some (p.isPrefixOf st.r, st) := rfl
theorem eval_word (st : PSt) : word.eval st = some (st.m, st) := rfl
theorem eval_hasMoved (st : PSt) : hasMoved.eval st = some (decide (st.m ≠ []), st) := rfl
theorem eval_back (st : PSt) : back.eval st = some ((), ⟨st.done, [], st.m ++ st.r⟩) := rfl
theorem eval_here (st : PSt) : here.eval st = some ((), ⟨st.done ++ gap st.m, [], st.r⟩) := rfl
theorem eval_tok (k : Nat) (st : PSt) : (tok k).eval st = some ((), ⟨st.done ++ [(some k, st.m)], [], st.r⟩) := rfl
theorem eval_eatWhile (p : Char → Bool) (st : PSt) :
    (eatWhile p).eval st = some ((), ⟨st.done, st.m ++ st.r.takeWhile p, st.r.dropWhile p⟩) := rfl
theorem eval_covered (k : Nat) (p : Scn Bool) (st : PSt) :
    (covered k p).eval st = match p.eval ⟨st.done ++ gap st.m, [], st.r⟩ with
      | some (true, st') => some ((), ⟨st'.done ++ gap st'.m, [], st'.r⟩)
      | _ => none := rfl
theorem eval_lookN (n : Nat) (st : PSt) : (lookN n).eval st = (splitBytes n st.r).map fun x => (x.2.head?, st) := by
  unfold lookN
  rw [eval]
  cases splitBytes n st.r <;> rfl
theorem eval_skip (n : Nat) (st : PSt) :
    (skip n).eval st = (splitBytes n st.r).map fun x => ((), ⟨st.done, st.m ++ x.1, x.2⟩) := by
  unfold skip
  rw [eval]
  cases splitBytes n st.r <;> rfl
theorem eval_ite {α : Type} {c : Prop} [Decidable c] (p q : Scn α) (st : PSt) :
    (if c then p else q).eval st = if c then p.eval st else q.eval st := by
  split <;> rfl

/-- Passing one character: `advance(ch.len_utf8())`. -/
theorem eval_skip_char (c : Char) (s : Str) (d : List (Option Nat × Str)) (m : Str) :
    (skip c.utf8Size).eval ⟨d, m, c :: s⟩ = some ((), ⟨d, m ++ [c], s⟩) := by
  rw [eval_skip]; simp [splitBytes_char]

/-- Passing one byte: `advance(1)` at an ASCII character. -/
theorem eval_skip_one {c : Char} (h : c.utf8Size = 1) (s : Str) (d : List (Option Nat × Str)) (m : Str) :
    (skip 1).eval ⟨d, m, c :: s⟩ = some ((), ⟨d, m ++ [c], s⟩) := by
  rw [← h]; exact eval_skip_char c s d m

theorem loopEval_fuel (body : Nat → PSt → Option ((Bool × Nat) × PSt)) (f g i : Nat) (st : PSt) (hf : st.r.length < f) (hg : st.r.length < g) :
    loopEval body f i st = loopEval body g i st := by
  induction f generalizing g i st with
  | zero => omega
  | succ f ih =>
    obtain ⟨g, rfl⟩ : ∃ n, g = n + 1 := ⟨g - 1, by omega⟩
    rw [loopEval, loopEval]
    split
    · rfl
    · split
      · exact ih _ _ _ (by omega) (by omega)
      · rfl
    · rfl

/-- One turn of a loop. -/
theorem eval_while (i : Nat) (body : Nat → Scn (Bool × Nat)) (st : PSt) :
    (while_ i body).eval st = match (body i).eval st with
      | none => none
      | some ((true, s), st') => if st'.r.length < st.r.length then (while_ s body).eval st' else none
      | some ((false, s), st') => some (s, st') := by
  unfold while_
  rw [eval, loopEval]
  cases h : (body i).eval st with
  | none => rfl
  | some x =>
    obtain ⟨⟨b, s⟩, st'⟩ := x
    cases b with
    | false => simp only; rfl
    | true =>
      simp only
      by_cases hl : st'.r.length < st.r.length
      · rw [if_pos hl, if_pos hl, eval]
        rw [loopEval_fuel _ st.r.length (st'.r.length + 1) _ _ hl (by omega)]
      · rw [if_neg hl, if_neg hl]

theorem eval_whilePeek (p : Char → Bool) (n : Char → Nat) (hn : ∀ c, p c = true → n c = c.utf8Size) (st : PSt) :
    (whilePeek p n).eval st = some ((), ⟨st.done, st.m ++ st.r.takeWhile p, st.r.dropWhile p⟩) := by
  obtain ⟨d, m, r⟩ := st
  unfold whilePeek
  rw [eval_bind]
  suffices h : ∀ r m, (while_ 0 (peekTurn p n)).eval ⟨d, m, r⟩ = some (0, ⟨d, m ++ r.takeWhile p, r.dropWhile p⟩) by
    rw [h]; rfl
  clear r m
  intro r
  induction r with
  | nil =>
    intro m
    rw [eval_while, peekTurn, eval_bind, eval_look]
    simp [eval_pure]
  | cons c s ih =>
    intro m
    rw [eval_while, peekTurn, eval_bind, eval_look]
    simp only [List.head?_cons, Option.bind_some]
    by_cases hp : p c = true
    · rw [if_pos hp, eval_bind, hn c hp, eval_skip_char]
      simp [eval_pure, ih, hp]
    · rw [if_neg hp, eval_pure]
      simp [hp]

/-! ### Piece by piece -/

/-- A turn of the main loop on a text: the pieces, and the text after them. -/
def turn (step : Scn Next) (r : Str) : Option (List (Option Nat × Str) × Str) :=
  match step.eval ⟨[], [], r⟩ with
  | none => none
  | some (.again, p) => some (p.done ++ gap p.m, p.r)
  | some (.guard, p) =>
    if p.r.length = r.length then some (p.done ++ gap p.m ++ gap (p.r.take 1), p.r.drop 1) else some (p.done ++ gap p.m, p.r)
  | some (.stop, p) => if p.r = [] then some (p.done ++ gap p.m, p.r) else none

theorem cutLoop_turn {step : Scn Next} {fuel : Nat} {r r' : Str} {ps qs : List (Option Nat × Str)} {u : Str} (hr : r ≠ [])
    (h : turn step r = some (ps, r')) (hc : cutLoop step fuel r' = some (qs, u)) :
    cutLoop step (fuel + 1) r = some (ps ++ qs, u) := by
  unfold turn at h
  unfold cutLoop
  rw [if_neg hr]
  simp only
  cases he : step.eval ⟨[], [], r⟩ with
  | none => rw [he] at h; simp at h
  | some x =>
    obtain ⟨n, p⟩ := x
    rw [he] at h
    cases n with
    | again =>
      simp only [Option.some.injEq, Prod.mk.injEq] at h ⊢
      obtain ⟨rfl, rfl⟩ := h
      simp [hc]
    | guard =>
      simp only at h ⊢
      split at h
      · rename_i hl
        simp only [Option.some.injEq, Prod.mk.injEq] at h
        obtain ⟨rfl, rfl⟩ := h
        rw [if_pos hl, hc]
        simp
      · rename_i hl
        simp only [Option.some.injEq, Prod.mk.injEq] at h
        obtain ⟨rfl, rfl⟩ := h
        rw [if_neg hl]
        simp [hc]
    | stop =>
      simp only at h ⊢
      split at h
      · rename_i hl
        simp only [Option.some.injEq, Prod.mk.injEq] at h
        obtain ⟨rfl, rfl⟩ := h
        rw [hl] at hc ⊢
        unfold cutLoop at hc
        simp at hc
        simp [hc]
      · simp at h

theorem cutLoop_more {step : Scn Next} {fuel fuel' : Nat} {r : Str} {x : List (Option Nat × Str) × Str} (h : cutLoop step fuel r = some x)
    (hf : fuel ≤ fuel') : cutLoop step fuel' r = some x := by
  induction fuel generalizing fuel' r x with
  | zero =>
    unfold cutLoop at h ⊢
    split at h
    · rename_i hr; rw [if_pos hr]; exact h
    · simp at h
  | succ fuel ih =>
    obtain ⟨fuel', rfl⟩ : ∃ n, fuel' = n + 1 := ⟨fuel' - 1, by omega⟩
    unfold cutLoop at h ⊢
    split at h
    · rename_i hr; rw [if_pos hr]; exact h
    · rename_i hr
      rw [if_neg hr]
      simp only at h ⊢
      cases he : step.eval ⟨[], [], r⟩ with
      | none => rw [he] at h; simp at h
      | some y =>
        obtain ⟨n, p⟩ := y
        rw [he] at h
        cases n with
        | stop => exact h
        | again =>
          simp only [Option.map_eq_some_iff] at h ⊢
          obtain ⟨z, hz, rfl⟩ := h
          exact ⟨z, ih hz (by omega), rfl⟩
        | guard =>
          simp only at h ⊢
          split at h <;> rename_i hl
          · rw [if_pos hl]
            simp only [Option.map_eq_some_iff] at h ⊢
            obtain ⟨z, hz, rfl⟩ := h
            exact ⟨z, ih hz (by omega), rfl⟩
          · rw [if_neg hl]
            simp only [Option.map_eq_some_iff] at h ⊢
            obtain ⟨z, hz, rfl⟩ := h
            exact ⟨z, ih hz (by omega), rfl⟩

/-- A text cut into pieces, each of which is one turn, is cut so by the lexer. -/
theorem cut_of {step : Scn Next} {P : Option Nat → Str → Str → Prop}
    (hP : ∀ {k m r}, m ≠ [] → P k m r → turn step (m ++ r) = some ([(k, m)], r)) {t : Str} {ps : List (Option Nat × Str)}
    (h : Cut P t ps) : cut step t = some (ps, []) := by
  unfold cut
  induction h with
  | nil => unfold cutLoop; simp
  | cons hm hp _ ih =>
    rename_i k m rest ps _
    have h1 := hP hm hp
    have h2 := cutLoop_turn (fuel := rest.length) (by simp [hm]) h1 ih
    have hl := List.length_pos_iff.mpr hm
    exact cutLoop_more h2 (by simp; omega)

end Scn

/-- Where every text has a first piece, every text is cut. -/
theorem cut_exists {P : Option Nat → Str → Str → Prop} {G : Str → Prop} (hG : ∀ m r, G (m ++ r) → G r)
    (h : ∀ t, t ≠ [] → G t → ∃ k m r, t = m ++ r ∧ m ≠ [] ∧ P k m r) {t : Str} (ht : G t) : ∃ ps, Cut P t ps := by
  induction hn : t.length using Nat.strongRecOn generalizing t with
  | _ n ih =>
    by_cases h0 : t = []
    · subst h0; exact ⟨[], .nil⟩
    · obtain ⟨k, m, r, rfl, hm, hp⟩ := h t h0 ht
      have hl := List.length_pos_iff.mpr hm
      obtain ⟨ps, hps⟩ := ih r.length (by simp at hn; omega) (hG m r ht) rfl
      exact ⟨(k, m) :: ps, .cons hm hp hps⟩

end Oaks
