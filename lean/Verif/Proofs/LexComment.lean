import Verif.Proofs.Lexer

/-! Comments: the character-level loop of `CommentConfig` and the byte-level loop of `scan_block_comment`. -/
namespace Oaks
open Spec

/-! ### Reading marks -/

theorem reads_text {o c : Str} {s : Str} {ms : List Mark} (h : Reads o c s ms) : markText o c ms = s := by
  induction h with
  | nil => rfl
  | opens _ ih => simp [markText, ih]
  | closes _ _ ih => simp [markText, ih]
  | char _ _ _ ih => simp [markText, ih]

theorem reads_exists (o c : Str) (ho : o ≠ []) (hc : c ≠ []) (n : Nat) (s : Str) (hn : s.length ≤ n) : ∃ ms, Reads o c s ms := by
  induction n generalizing s with
  | zero => obtain rfl : s = [] := List.length_eq_zero_iff.mp (by omega)
            exact ⟨[], .nil⟩
  | succ n ih =>
    cases s with
    | nil => exact ⟨[], .nil⟩
    | cons x s =>
      have hol := List.length_pos_iff.mpr ho
      have hcl := List.length_pos_iff.mpr hc
      by_cases h1 : o <+: x :: s
      · obtain ⟨r, hr⟩ := h1
        have := congrArg List.length hr
        simp at this hn
        obtain ⟨ms, hm⟩ := ih r (by omega)
        exact ⟨.opens :: ms, hr ▸ .opens hm⟩
      · by_cases h2 : c <+: x :: s
        · obtain ⟨r, hr⟩ := h2
          have := congrArg List.length hr
          simp at this hn
          obtain ⟨ms, hm⟩ := ih r (by omega)
          exact ⟨.closes :: ms, hr ▸ .closes (by rw [hr]; exact h1) hm⟩
        · obtain ⟨ms, hm⟩ := ih s (by simp at hn; omega)
          exact ⟨.char x :: ms, .char h1 h2 hm⟩

/-- Where a comment at depth `d` ends. -/
def Stops (o c : Str) (d : Nat) (pieces : List Mark) (m : Str) : Prop :=
  (∃ inside rest, pieces = inside ++ rest ∧ m = markText o c inside ∧
      inside.count .closes = inside.count .opens + d ∧
      ∀ a b, inside = a ++ b → b ≠ [] → a.count .closes < a.count .opens + d) ∨
    ((∀ a b, pieces = a ++ b → a.count .closes < a.count .opens + d) ∧ m = markText o c pieces)

theorem stops_zero (o c : Str) (pieces : List Mark) : Stops o c 0 pieces [] :=
  .inl ⟨[], pieces, rfl, rfl, rfl, fun a b h hb => absurd (List.append_eq_nil_iff.mp h.symm).2 hb⟩

theorem stops_nil (o c : Str) (d : Nat) : Stops o c (d + 1) [] [] := by
  refine .inr ⟨?_, rfl⟩
  intro a b h
  obtain ⟨rfl, rfl⟩ := List.append_eq_nil_iff.mp h.symm
  simp

theorem stops_cons {o c : Str} {d d' : Nat} {x : Mark} {pieces : List Mark} {m : Str} (hd : 0 < d)
    (hx : ∀ a : List Mark, ((x :: a).count .closes < (x :: a).count .opens + d ↔ a.count .closes < a.count .opens + d') ∧
      ((x :: a).count .closes = (x :: a).count .opens + d ↔ a.count .closes = a.count .opens + d'))
    (h : Stops o c d' pieces m) : Stops o c d (x :: pieces) (markText o c [x] ++ m) := by
  have ht : ∀ ms, markText o c (x :: ms) = markText o c [x] ++ markText o c ms := by
    intro ms; cases x <;> simp [markText]
  rcases h with ⟨inside, rest, h1, h2, h3, h4⟩ | ⟨h1, h2⟩
  · refine .inl ⟨x :: inside, rest, by simp [h1], by rw [h2]; exact (ht inside).symm, ((hx _).2).mpr h3, ?_⟩
    intro a b hab hb
    cases a with
    | nil => simp; omega
    | cons y a =>
      simp only [List.cons_append, List.cons.injEq] at hab
      obtain ⟨rfl, hab⟩ := hab
      exact ((hx a).1).mpr (h4 a b hab hb)
  · refine .inr ⟨?_, by rw [h2]; exact (ht pieces).symm⟩
    intro a b hab
    cases a with
    | nil => simp; omega
    | cons y a =>
      simp only [List.cons_append, List.cons.injEq] at hab
      obtain ⟨rfl, hab⟩ := hab
      exact ((hx a).1).mpr (h1 a b hab)

theorem isPrefixOf_eq (p s : Str) : p.isPrefixOf s = decide (p <+: s) := by
  rw [Bool.eq_iff_iff, isPrefixOf_iff, decide_eq_true_eq]
  exact ⟨fun ⟨r, h⟩ => ⟨r, h.symm⟩, fun ⟨r, h⟩ => ⟨r, h.symm⟩⟩

section
variable {src : Source} {t : Str} (hs : Supplied src t) {l r : Str} {toks : List Tok} {st : Lex}
include hs

/-- The loop with nesting. -/
theorem nested_loop (cfg : CommentCfg) (hn : cfg.nested = true) (ho : cfg.opener ≠ []) (hc : cfg.close ≠ [])
    (fuel d : Nat) (h : LexAt src t l r toks st) (hf : blen r < fuel) :
    ∃ pieces m r' st', Reads cfg.opener cfg.close r pieces ∧ cfg.loop src fuel d st = .ok st' ∧ r = m ++ r' ∧
      LexAt src t (l ++ m) r' toks st' ∧ Stops cfg.opener cfg.close d pieces m := by
  induction fuel generalizing l r st d with
  | zero => omega
  | succ fuel ih =>
    have hol := blen_pos ho
    have hcl := blen_pos hc
    unfold CommentCfg.loop
    rw [h.notAtEnd hs]
    rcases Nat.eq_zero_or_pos d with rfl | hd
    · obtain ⟨ps, hp⟩ := reads_exists _ _ ho hc _ r (Nat.le_refl _)
      exact ⟨ps, [], r, st, hp, by simp, rfl, by simpa using h, stops_zero _ _ _⟩
    · by_cases hr : r = []
      · subst hr
        obtain ⟨d, rfl⟩ : ∃ k, d = k + 1 := ⟨d - 1, by omega⟩
        exact ⟨[], [], [], st, .nil, by simp, rfl, by simpa using h, stops_nil _ _ _⟩
      · rw [if_pos (by simp [hd, hr])]
        obtain ⟨st1, h1, h2⟩ := startsWith_at hs h cfg.opener
        simp only [hn, ho, ne_eq, not_false_eq_true, decide_true, Bool.and_self, if_true, h1, run_bind_ok]
        by_cases hpo : cfg.opener.isPrefixOf r = true
        · rw [if_pos hpo]
          obtain ⟨s, rfl⟩ := isPrefixOf_iff.mp hpo
          obtain ⟨ps, m, r', st', g1, g2, g3, g4, g5⟩ := ih (d + 1) (advance_at hs h2) (by simp at hf; omega)
          refine ⟨.opens :: ps, cfg.opener ++ m, r', st', .opens g1, g2, by rw [g3]; simp, by simpa using g4, ?_⟩
          have := stops_cons (x := .opens) (d := d) hd (fun a => by simp; omega) g5
          simpa [markText] using this
        · rw [if_neg hpo]
          have hno : ¬ cfg.opener <+: r := fun hh => hpo (by rw [isPrefixOf_eq]; simpa using hh)
          obtain ⟨st2, k1, k2⟩ := startsWith_at hs h2 cfg.close
          simp only [hc, not_false_eq_true, if_true, k1, run_bind_ok]
          by_cases hpc : cfg.close.isPrefixOf r = true
          · rw [if_pos hpc]
            obtain ⟨s, rfl⟩ := isPrefixOf_iff.mp hpc
            obtain ⟨ps, m, r', st', g1, g2, g3, g4, g5⟩ := ih (d - 1) (advance_at hs k2) (by simp at hf; omega)
            refine ⟨.closes :: ps, cfg.close ++ m, r', st', .closes hno g1, g2, by rw [g3]; simp, by simpa using g4, ?_⟩
            have := stops_cons (x := .closes) (d := d) hd (fun a => by simp; omega) g5
            simpa [markText] using this
          · rw [if_neg hpc]
            have hnc : ¬ cfg.close <+: r := fun hh => hpc (by rw [isPrefixOf_eq]; simpa using hh)
            obtain ⟨st3, j1, j2⟩ := peek_at hs k2
            simp only [j1, run_bind_ok]
            cases r with
            | nil => exact absurd rfl hr
            | cons x s =>
              have := utf8Size_pos x
              obtain ⟨ps, m, r', st', g1, g2, g3, g4, g5⟩ := ih d (advance_char hs j2) (by simp at hf; omega)
              refine ⟨.char x :: ps, x :: m, r', st', .char hno hnc g1, g2, by rw [g3]; simp, by simpa using g4, ?_⟩
              have := stops_cons (x := .char x) (d := d) hd (fun a => by simp) g5
              simpa [markText] using this

/-- The loop without nesting, at depth one. -/
theorem plain_loop (cfg : CommentCfg) (hn : cfg.nested = false) (hc : cfg.close ≠ [])
    (fuel : Nat) (h : LexAt src t l r toks st) (hf : blen r < fuel) :
    ∃ m r' st', cfg.loop src fuel 1 st = .ok st' ∧ r = m ++ r' ∧ LexAt src t (l ++ m) r' toks st' ∧
      ((∃ body, m = body ++ cfg.close ∧ ∀ a b, r = a ++ cfg.close ++ b → body.length ≤ a.length) ∨
        ((∀ a b, r ≠ a ++ cfg.close ++ b) ∧ m = r)) := by
  induction fuel generalizing l r st with
  | zero => omega
  | succ fuel ih =>
    have hcl := blen_pos hc
    unfold CommentCfg.loop
    rw [h.notAtEnd hs]
    by_cases hr : r = []
    · subst hr
      refine ⟨[], [], st, by simp, rfl, by simpa using h, .inr ⟨?_, rfl⟩⟩
      intro a b hab
      have := congrArg List.length hab
      have := List.length_pos_iff.mpr hc
      simp at *; omega
    · rw [if_pos (by simp [hr])]
      obtain ⟨st2, k1, k2⟩ := startsWith_at hs h cfg.close
      simp only [hn, Bool.false_and, Bool.false_eq_true, if_false, run_pure, run_bind_ok, hc, ne_eq, not_false_eq_true,
        if_true, k1]
      by_cases hpc : cfg.close.isPrefixOf r = true
      · rw [if_pos hpc]
        obtain ⟨s, rfl⟩ := isPrefixOf_iff.mp hpc
        refine ⟨cfg.close, s, _, ?_, rfl, advance_at hs k2, .inl ⟨[], rfl, by simp⟩⟩
        cases fuel with
        | zero => simp at hf; omega
        | succ fuel => unfold CommentCfg.loop; simp
      · rw [if_neg hpc]
        have hnc : ∀ b, r ≠ cfg.close ++ b := fun b hh => hpc (isPrefixOf_iff.mpr ⟨b, hh⟩)
        obtain ⟨st3, j1, j2⟩ := peek_at hs k2
        simp only [j1, run_bind_ok]
        cases r with
        | nil => exact absurd rfl hr
        | cons x s =>
          have := utf8Size_pos x
          obtain ⟨m, r', st', g2, g3, g4, g5⟩ := ih (advance_char hs j2) (by simp at hf; omega)
          refine ⟨x :: m, r', st', g2, by rw [g3]; simp, by simpa using g4, ?_⟩
          have hsplit : ∀ a b, x :: s = a ++ cfg.close ++ b → ∃ a', a = x :: a' ∧ s = a' ++ cfg.close ++ b := by
            intro a b hab
            cases a with
            | nil => exact absurd (by simpa using hab) (hnc b)
            | cons y a =>
              simp only [List.cons_append, List.cons.injEq] at hab
              exact ⟨a, by rw [hab.1], hab.2⟩
          rcases g5 with ⟨body, rfl, g5⟩ | ⟨g5, rfl⟩
          · refine .inl ⟨x :: body, rfl, ?_⟩
            intro a b hab
            obtain ⟨a', rfl, ha⟩ := hsplit a b hab
            have := g5 a' b ha
            simp; omega
          · refine .inr ⟨?_, rfl⟩
            intro a b hab
            obtain ⟨a', rfl, ha⟩ := hsplit a b hab
            exact g5 a' b ha

/-- Without a closing marker: everything to the end. -/
theorem open_loop (cfg : CommentCfg) (hc : cfg.close = []) (fuel d : Nat) (hd : 0 < d)
    (h : LexAt src t l r toks st) (hf : blen r < fuel) :
    ∃ st', cfg.loop src fuel d st = .ok st' ∧ LexAt src t (l ++ r) [] toks st' := by
  induction fuel generalizing l r st d with
  | zero => omega
  | succ fuel ih =>
    unfold CommentCfg.loop
    rw [h.notAtEnd hs]
    by_cases hr : r = []
    · subst hr
      exact ⟨st, by simp, by simpa using h⟩
    · rw [if_pos (by simp [hr, hd])]
      have hchar : ∀ st1, LexAt src t l r toks st1 → ∃ st', (do
          let (st, c) ← if cfg.close ≠ [] then st1.startsWith src cfg.close else pure (st1, false)
          if c then cfg.loop src fuel (d - 1) (st.advance src (blen cfg.close))
          else do
            let (st, ch) ← st.peek src
            match ch with
            | some ch => cfg.loop src fuel d (st.advance src ch.utf8Size)
            | none => cfg.loop src fuel d st : Run Lex) = .ok st' ∧ LexAt src t (l ++ r) [] toks st' := by
        intro st1 h1
        obtain ⟨st3, j1, j2⟩ := peek_at hs h1
        simp only [hc, ne_eq, not_true_eq_false, if_false, run_pure, run_bind_ok, Bool.false_eq_true, j1]
        cases r with
        | nil => exact absurd rfl hr
        | cons x s =>
          have := utf8Size_pos x
          obtain ⟨st', g2, g4⟩ := ih d hd (advance_char hs j2) (by simp at hf; omega)
          exact ⟨st', g2, by simpa using g4⟩
      by_cases htry : (cfg.nested && decide (cfg.opener ≠ [])) = true
      · obtain ⟨st1, h1, h2⟩ := startsWith_at hs h cfg.opener
        simp only [htry, if_true, h1, run_bind_ok]
        by_cases hpo : cfg.opener.isPrefixOf r = true
        · rw [if_pos hpo]
          obtain ⟨s, rfl⟩ := isPrefixOf_iff.mp hpo
          simp at htry
          have := blen_pos htry.2
          obtain ⟨st', g2, g4⟩ := ih (d + 1) (by omega) (advance_at hs h2) (by simp at hf; omega)
          exact ⟨st', g2, by simpa using g4⟩
        · rw [if_neg hpo]
          exact hchar st1 h2
      · rw [Bool.not_eq_true] at htry
        simp only [htry, Bool.false_eq_true, if_false, run_pure, run_bind_ok]
        exact hchar st h

end

end Oaks
