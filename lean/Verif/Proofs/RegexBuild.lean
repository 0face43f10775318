import Verif.Proofs.RegexParse

/-! The parser of regular expressions always ends; what the builder makes of its tree. -/
namespace Oaks
open Spec

namespace Regex

theorem expect_cases {s : PState} (k : Nat) : ∃ b s', s.expect ign k = .ok (b, s') ∧ s'.tokens = s.tokens ∧ s.index ≤ s'.index ∧
    ∃ τ, s'.sink = s.sink ++ τ := by
  by_cases h : s.peekKind = some k
  · cases hc : s.current with
    | none => simp [PState.peekKind, hc] at h
    | some t =>
      obtain rfl : t.kind = k := by simpa [PState.peekKind, hc] using h
      exact ⟨_, _, expect_some hc, rfl, by simp [bumped], [leafEntry t], rfl⟩
  · exact ⟨_, _, expect_other h, rfl, Nat.le_refl _, [], by simp [PState.record]⟩

/-- A node as the parser makes them. -/
def Made (e : Entry) : Prop := e.isNodeAt e.addr = true ∧ ∃ k w cs, e.tree = .node k w cs ∧ (k = pattern ∨ k = error)

/-- Either it panics, or there is one node more at the end of the sink, behind others. -/
def Fine (s : PState) : Run (Entry × PState) → Prop
  | .error e => e = .panic
  | .ok (left, s') => s'.tokens = s.tokens ∧ s.index ≤ s'.index ∧ (s.index < s.tokens.length → s.index < s'.index) ∧
      ∃ τ, s'.sink = s.sink ++ τ ++ [left] ∧ Made left

/-- `finish_at` after some tokens. -/
theorem finish_fine {s s1 : PState} {k : Nat} {τ : List Entry} (hk : k = pattern ∨ k = error) (ht : s1.tokens = s.tokens)
    (hi : s.index ≤ s1.index) (hp : s.index < s.tokens.length → s.index < s1.index) (hs : s1.sink = s.sink ++ τ) :
    Fine s (s1.finishAt s.checkpoint k) := by
  rw [PState.checkpoint, finishAt_cases hs]
  split
  · exact ⟨ht, hi, hp, [], by simp, by simp [Entry.isNodeAt], _, _, _, rfl, hk⟩
  · rfl

theorem classLoop_fine (fuel : Nat) (s : PState) (hf : s.tokens.length - s.index ≤ fuel) :
    ∃ s', classLoop fuel s = .ok s' ∧ s'.tokens = s.tokens ∧ s.index ≤ s'.index ∧ s'.sink = s.sink := by
  induction fuel generalizing s with
  | zero =>
    unfold classLoop
    rw [if_neg (by simp; omega)]
    exact ⟨s, rfl, rfl, Nat.le_refl _, rfl⟩
  | succ fuel ih =>
    unfold classLoop
    split
    · simp only [advance_eq, run_bind_ok]
      obtain ⟨s', h1, h2, h3, h4⟩ := ih s.tokenAdvance (by simp [PState.tokenAdvance]; omega)
      exact ⟨s', h1, h2, by simp [PState.tokenAdvance] at h3; omega, h4⟩
    · exact ⟨s, rfl, rfl, Nat.le_refl _, rfl⟩

theorem bump_cases (s : PState) : ∃ s', s.bump ign = .ok s' ∧ s'.tokens = s.tokens ∧ s.index ≤ s'.index ∧
    (s.index < s.tokens.length → s.index < s'.index) ∧ ∃ τ, s'.sink = s.sink ++ τ := by
  cases hc : s.current with
  | none =>
    refine ⟨s, bump_none hc, rfl, Nat.le_refl _, fun h => ?_, [], by simp⟩
    rw [PState.current, List.getElem?_eq_none_iff] at hc
    omega
  | some t => exact ⟨_, bump_some hc, rfl, by simp [bumped], fun _ => by simp [bumped], [leafEntry t], rfl⟩

theorem prefix_fine {pe : PState → Nat → Run (Entry × PState)} {s : PState}
    (hpe : ∀ s' min, s'.tokens = s.tokens → s.index < s'.index → Fine s' (pe s' min)) : Fine s (prefix_ pe s) := by
  obtain ⟨s1, b1, b2, b3, b4, τ, b5⟩ := bump_cases s
  unfold prefix_ primary
  simp only [b1, run_bind_ok]
  split
  · exact finish_fine (by simp) b2 b3 b4 b5
  split
  · rw [advance_eq, run_bind_ok]
    exact finish_fine (by simp) b2 (by simp [PState.tokenAdvance]; omega) (fun h => by simp [PState.tokenAdvance]; omega) b5
  split
  · exact finish_fine (by simp) b2 b3 b4 b5
  split
  · rename_i h
    have hlt : s.index < s.tokens.length := by
      cases hc : s.current with
      | none => simp [PState.peekKind, hc] at h
      | some t => exact (List.getElem?_eq_some_iff.mp hc).1
    have := hpe s1 0 b2 (b4 hlt)
    cases hx : pe s1 0 with
    | error e => rw [hx] at this; cases this; rfl
    | ok x =>
      obtain ⟨left, s2⟩ := x
      rw [hx] at this
      obtain ⟨c1, c2, c3, τ2, c4, c5⟩ := this
      obtain ⟨b, s3, d1, d2, d3, τ3, d4⟩ := expect_cases (s := s2) rparen
      simp only [run_bind_ok, d1]
      have := b4 hlt
      refine finish_fine (.inl rfl) (τ := τ ++ (τ2 ++ ([left] ++ τ3))) (d2.trans (c1.trans b2)) (by omega) (fun _ => by omega) ?_
      rw [d4, c4, b5]; simp
  split
  · obtain ⟨s2, c1, c2, c3, c4⟩ := classLoop_fine (s1.tokens.length - s1.index) s1 (Nat.le_refl _)
    obtain ⟨b, s3, d1, d2, d3, τ3, d4⟩ := expect_cases (s := s2) rbrack
    simp only [c1, run_bind_ok, d1]
    refine finish_fine (.inl rfl) (τ := τ ++ τ3) (d2.trans (c2.trans b2)) (by omega) (fun h => ?_) ?_
    · have := b4 h; omega
    · rw [d4, c4, b5]; simp
  · exact finish_fine (by simp) b2 b3 b4 b5

/-- A pattern that begins with a node. -/
def Twofold (e : Entry) : Prop := ∃ w k w' cs' rest, e.tree = .node pattern w (.node k w' cs' :: rest) ∧ (k = pattern ∨ k = error)

/-- Wrapping the node at the end of the sink, and what follows it. -/
theorem wrap_last {s : PState} {σ τ : List Entry} {left : Entry} {i : Nat} (hs : s.sink = σ ++ left :: τ) (hn : Made left) :
    s.finishAt (i, σ.length) pattern = .error .panic ∨ ∃ e s', s.finishAt (i, σ.length) pattern = .ok (e, s') ∧ s'.tokens = s.tokens ∧
      s'.index = s.index ∧ s'.sink = σ ++ [e] ∧ Made e ∧ Twofold e := by
  rw [finishAt_cases hs]
  split
  · obtain ⟨_, k, w, cs, hl, hk⟩ := hn
    exact .inr ⟨_, _, rfl, rfl, rfl, rfl, ⟨by simp [Entry.isNodeAt], _, _, _, rfl, .inl rfl⟩, _, k, w, cs, τ.map Entry.tree,
      by simp [hl]; rfl, hk⟩
  · exact .inl rfl

theorem infix_fine {pe : PState → Nat → Run (Entry × PState)} {s : PState} {σ : List Entry} {left : Entry} {min : Nat}
    (hpe : ∀ s' min, s'.tokens = s.tokens → s.index < s'.index → Fine s' (pe s' min)) (hs : s.sink = σ ++ [left])
    (hn : Made left) :
    infix_ pe s left min = .error .panic ∨ (infix_ pe s left min = .ok none ∧ Stops min (s.tokens.drop s.index)) ∨
      ∃ e s' τ, infix_ pe s left min = .ok (some (e, s')) ∧ s'.tokens = s.tokens ∧ s.index < s'.index ∧ s.index < s.tokens.length ∧
        s'.sink = σ ++ τ ++ [e] ∧ Made e ∧ Twofold e := by
  cases hd : s.tokens.drop s.index with
  | nil => exact .inr (.inl ⟨infix_stop hd (fun t ht => by simp at ht), fun t ht => by simp at ht⟩)
  | cons t r =>
    have hc := current_of_drop hd
    have hlt : s.index < s.tokens.length := (List.getElem?_eq_some_iff.mp hc).1
    by_cases hst : Stops min (t :: r)
    · exact .inr (.inl ⟨infix_stop hd hst, hst⟩)
    unfold infix_ PState.peekKind
    rw [hc]
    simp only [Option.map_some]
    by_cases hp : t.kind = pipe
    · have hmin : ¬ 1 < min := by
        intro h
        apply hst
        intro t' ht'
        obtain rfl : t = t' := by simpa using ht'
        exact ⟨fun _ => h, fun hq => by rw [hp] at hq; simp [pipe, question, star, plus] at hq⟩
      rw [if_pos hp, if_neg hmin]
      unfold prattBinary
      have he := expect_some hc
      rw [hp] at he
      rw [checkpointBefore_last hs hn.1, he]
      simp only [run_bind_ok, nextPrec]
      rw [if_pos (by omega)]
      simp only [run_bind_ok]
      have := hpe (bumped s t) 2 rfl (by simp [bumped])
      cases hx : pe (bumped s t) 2 with
      | error e => rw [hx] at this; cases this; exact .inl rfl
      | ok x =>
        obtain ⟨right, s2⟩ := x
        rw [hx] at this
        obtain ⟨c1, c2, c3, τ2, c4, c5⟩ := this
        simp only [run_bind_ok]
        have hsk : s2.sink = σ ++ left :: (leafEntry t :: (τ2 ++ [right])) := by rw [c4]; simp [bumped, hs]
        rcases wrap_last (i := 0) hsk hn with h | ⟨e, s', h1, h2, h3, h4, h5, h6⟩
        · rw [h]; exact .inl rfl
        · refine .inr (.inr ⟨e, s', [], by rw [h1]; rfl, h2.trans c1, ?_, hlt, by simp [h4], h5, h6⟩)
          simp [bumped] at c2
          omega
    · rw [if_neg hp]
      by_cases hq : t.kind = question ∨ t.kind = star ∨ t.kind = plus
      · have hmin : ¬ 10 < min := by
          intro h
          apply hst
          intro t' ht'
          obtain rfl : t = t' := by simpa using ht'
          exact ⟨fun h => absurd h hp, fun _ => h⟩
        rw [if_pos hq, if_neg hmin]
        unfold quantify
        have hb : (s.pushChild left).bump ign = .ok (bumped (s.pushChild left) t) := bump_some hc
        simp only [hb, run_bind_ok, PState.checkpoint]
        have hsk : (bumped (s.pushChild left) t).sink = s.sink ++ left :: [leafEntry t] := by simp [bumped, PState.pushChild]
        rcases wrap_last (i := s.index) hsk hn with h | ⟨e, s', h1, h2, h3, h4, h5, h6⟩
        · rw [h]; exact .inl rfl
        · refine .inr (.inr ⟨e, s', [left], by rw [h1]; rfl, h2, ?_, hlt, by simp [h4, hs], h5, h6⟩)
          simp [bumped, PState.pushChild] at h3
          omega
      · exfalso
        apply hst
        intro t' ht'
        obtain rfl : t = t' := by simpa using ht'
        exact ⟨fun h => absurd h hp, fun h => absurd h hq⟩

theorem while_fine {pe : PState → Nat → Run (Entry × PState)} (fuel : Nat) {s : PState} {σ τ : List Entry} {left : Entry} {min : Nat}
    (hpe : ∀ s' min, s'.tokens = s.tokens → s.index < s'.index → Fine s' (pe s' min)) (hs : s.sink = σ ++ τ ++ [left])
    (hn : Made left) (hf : s.tokens.length - s.index < fuel) :
    whileInfix pe fuel s left min = .error .panic ∨ (whileInfix pe fuel s left min = .ok (left, s) ∧ Stops min (s.tokens.drop s.index)) ∨
      ∃ e s' τ, whileInfix pe fuel s left min = .ok (e, s') ∧ s'.tokens = s.tokens ∧ s.index < s'.index ∧
        s'.sink = σ ++ τ ++ [e] ∧ Made e ∧ Twofold e := by
  induction fuel generalizing s left τ with
  | zero => omega
  | succ fuel ih =>
    rw [whileInfix]
    rcases infix_fine (min := min) hpe hs hn with h | ⟨h, h'⟩ | ⟨e, s1, τ1, h1, h2, h3, h3', h4, h5, h6⟩
    · rw [h]; exact .inl rfl
    · rw [h]; exact .inr (.inl ⟨rfl, h'⟩)
    · rw [h1]
      simp only [run_bind_ok]
      rcases ih (s := s1) (τ := τ ++ τ1) (fun s' min ht hi => hpe s' min (ht.trans h2) (by omega)) (by rw [h4]; simp) h5 (by rw [h2]; omega) with
        g | ⟨g, g'⟩ | ⟨e', s', τ', g1, g2, g3, g4, g5, g6⟩
      · exact .inl g
      · exact .inr (.inr ⟨e, s1, τ ++ τ1, g, h2, h3, by rw [h4]; simp, h5, h6⟩)
      · exact .inr (.inr ⟨e', s', τ', g1, g2.trans h2, by omega, g4, g5, g6⟩)

theorem expr_fine (fuel : Nat) (s : PState) (min : Nat) (hf : s.tokens.length - s.index + 1 ≤ fuel) : Fine s (expr fuel s min) := by
  induction fuel generalizing s min with
  | zero => omega
  | succ fuel ih =>
    rw [expr]
    have hp : Fine s (prefix_ (expr fuel) s) := by
      by_cases hlt : s.index < s.tokens.length
      · exact prefix_fine fun s' min ht hi => ih s' min (by rw [ht]; omega)
      · -- at the end `prefix` calls nothing
        have hc : s.current = none := by rw [PState.current, List.getElem?_eq_none_iff]; omega
        obtain ⟨s1, b1, b2, b3, b4, τ, b5⟩ := bump_cases s
        have : prefix_ (expr fuel) s = s1.finishAt s.checkpoint error := by
          unfold prefix_ primary PState.peekKind
          simp [hc, b1]
        rw [this]
        exact finish_fine (by simp) b2 b3 b4 b5
    cases hx : prefix_ (expr fuel) s with
    | error e => rw [hx] at hp; cases hp; rfl
    | ok x =>
      obtain ⟨left, s1⟩ := x
      rw [hx] at hp
      obtain ⟨c1, c2, c3, τ, c4, c5⟩ := hp
      rw [run_bind_ok]
      simp only
      by_cases hlt : s.index < s.tokens.length
      · have := c3 hlt
        rcases while_fine (min := min) (s1.tokens.length + 1) (s := s1) (fun s' min ht hi => ih s' min (by rw [ht, c1]; omega)) c4 c5 (by omega) with
          g | ⟨g, _⟩ | ⟨e, s', τ', g1, g2, g3, g4, g5, g6⟩
        · rw [g]; rfl
        · rw [g]; exact ⟨c1, c2, c3, τ, c4, c5⟩
        · rw [g1]; exact ⟨g2.trans c1, by omega, fun _ => by omega, τ', g4, g5⟩
      · have hd : s1.tokens.drop s1.index = [] := by rw [c1]; simp; omega
        rw [while_stop hd (fun t ht => by simp at ht)]
        exact ⟨c1, c2, c3, τ, c4, c5⟩

/-! ### The root -/

theorem finish_shape {s s1 s' : PState} {k : Nat} {τ : List Entry} {left : Entry} (hs : s1.sink = s.sink ++ τ)
    (h : s1.finishAt s.checkpoint k = .ok (left, s')) :
    left.tree = .node k (lenSum (τ.map Entry.tree)) (τ.map Entry.tree) ∧ s'.sink = s.sink ++ [left] ∧ s'.index = s1.index := by
  rw [PState.checkpoint, finishAt_cases hs] at h
  split at h
  · cases h; exact ⟨rfl, rfl, rfl⟩
  · cases h

/-- What `prefix` makes of a token. -/
structure Head (s : PState) (left : Entry) (s' : PState) : Prop where
  sink : s'.sink = s.sink ++ [left]
  shape : (∃ w cs, left.tree = .node error w cs) ∨ ∃ t w cs, s.current = some t ∧ left.tree = .node pattern w ((leafEntry t).tree :: cs) ∧
    ¬ (t.kind = pipe ∨ t.kind = whitespace ∨ t.kind = comment) ∧ (t.kind = character → cs = [] ∧ w = t.length % 2 ^ 32 ∧ s'.index = s.index + 1)

theorem finish_head {s s1 s' : PState} {t : Tok} {τ : List Entry} {left : Entry} (hc : s.current = some t)
    (hn : ¬ (t.kind = pipe ∨ t.kind = whitespace ∨ t.kind = comment)) (hs : s1.sink = s.sink ++ leafEntry t :: τ) (hk : t.kind = character → τ = [] ∧ s1.index = s.index + 1)
    (h : s1.finishAt s.checkpoint pattern = .ok (left, s')) : Head s left s' := by
  obtain ⟨h1, h2, h3⟩ := finish_shape hs h
  refine ⟨h2, .inr ⟨t, _, τ.map Entry.tree, hc, by rw [h1]; rfl, hn, fun hch => ?_⟩⟩
  obtain ⟨k1, k2⟩ := hk hch
  subst k1
  exact ⟨rfl, by simp [leafEntry, Green.len], h3.trans k2⟩

theorem prefix_head {pe : PState → Nat → Run (Entry × PState)} {s s' : PState} {left : Entry}
    (hpe : ∀ s' min, s'.tokens = s.tokens → s.index < s'.index → Fine s' (pe s' min)) (h : prefix_ pe s = .ok (left, s')) :
    Head s left s' := by
  cases hc : s.current with
  | none =>
    have : prefix_ pe s = s.finishAt s.checkpoint error := by
      unfold prefix_ primary PState.peekKind
      simp [hc, bump_none hc]
    rw [this] at h
    obtain ⟨h1, h2, h3⟩ := finish_shape (τ := []) (by simp) h
    exact ⟨h2, .inl ⟨_, _, h1⟩⟩
  | some t =>
    have hb := bump_some hc
    have hi : (bumped s t).index = s.index + 1 := rfl
    have hpk : s.peekKind = some t.kind := by simp [PState.peekKind, hc]
    unfold prefix_ primary at h
    simp only [hb, run_bind_ok, hpk, Option.some.injEq] at h
    split at h
    · rename_i hk
      exact finish_head hc (by rcases hk with hk | hk <;> rw [hk] <;> decide) rfl (fun _ => ⟨rfl, hi⟩) h
    split at h
    · rename_i hk
      rw [advance_eq, run_bind_ok] at h
      exact finish_head (τ := []) hc (by rw [hk]; decide) rfl (fun hch => by rw [hk] at hch; simp [backslash, character] at hch) h
    split at h
    · rename_i hk
      exact finish_head hc (by rcases hk with hk | hk <;> rw [hk] <;> decide) rfl (fun _ => ⟨rfl, hi⟩) h
    split at h
    · rename_i hk
      have := hpe (bumped s t) 0 rfl (by simp [bumped])
      cases hx : pe (bumped s t) 0 with
      | error e => rw [hx] at h; cases h
      | ok x =>
        obtain ⟨l2, s2⟩ := x
        rw [hx] at this h
        obtain ⟨c1, c2, c3, τ2, c4, c5⟩ := this
        obtain ⟨b, s3, d1, d2, d3, τ3, d4⟩ := expect_cases (s := s2) rparen
        simp only [run_bind_ok, d1] at h
        exact finish_head (τ := τ2 ++ [l2] ++ τ3) hc (by rw [hk]; decide) (by rw [d4, c4]; simp [bumped])
          (fun hch => by rw [hk] at hch; simp [lparen, character] at hch) h
    split at h
    · rename_i hk
      obtain ⟨s2, c1, c2, c3, c4⟩ := classLoop_fine ((bumped s t).tokens.length - (bumped s t).index) (bumped s t) (Nat.le_refl _)
      obtain ⟨b, s3, d1, d2, d3, τ3, d4⟩ := expect_cases (s := s2) rbrack
      simp only [c1, run_bind_ok, d1] at h
      exact finish_head (τ := τ3) hc (by rw [hk]; decide) (by rw [d4, c4]; simp [bumped]) (fun hch => by rw [hk] at hch; simp [lbrack, character] at hch) h
    · obtain ⟨h1, h2, h3⟩ := finish_shape (τ := [leafEntry t]) rfl h
      exact ⟨h2, .inl ⟨_, _, h1⟩⟩

/-- The parser panics, or the root is the one thing `prefix` made, or its last child is a pattern that begins with a node. -/
theorem root_cases (toks : List Tok) (n : Nat) : parseTokens toks n = .error .panic ∨ ∃ w cs es, parseTokens toks n = .ok (.node pattern w cs, es) ∧
    ((∃ left s', cs = [left.tree] ∧ Head ⟨toks, 0, [], 0, none, [], n⟩ left s' ∧ Stops 0 (toks.drop s'.index)) ∨
      ∃ left ∈ cs, ∃ w k w' cs' rest, left = .node pattern w (.node k w' cs' :: rest) ∧ (k = pattern ∨ k = error)) := by
  unfold parseTokens PState.new
  rw [skipTrivia_eq, run_bind_ok]
  generalize hs : (⟨toks, 0, [], 0, none, [], n⟩ : PState) = s
  have hsk : s.sink = [] := by rw [← hs]
  have htk : s.tokens = toks := by rw [← hs]
  have hix : s.index = 0 := by rw [← hs]
  have hpe : ∀ s' min, s'.tokens = s.tokens → s.index < s'.index → Fine s' (expr (toks.length + 1) s' min) := by
    intro s' min ht hi
    exact expr_fine _ _ _ (by rw [ht, htk]; omega)
  have key : ∀ (left : Entry) (s1 : PState) (τ : List Entry), s1.sink = τ ++ [left] →
      ((τ = [] ∧ Head s left s1 ∧ Stops 0 (toks.drop s1.index)) ∨ Twofold left) →
      (s1.finishAt s.checkpoint pattern >>= fun x => (pure (x.1.tree, x.2.errors) : Run (Green × List PErr))) = .error .panic ∨
      ∃ w cs es, (s1.finishAt s.checkpoint pattern >>= fun x => (pure (x.1.tree, x.2.errors) : Run (Green × List PErr))) = .ok (.node pattern w cs, es) ∧
    ((∃ left s', cs = [left.tree] ∧ Head s left s' ∧ Stops 0 (toks.drop s'.index)) ∨
      ∃ left ∈ cs, ∃ w k w' cs' rest, left = .node pattern w (.node k w' cs' :: rest) ∧ (k = pattern ∨ k = error)) := by
    intro left s1 τ h1 h2
    rw [PState.checkpoint, hsk, show ([] : List Entry).length = 0 from rfl, finishAt_root h1]
    split
    · refine .inr ⟨_, _, _, rfl, ?_⟩
      rcases h2 with ⟨rfl, h2, h3⟩ | h2
      · exact .inl ⟨left, s1, by simp, h2, h3⟩
      · exact .inr ⟨left.tree, by simp, h2⟩
    · exact .inl rfl
  rw [expr]
  have hp := prefix_fine hpe
  cases hx : prefix_ (expr (toks.length + 1)) s with
  | error e => rw [hx] at hp; cases hp; exact .inl rfl
  | ok x =>
    obtain ⟨left, s1⟩ := x
    have hh := prefix_head hpe hx
    rw [hx] at hp
    obtain ⟨c1, c2, c3, τ, c4, c5⟩ := hp
    rw [run_bind_ok]
    simp only
    rcases while_fine (σ := []) (τ := []) (min := 0) (s1.tokens.length + 1) (s := s1)
      (fun s' min ht hi => hpe s' min (ht.trans c1) (by omega)) (by rw [hh.sink, hsk]; rfl) c5 (by omega) with
      g | ⟨g, g'⟩ | ⟨e, s', τ', g1, g2, g3, g4, g5, g6⟩
    · rw [g]; exact .inl rfl
    · rw [g, run_bind_ok]
      rw [c1, htk] at g'
      exact key left s1 [] (by rw [hh.sink, hsk]) (.inl ⟨rfl, hh, g'⟩)
    · rw [g1, run_bind_ok]
      exact key e s' τ' (by rw [g4]; rfl) (.inr g6)

/-- The parser never spins: it panics or answers. -/
theorem parse_ends (toks : List Tok) (n : Nat) : parseTokens toks n ≠ .error .spin := by
  rcases root_cases toks n with h | ⟨w, cs, es, h, _⟩ <;> rw [h] <;> simp

/-! ### The builder -/

theorem elements_node {text : Source} {k n o : Nat} {cs gs : List Green} (hk : k = pattern ∨ k = error) :
    buildElements text (.node k n cs :: gs) o = .ok none := by
  rw [buildElements, buildElement, if_pos hk]; rfl

theorem root_mem {text : Source} {gs : List Green} {o : Nat} {ps : List Pat} (h : buildRoot text gs o = .ok (some ps)) :
    ∀ k w cs, Green.node k w cs ∈ gs → k = pattern ∧ ∃ o es, buildElements text cs o = .ok (some es) := by
  induction gs generalizing o ps with
  | nil => simp
  | cons g gs ih =>
    intro k w cs hm
    cases g with
    | leaf k' n' m' =>
      rw [buildRoot] at h
      split at h
      · exact ih h k w cs (by simpa using hm)
      · cases h
    | node k' n' cs' =>
      rw [buildRoot] at h
      split at h
      · rename_i hk
        unfold buildPattern at h
        cases hx : buildElements text cs' o with
        | error e => rw [hx] at h; cases h
        | ok x =>
          rw [hx] at h
          cases x with
          | none => cases h
          | some es =>
            simp only [run_bind_ok, Option.map_some, pure_bind] at h
            cases hy : buildRoot text gs (o + n') with
            | error e => rw [hy] at h; cases h
            | ok y =>
              rw [hy] at h
              cases y with
              | none => cases h
              | some ps' =>
                rcases List.mem_cons.mp hm with hm | hm
                · cases hm; exact ⟨hk, o, es, hx⟩
                · exact ih hy k w cs hm
      · cases h

theorem build_iff {src : Source} {t : Str} (hsrc : src.textIn 0 src.length = .ok t) (toks : List Tok) (ps : List Pat)
    (hlen : ∀ c ∈ toks.head?, c.length < 2 ^ 32) :
    buildTokens src toks = .ok (some ps) ↔ ∃ c rest, toks = c :: rest ∧ c.kind = character ∧ (∀ d ∈ rest.head?, ¬ RegexOp d) ∧
      ps = [⟨[.literal ((strGet t 0 c.length).getD []) 0 c.length], 0, c.length⟩] := by
  have stops : ∀ rest : List Tok, Stops 0 rest ↔ ∀ d ∈ rest.head?, ¬ RegexOp d := by
    intro rest
    unfold Stops RegexOp
    constructor
    · intro h d hd hop
      obtain ⟨h1, h2⟩ := h d hd
      simp at hop h1 h2
      tauto
    · intro h d hd
      have := h d hd
      simp at this
      exact ⟨fun h => by tauto, fun h => by tauto⟩
  have one : ∀ c : Tok, c.kind = character → c.length < 2 ^ 32 →
      buildRoot (textSource t) [.node pattern (c.length % 2 ^ 32) [(leafEntry c).tree]] 0 =
        .ok (some [⟨[.literal ((strGet t 0 c.length).getD []) 0 c.length], 0, c.length⟩]) := by
    intro c hc hl
    simp [buildRoot, buildPattern, buildElements, leafEntry, hc, Nat.mod_eq_of_lt hl, character, pipe, whitespace, comment, textSource]
  unfold buildTokens
  constructor
  · intro h
    rcases root_cases toks src.length with g | ⟨w, cs, es, g, hcs⟩
    · rw [g] at h; cases h
    · rw [g, hsrc] at h
      simp only [run_bind_ok] at h
      rcases hcs with ⟨left, s', rfl, hh, hst⟩ | ⟨left, hm, w', k, w'', cs', rest, rfl, hk⟩
      · rcases hh.shape with ⟨w', cs', hl⟩ | ⟨c, w', cs', hc, hl, hnk, hch⟩
        · have := (root_mem h error w' cs' (by simp [hl])).1
          exact absurd this (by decide)
        · have hhead : toks.head? = some c := by rw [← hc]; simp [PState.current, List.head?_eq_getElem?]
          have hcl := hlen c hhead
          obtain ⟨rest, rfl⟩ : ∃ rest, toks = c :: rest := by
            cases toks with
            | nil => simp at hhead
            | cons a b => exact ⟨b, by simpa using hhead⟩
          rw [hl] at h
          by_cases hk : c.kind = character
          · obtain ⟨rfl, rfl, hi⟩ := hch hk
            rw [hi] at hst
            rw [one c hk hcl] at h
            refine ⟨c, rest, rfl, hk, (stops rest).mp (by simpa using hst), ?_⟩
            cases h; rfl
          · obtain ⟨_, o, es, he⟩ := root_mem h pattern w' _ List.mem_cons_self
            simp only [leafEntry, buildElements, if_neg hnk, if_neg hk] at he
            cases he
      · obtain ⟨_, o, es, he⟩ := root_mem h _ _ _ hm
        rw [elements_node hk] at he
        cases he
  · rintro ⟨c, rest, rfl, hk, hr, rfl⟩
    have hcl := hlen c rfl
    have hp : parseTokens (c :: rest) src.length = .ok (.node pattern (c.length % 2 ^ 32) [.node pattern (c.length % 2 ^ 32) [(leafEntry c).tree]], []) := by
      unfold parseTokens PState.new
      rw [skipTrivia_eq, run_bind_ok]
      generalize hs : (⟨c :: rest, 0, [], 0, none, [], src.length⟩ : PState) = s
      have hc : s.current = some c := by rw [← hs]; rfl
      have hsk : s.sink = [] := by rw [← hs]
      have hst : s.tokens.drop (s.index + 1) = rest := by rw [← hs]; rfl
      have hse : s.errors = [] := by rw [← hs]
      have hpk : s.peekKind = some character := by simp [PState.peekKind, hc, hk]
      have hpre : prefix_ (expr ((c :: rest).length + 1)) s = (bumped s c).finishAt s.checkpoint pattern := by
        unfold prefix_ primary
        simp [hpk, bump_some hc, hat, dollar, backslash, character, dot]
      have hlen' : c.length % 2 ^ 32 < 2 ^ 32 := Nat.mod_lt _ (by decide)
      rw [expr, hpre, PState.checkpoint, finishAt_cases (s := bumped s c) (σ := s.sink) (τ := [leafEntry c]) rfl,
        if_pos (by simpa [leafEntry, Green.len] using hlen'), run_bind_ok]
      simp only
      rw [while_stop (rest := rest) (by simpa [bumped] using hst) ((stops rest).mpr hr), run_bind_ok, hsk,
        show ([] : List Entry).length = 0 from rfl]
      simp only
      rw [finishAt_root rfl, if_pos (by simpa [leafEntry, Green.len] using hlen')]
      simp [leafEntry, Green.len, bumped, hse]
    rw [hp, hsrc]
    simp only [run_bind_ok]
    exact one c hk hcl

theorem ChildAt.cons {gs : List Green} {o : Nat} {g : Green} {a : Nat} (h : Green) (hc : ChildAt gs (o + h.len) g a) : ChildAt (h :: gs) o g a := by
  obtain ⟨b, c, rfl, rfl⟩ := hc
  exact ⟨h :: b, c, rfl, by simp; omega⟩

theorem ChildAt.head (g : Green) (gs : List Green) (o : Nat) : ChildAt (g :: gs) o g o := ⟨[], gs, rfl, by simp⟩

theorem elements_place {src : Source} {gs : List Green} {o : Nat} {es : List Element} (h : buildElements src gs o = .ok (some es)) :
    ∀ v a b, Element.literal v a b ∈ es → ∃ n m, ChildAt gs o (.leaf character n m) a ∧ b = a + n ∧ src.textIn a b = .ok v := by
  induction gs generalizing o es with
  | nil =>
    cases h
    intro v a b hm
    cases hm
  | cons g gs ih =>
    have step : ∀ es', buildElements src gs (o + g.len) = .ok (some es') → ∀ v a b, Element.literal v a b ∈ es' →
        ∃ n m, ChildAt (g :: gs) o (.leaf character n m) a ∧ b = a + n ∧ src.textIn a b = .ok v := by
      intro es' he v a b hm
      obtain ⟨n, m, h1, h2⟩ := ih he v a b hm
      exact ⟨n, m, ChildAt.cons g h1, h2⟩
    cases g with
    | node k n cs =>
      simp only [Green.len] at step
      unfold buildElements buildElement at h
      split at h
      · cases h
      · rename_i e he
        split at he
        · cases he
        · obtain rfl := Option.some.inj he
          cases hx : buildElements src gs (o + n) with
          | error x => rw [hx] at h; cases h
          | ok x =>
            rw [hx] at h
            cases x with
            | none => cases h
            | some es' =>
              cases h
              intro v a b hm
              rcases List.mem_cons.mp hm with h1 | h1
              · cases h1
              · exact step es' hx v a b h1
    | leaf k n m =>
      simp only [Green.len] at step
      unfold buildElements at h
      split at h
      · exact step es h
      split at h
      · rename_i hk
        subst hk
        cases ht : src.textIn o (o + n) with
        | error x => rw [ht] at h; cases h
        | ok w =>
          rw [ht] at h
          cases hx : buildElements src gs (o + n) with
          | error x => rw [hx] at h; cases h
          | ok x =>
            rw [hx] at h
            cases x with
            | none => cases h
            | some es' =>
              cases h
              intro v a b hm
              rcases List.mem_cons.mp hm with h1 | h1
              · cases h1
                exact ⟨n, m, ChildAt.head _ _ _, rfl, ht⟩
              · exact step es' hx v a b h1
      · cases h

theorem root_place {src : Source} {gs : List Green} {o : Nat} {ps : List Pat} (h : buildRoot src gs o = .ok (some ps)) :
    ∀ p ∈ ps, ∃ n cs, ChildAt gs o (.node pattern n cs) p.start ∧ p.stop = p.start + n ∧
      ∀ v a b, Element.literal v a b ∈ p.elements → ∃ n m, ChildAt cs p.start (.leaf character n m) a ∧ b = a + n ∧ src.textIn a b = .ok v := by
  induction gs generalizing o ps with
  | nil =>
    cases h
    intro p hm
    cases hm
  | cons g gs ih =>
    cases g with
    | node k n cs =>
      unfold buildRoot at h
      split at h
      · rename_i hk
        subst hk
        unfold buildPattern at h
        cases hx : buildElements src cs o with
        | error x => rw [hx] at h; cases h
        | ok x =>
          rw [hx] at h
          cases x with
          | none => cases h
          | some es =>
            cases hy : buildRoot src gs (o + n) with
            | error x => simp only [run_bind_ok, hy] at h; cases h
            | ok y =>
              cases y with
              | none => simp only [run_bind_ok, hy] at h; cases h
              | some ps' =>
                have h' : (.ok (some (⟨es, o, o + n⟩ :: ps')) : Run _) = .ok (some ps) := by
                  rw [← h]
                  change _ = (buildRoot src gs (o + n) >>= _)
                  rw [hy]
                  rfl
                cases h'
                intro p hm
                rcases List.mem_cons.mp hm with rfl | h1
                · exact ⟨n, cs, ChildAt.head _ _ _, rfl, elements_place hx⟩
                · obtain ⟨n', cs', h2, h3⟩ := ih hy p h1
                  exact ⟨n', cs', ChildAt.cons _ h2, h3⟩
      · cases h
    | leaf k n m =>
      unfold buildRoot at h
      split at h
      · intro p hm
        obtain ⟨n', cs', h2, h3⟩ := ih h p hm
        exact ⟨n', cs', ChildAt.cons _ h2, h3⟩
      · cases h

end Regex
end Oaks
