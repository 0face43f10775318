import Verif.Proofs.LexString

/-! Lexers as programs; the specifications determine what is consumed. -/
namespace Oaks
open Spec

section
variable {src : Source} {t : Str} (hs : Supplied src t) {toks : List Tok} {st : Lex} {l r : Str}
include hs

omit hs in
theorem CommentOutcome.within {cfg : CommentCfg} {lk bk pos : Nat} {r m : Str} {b : Bool} {new : List Tok}
    (h : CommentOutcome cfg lk bk pos r m b new) : ∀ k ∈ new, TokenWithin pos (pos + blen m) k := by
  have key : ∀ kind (m : Str), m ≠ [] → ∀ k ∈ [(⟨kind, pos, pos + blen m⟩ : Tok)], TokenWithin pos (pos + blen m) k := by
    intro kind m hm k hk
    have := blen_pos hm
    rw [List.mem_singleton.mp hk]
    exact ⟨Nat.le_refl _, by show pos < pos + blen m; omega, Nat.le_refl _⟩
  cases h with
  | line h1 h2 =>
    obtain ⟨body, rest, _, rfl, _⟩ := h2
    exact key _ _ (by simp [h1])
  | block _ h1 _ _ h2 =>
    obtain ⟨after, h3, ⟨body, rest, _, rfl, _⟩ | ⟨_, rfl⟩⟩ := h2
    · exact key _ _ (by simp [h1])
    · exact key _ _ (by rw [h3]; simp [h1])
  | nested _ h1 _ _ h2 =>
    obtain ⟨after, ps, h3, _, ⟨inside, rest, _, rfl, _⟩ | ⟨_, rfl⟩⟩ := h2
    · exact key _ _ (by simp [h1])
    · exact key _ _ (by rw [h3]; simp [h1])
  | unclosable _ h1 h2 _ =>
    obtain ⟨x, rfl⟩ := h2
    exact key _ _ (by simp [h1])
  | absent => simp

theorem op_at (op : LexOp) (hv : op.Valid) (h : LexAt src t l r toks st) :
    ∃ st' b m r' new, op.run src st = .ok (st', b) ∧ r = m ++ r' ∧ LexAt src t (l ++ m) r' (toks ++ new) st' ∧
      ∀ k ∈ new, TokenWithin (blen l) (blen l + blen m) k := by
  have key : ∀ kind (m : Str), m ≠ [] → ∀ k ∈ [(⟨kind, blen l, blen l + blen m⟩ : Tok)], TokenWithin (blen l) (blen l + blen m) k := by
    intro kind m hm k hk
    have := blen_pos hm
    rw [List.mem_singleton.mp hk]
    exact ⟨Nat.le_refl _, by show blen l < blen l + blen m; omega, Nat.le_refl _⟩
  cases op with
  | bump =>
    obtain ⟨st', h1, h2⟩ := bump_at hs h
    exact ⟨st', _, _, _, [], by simp only [LexOp.run, h1, run_bind_ok]; rfl, (List.take_append_drop 1 r).symm, by simpa using h2, by simp⟩
  | takeWhile p =>
    obtain ⟨st', h1, h2⟩ := takeWhile_at hs h p
    exact ⟨st', _, _, _, [], by simp only [LexOp.run, h1, run_bind_ok]; rfl, (List.takeWhile_append_dropWhile).symm, by simpa using h2, by simp⟩
  | skipWhitespace =>
    obtain ⟨st', h1, h2⟩ := skipWs_at hs h
    exact ⟨st', _, _, _, [], by simp only [LexOp.run, h1, run_bind_ok]; rfl, (List.takeWhile_append_dropWhile).symm, by simpa using h2, by simp⟩
  | skipIdent =>
    obtain ⟨st', h1, h2⟩ := skipIdent_at hs h
    exact ⟨st', _, _, _, [], by simp only [LexOp.run, h1, run_bind_ok]; rfl, (List.takeWhile_append_dropWhile).symm, by simpa using h2, by simp⟩
  | skipUntil b =>
    obtain ⟨st', h1, h2⟩ := skipUntil_at hs h b hv
    exact ⟨st', _, _, _, [], by simp only [LexOp.run, h1, run_bind_ok]; rfl, (List.takeWhile_append_dropWhile).symm, by simpa using h2, by simp⟩
  | consume p =>
    rcases consumeIf_at hs h p with ⟨r', h1, st', h2, h3⟩ | ⟨_, st', h2, h3⟩
    · exact ⟨st', _, p, r', [], h2, h1, by simpa using h3, by simp⟩
    · exact ⟨st', _, [], r, [], h2, rfl, by simpa using h3, by simp⟩
  | guard safe =>
    obtain ⟨st', h1, h2⟩ := guard_at hs h safe
    by_cases he : blen l = safe
    · rw [if_pos he] at h2
      exact ⟨st', _, _, _, [], by simp only [LexOp.run, h1, run_bind_ok]; rfl, (List.take_append_drop 1 r).symm, by simpa using h2, by simp⟩
    · rw [if_neg he] at h2
      exact ⟨st', _, [], r, [], by simp only [LexOp.run, h1, run_bind_ok]; rfl, rfl, by simpa using h2, by simp⟩
  | identifier k =>
    obtain ⟨st', b, m, r', new, h1, h2, h3, h4⟩ := identifier_at hs h k
    refine ⟨st', b, m, r', new, h1, h2, h3, ?_⟩
    rcases h4 with ⟨_, ⟨c, s, q1, q2, _⟩, q3, rfl⟩ | ⟨_, _, _, rfl⟩
    · exact key _ _ (by rw [q3, q1, List.takeWhile_cons_of_pos q2]; simp)
    · simp
  | lineComment k marker =>
    obtain ⟨st', b, m, r', new, h1, h2, h3, h4⟩ := lineComment_at hs h k marker
    refine ⟨st', b, m, r', new, h1, h2, h3, ?_⟩
    have hm : marker ≠ [] := hv
    rcases h4 with ⟨_, ⟨body, rest, _, rfl, _⟩, rfl⟩ | ⟨_, _, _, rfl⟩
    · exact key _ _ (by simp [hm])
    · simp
  | blockComment k o c =>
    obtain ⟨st', b, m, r', new, h1, h2, h3, h4⟩ := blockComment_at hs h k o c hv.2
    refine ⟨st', b, m, r', new, h1, h2, h3, ?_⟩
    have ho := hv.1
    rcases h4 with ⟨_, ⟨after, e1, ⟨body, rest, _, rfl, _⟩ | ⟨_, e2⟩⟩, rfl⟩ | ⟨_, _, _, rfl⟩
    · exact key _ _ (by simp [ho])
    · exact key _ _ (by rw [e2, e1]; simp [ho])
    · simp
  | comment cfg k k' =>
    obtain ⟨st', b, m, r', new, h1, h2, h3, h4⟩ := comment_at hs h cfg k k'
    exact ⟨st', b, m, r', new, h1, h2, h3, CommentOutcome.within h4⟩
  | string cfg k =>
    obtain ⟨st', b, m, r', new, h1, h2, h3, h4⟩ := string_at hs h cfg k
    refine ⟨st', b, m, r', new, h1, h2, h3, ?_⟩
    rcases h4 with ⟨_, _, q3, rfl⟩ | ⟨_, _, _, rfl⟩
    · exact key _ _ q3
    · simp
  | whitespace ws u k =>
    obtain ⟨st', b, m, r', new, h1, h2, h3, _, _, h6⟩ := whitespace_at hs h ws u k
    refine ⟨st', b, m, r', new, h1, h2, h3, ?_⟩
    by_cases hm : m = []
    · rw [h6, if_pos hm]; simp
    · rw [h6, if_neg hm]; exact key _ _ hm

omit hs in
theorem within_mono {a b a' b' : Nat} (ha : a' ≤ a) (hb : b ≤ b') {new : List Tok} (h : ∀ k ∈ new, TokenWithin a b k) :
    ∀ k ∈ new, TokenWithin a' b' k := by
  intro k hk
  obtain ⟨h1, h2, h3⟩ := h k hk
  exact ⟨by omega, h2, by omega⟩

omit hs in
theorem within_append {a b : Nat} {x y : List Tok} (h1 : ∀ k ∈ x, TokenWithin a b k) (h2 : ∀ k ∈ y, TokenWithin a b k) :
    ∀ k ∈ x ++ y, TokenWithin a b k := by
  intro k hk
  rcases List.mem_append.mp hk with hk | hk
  · exact h1 k hk
  · exact h2 k hk

theorem prog_at (p : LexProg) (hv : p.Valid) (h : LexAt src t l r toks st) :
    ∃ st' m r' new, p.run src st = .ok st' ∧ r = m ++ r' ∧ LexAt src t (l ++ m) r' (toks ++ new) st' ∧
      ∀ k ∈ new, TokenWithin (blen l) (blen l + blen m) k := by
  induction p generalizing l r toks st with
  | done => exact ⟨st, [], r, [], rfl, rfl, by simpa using h, by simp⟩
  | look k ih =>
    obtain ⟨st1, h1, h2⟩ := peek_at hs h
    simp only [LexProg.run, h1, run_bind_ok]
    exact ih _ (hv _) h2
  | sees p k ih =>
    obtain ⟨st1, h1, h2⟩ := startsWith_at hs h p
    simp only [LexProg.run, h1, run_bind_ok]
    exact ih _ (hv _) h2
  | op o k ih =>
    obtain ⟨st1, b, m, r', new, h1, h2, h3, h4⟩ := op_at hs o hv.1 h
    simp only [LexProg.run, h1, run_bind_ok]
    obtain ⟨st2, m2, r2, new2, g1, g2, g3, g4⟩ := ih b (hv.2 b) h3
    refine ⟨st2, m ++ m2, r2, new ++ new2, g1, by rw [h2, g2]; simp, by simpa using g3, ?_⟩
    refine within_append (within_mono (Nat.le_refl _) (by simp <;> omega) h4) (within_mono (by simp) (by simp <;> omega) g4)
  | spanned kind body next ih1 ih2 =>
    obtain ⟨st1, m, r', new, h1, h2, h3, h4⟩ := ih1 hv.1 h
    simp only [LexProg.run, h1, run_bind_ok]
    have hmid : ∃ new', LexAt src t (l ++ m) r' (toks ++ new')
        (if st.pos < st1.pos then st1.addToken kind st.pos st1.pos else st1) ∧
        ∀ k ∈ new', TokenWithin (blen l) (blen l + blen m) k := by
      by_cases hlt : st.pos < st1.pos
      · rw [if_pos hlt]
        refine ⟨new ++ [⟨kind, st.pos, st1.pos⟩], by rw [← List.append_assoc]; exact addToken_at h3 _ _ _, within_append h4 ?_⟩
        intro k hk
        rw [List.mem_singleton.mp hk]
        rw [h.pos, h3.pos] at *
        exact ⟨Nat.le_refl _, hlt, by simp⟩
      · rw [if_neg hlt]
        exact ⟨new, h3, h4⟩
    obtain ⟨new', k1, k2⟩ := hmid
    obtain ⟨st2, m2, r2, new2, g1, g2, g3, g4⟩ := ih2 hv.2 k1
    refine ⟨st2, m ++ m2, r2, new' ++ new2, g1, by rw [h2, g2]; simp, by simpa using g3, ?_⟩
    exact within_append (within_mono (Nat.le_refl _) (by simp <;> omega) k2) (within_mono (by simp) (by simp <;> omega) g4)

theorem guarded_at (p : LexProg) (hv : p.Valid) (fuel : Nat) (h : LexAt src t l r toks st) (hf : r.length ≤ fuel) :
    ∃ st' new, Lex.guarded src (fun s => p.run src s) fuel st = .ok st' ∧ LexAt src t t [] (toks ++ new) st' ∧
      ∀ k ∈ new, TokenWithin (blen l) (blen t) k := by
  have htl : blen t = blen l + blen r := by rw [h.cur.text]; simp
  induction fuel generalizing l r toks st with
  | zero =>
    obtain rfl : r = [] := List.length_eq_zero_iff.mp (by omega)
    have hl : l = t := by rw [h.cur.text]; simp
    unfold Lex.guarded
    rw [h.notAtEnd hs]
    exact ⟨st, [], by simp, by rw [hl] at h; simpa using h, by simp⟩
  | succ fuel ih =>
    unfold Lex.guarded
    rw [h.notAtEnd hs]
    by_cases hr : r = []
    · subst hr
      have hl : l = t := by rw [h.cur.text]; simp
      exact ⟨st, [], by simp, by rw [hl] at h; simpa using h, by simp⟩
    · rw [if_pos (by simp [hr])]
      obtain ⟨st1, m, r', new, h1, h2, h3, h4⟩ := prog_at hs p hv h
      obtain ⟨st2, k1, k2⟩ := guard_at hs h3 st.pos
      simp only [h1, run_bind_ok, k1]
      rw [h.pos] at k2
      have hnext : ∃ l2 r2, LexAt src t l2 r2 (toks ++ new) st2 ∧ r2.length < r.length ∧ blen l ≤ blen l2 := by
        by_cases hm : m = []
        · subst hm
          simp only [List.append_nil, if_true, List.nil_append] at k2 h2
          refine ⟨_, _, k2, ?_, by simp⟩
          rw [← h2]
          have := List.length_pos_iff.mpr hr
          simp; omega
        · have := blen_pos hm
          have := List.length_pos_iff.mpr hm
          rw [if_neg (by simp; omega)] at k2
          exact ⟨_, _, k2, by rw [h2]; simp; omega, by simp⟩
      obtain ⟨l2, r2, j1, j2, j3⟩ := hnext
      obtain ⟨st', new', g1, g2, g3⟩ := ih j1 (by omega) (by rw [j1.cur.text]; simp)
      refine ⟨st', new ++ new', g1, by simpa using g2, ?_⟩
      exact within_append (within_mono (Nat.le_refl _) (by rw [htl, h2]; simp) h4) (within_mono j3 (Nat.le_refl _) g3)

end

/-! ### The specifications determine the text consumed -/

theorem lineComment_unique {marker r m m' : Str} (h : LineComment marker r m) (h' : LineComment marker r m') : m = m' := by
  obtain ⟨b, x, h1, rfl, h2, h3⟩ := h
  obtain ⟨b', x', h1', rfl, h2', h3'⟩ := h'
  rw [h1, List.append_assoc, List.append_assoc, List.append_cancel_left_eq] at h1'
  rw [List.append_cancel_left_eq]
  clear h1
  induction b generalizing b' with
  | nil =>
    cases b' with
    | nil => rfl
    | cons c b' =>
      rcases h3 with rfl | ⟨y, rfl⟩
      · simp at h1'
      · simp at h1'; rw [← h1'.1] at h2'; simp at h2'
  | cons c b ih =>
    cases b' with
    | nil =>
      rcases h3' with rfl | ⟨y, rfl⟩
      · simp at h1'
      · simp at h1'; rw [h1'.1] at h2; simp at h2
    | cons c' b' =>
      simp at h1'
      rw [h1'.1, ih (by simp at h2; exact h2.2) b' h1'.2 (by simp at h2'; exact h2'.2)]

theorem blockComment_unique {o c r m m' : Str} (h : BlockComment o c r m) (h' : BlockComment o c r m') : m = m' := by
  obtain ⟨a, h1, h2⟩ := h
  obtain ⟨a', h1', h2'⟩ := h'
  rw [h1, List.append_cancel_left_eq] at h1'
  subst h1'
  rcases h2 with ⟨b, x, e1, rfl, e3⟩ | ⟨e1, rfl⟩ <;> rcases h2' with ⟨b', x', e1', rfl, e3'⟩ | ⟨e1', rfl⟩
  · have hlen : b.length = b'.length := Nat.le_antisymm (e3 _ _ e1') (e3' _ _ e1)
    rw [e1, List.append_assoc, List.append_assoc] at e1'
    rw [(List.append_inj e1' hlen).1]
  · exact absurd e1 (e1' _ _)
  · exact absurd e1' (e1 _ _)
  · rfl

theorem reads_unique {o c s : Str} (ho : o ≠ []) (hc : c ≠ []) {ms ms' : List Mark} (h : Reads o c s ms) (h' : Reads o c s ms') :
    ms = ms' := by
  have hnil : ∀ {ms}, Reads o c [] ms → ms = [] := by
    intro ms h
    generalize hs : ([] : Str) = s at h
    cases h with
    | nil => rfl
    | opens _ => exact absurd (List.append_eq_nil_iff.mp hs.symm).1 ho
    | closes _ _ => exact absurd (List.append_eq_nil_iff.mp hs.symm).1 hc
    | char => cases hs
  induction h generalizing ms' with
  | nil => exact (hnil h').symm
  | @opens s ms h ih =>
    generalize hx : o ++ s = x at h'
    cases h' with
    | nil => exact absurd (List.append_eq_nil_iff.mp hx).1 ho
    | opens h' => rw [List.append_cancel_left_eq] at hx; subst hx; rw [ih h']
    | closes hn _ => exact absurd ⟨s, hx⟩ hn
    | char hn _ _ => exact absurd ⟨s, hx⟩ hn
  | @closes s ms hn h ih =>
    generalize hx : c ++ s = x at h' hn
    cases h' with
    | nil => exact absurd (List.append_eq_nil_iff.mp hx).1 hc
    | opens h' => exact absurd ⟨_, rfl⟩ hn
    | closes _ h' => rw [List.append_cancel_left_eq] at hx; subst hx; rw [ih h']
    | char _ hn' _ => exact absurd ⟨s, hx⟩ hn'
  | @char x s ms hn hn' h ih =>
    generalize hx : x :: s = y at h' hn hn'
    cases h' with
    | nil => cases hx
    | opens h' => exact absurd ⟨_, rfl⟩ hn
    | closes _ h' => exact absurd ⟨_, rfl⟩ hn'
    | char _ _ h' => cases hx; rw [ih h']

theorem nestedComment_unique {o c r m m' : Str} (ho : o ≠ []) (hc : c ≠ []) (h : NestedComment o c r m)
    (h' : NestedComment o c r m') : m = m' := by
  obtain ⟨a, ps, h1, h2, h3⟩ := h
  obtain ⟨a', ps', h1', h2', h3'⟩ := h'
  rw [h1, List.append_cancel_left_eq] at h1'
  subst h1'
  have := reads_unique ho hc h2 h2'
  subst this
  have shorter : ∀ {i x i' x' : List Mark}, i ++ x = i' ++ x' → i.count .closes = i.count .opens + 1 →
      (∀ a b, i' = a ++ b → b ≠ [] → a.count .closes ≤ a.count .opens) → ¬ i.length < i'.length := by
    intro i x i' x' he hcount hmin hlt
    have hpre : i <+: i' := by
      apply List.prefix_of_prefix_length_le ⟨x, rfl⟩ (by rw [he]; exact ⟨x', rfl⟩) (by omega)
    obtain ⟨y, hy⟩ := hpre
    have hyne : y ≠ [] := by rintro rfl; simp at hy; rw [hy] at hlt; omega
    have := hmin i y hy.symm hyne
    omega
  rcases h3 with ⟨i, x, e1, rfl, e3, e4⟩ | ⟨e1, rfl⟩ <;> rcases h3' with ⟨i', x', e1', rfl, e3', e4'⟩ | ⟨e1', rfl⟩
  · have he : i ++ x = i' ++ x' := by rw [← e1, ← e1']
    have h1 := shorter he e3 e4'
    have h2 := shorter he.symm e3' e4
    rw [(List.append_inj he (by omega)).1]
  · have := e1' i x e1; omega
  · have := e1 i' x' e1'; omega
  · rfl

theorem litBody_unique {q : Char} {esc : Option Char} (hq : esc ≠ some q) {b b' x x' : Str} (h : LitBody q esc b)
    (h' : LitBody q esc b') (he : b ++ q :: x = b' ++ q :: x') : b = b' := by
  induction h generalizing b' with
  | nil =>
    cases h' with
    | nil => rfl
    | plain h1 _ _ => simp at he; exact absurd he.1.symm h1
    | escaped h1 _ => simp at he; exact absurd (by rw [h1, he.1]) hq
  | plain h1 h2 _ ih =>
    cases h' with
    | nil => simp at he; exact absurd he.1 h1
    | plain _ _ h' => simp at he; rw [he.1, ih h' he.2]
    | escaped h3 _ => simp at he; exact absurd (by rw [h3, he.1]) h2
  | escaped h1 _ ih =>
    cases h' with
    | nil => simp at he; exact absurd (by rw [h1, he.1]) hq
    | plain _ h3 _ => simp at he; exact absurd (by rw [h1, he.1]) h3
    | escaped _ h' => simp at he; rw [he.1, he.2.1, ih h' he.2.2]

theorem literal_unique {q : Char} {esc : Option Char} (hq : esc ≠ some q) {r m m' : Str} {c c' : Bool}
    (h : Literal q esc r m c) (h' : Literal q esc r m' c') : m = m' ∧ c = c' := by
  cases c <;> cases c'
  · obtain ⟨_, _, rfl, _⟩ := h
    obtain ⟨_, _, rfl, _⟩ := h'
    exact ⟨rfl, rfl⟩
  · obtain ⟨a, h1, _, h2⟩ := h
    obtain ⟨b, x, h3, h4, _⟩ := h'
    rw [h1] at h3
    exact absurd (List.cons.inj h3).2 (h2 b x h4)
  · obtain ⟨a, h1, _, h2⟩ := h'
    obtain ⟨b, x, h3, h4, _⟩ := h
    rw [h1] at h3
    exact absurd (List.cons.inj h3).2 (h2 b x h4)
  · obtain ⟨b, x, h1, h2, rfl⟩ := h
    obtain ⟨b', x', h1', h2', rfl⟩ := h'
    rw [h1] at h1'
    rw [litBody_unique hq h2 h2' (List.cons.inj h1').2]
    exact ⟨rfl, rfl⟩

end Oaks
