import Verif.Proofs.ProgRun

/-! Parsers that put nodes into the sink twice: they read what the parser reads that does not. -/
namespace Oaks

namespace Prog

/-- The same statements without the second copies. -/
def bare : Prog → Prog
  | again => val true
  | back => val true
  | mark p => mark (bare p)
  | within k p => within k (bare p)
  | seq a b => seq (bare a) (bare b)
  | ite c a b => ite (bare c) (bare a) (bare b)
  | loop c b => loop (bare c) (bare b)
  | catch_ p => catch_ (bare p)
  | p => p

/-- The same tokens read, the same errors. -/
structure Like (s t : PState) : Prop where
  tokens : s.tokens = t.tokens
  index : s.index = t.index
  errors : s.errors = t.errors
  srcLen : s.srcLen = t.srcLen

theorem Like.current {s t : PState} (h : Like s t) : s.current = t.current := by
  unfold PState.current; rw [h.tokens, h.index]

theorem Like.atKind {s t : PState} (h : Like s t) (k : Nat) : s.atKind k = t.atKind k := by
  unfold PState.atKind PState.peekKind; rw [h.current]

theorem Like.currentOffset {s t : PState} (h : Like s t) : s.currentOffset = t.currentOffset := by
  unfold PState.currentOffset; rw [h.current, h.srcLen]

theorem Like.pushLeaf {s t : PState} (h : Like s t) (k n k' n' : Nat) : Like (s.pushLeaf k n) (t.pushLeaf k' n') :=
  ⟨h.tokens, h.index, h.errors, h.srcLen⟩

theorem Like.tokenAdvance {s t : PState} (h : Like s t) : Like s.tokenAdvance t.tokenAdvance :=
  ⟨h.tokens, by simp [PState.tokenAdvance, h.index], h.errors, h.srcLen⟩

theorem Like.record {s t : PState} (h : Like s t) (c : Nat) : Like (s.record c) (t.record c) :=
  ⟨h.tokens, h.index, by simp [PState.record, h.errors, h.currentOffset], h.srcLen⟩

theorem like_loop {ign : Nat → Bool} (fuel : Nat) {s t t' : PState} (h : Like s t) (ht : skipTriviaLoop ign fuel t = .ok t') :
    ∃ s', skipTriviaLoop ign fuel s = .ok s' ∧ Like s' t' := by
  induction fuel generalizing s t with
  | zero => simp [skipTriviaLoop] at ht
  | succ n ih =>
    rw [skipTriviaLoop] at ht ⊢
    rw [h.current]
    split at ht
    · split at ht
      · rename_i h1; rw [if_pos h1]; exact ih (h.pushLeaf _ _ _ _).tokenAdvance ht
      · rename_i h1; rw [if_neg h1]; injection ht with ht; subst ht; exact ⟨_, rfl, h⟩
    · injection ht with ht; subst ht; exact ⟨_, rfl, h⟩

theorem Like.advance {ign : Nat → Bool} {s t t' : PState} (h : Like s t) (ht : t.advance ign = .ok t') :
    ∃ s', s.advance ign = .ok s' ∧ Like s' t' := by
  unfold PState.advance PState.skipTrivia at ht ⊢
  have h1 := h.tokenAdvance
  rw [h1.tokens, h1.index]
  exact like_loop _ h1 ht

theorem Like.bump {ign : Nat → Bool} {s t t' : PState} (h : Like s t) (ht : t.bump ign = .ok t') :
    ∃ s', s.bump ign = .ok s' ∧ Like s' t' := by
  unfold PState.bump at ht ⊢
  rw [h.current]
  split at ht
  · exact (h.pushLeaf _ _ _ _).advance ht
  · injection ht with ht; subst ht; exact ⟨_, rfl, h⟩

theorem Like.eat {ign : Nat → Bool} {s t t' : PState} (h : Like s t) {k : Nat} {b : Bool} (ht : t.eat ign k = .ok (b, t')) :
    ∃ s', s.eat ign k = .ok (b, s') ∧ Like s' t' := by
  unfold PState.eat at ht ⊢
  rw [h.atKind]
  split at ht
  · rename_i hk
    cases hb : t.bump ign with
    | error e => rw [hb] at ht; cases ht
    | ok t1 =>
      rw [hb] at ht
      simp only [run_bind_ok, run_pure, Except.ok.injEq, Prod.mk.injEq] at ht
      obtain ⟨rfl, rfl⟩ := ht
      obtain ⟨s1, h1, h2⟩ := h.bump hb
      exact ⟨s1, by rw [if_pos hk, h1]; rfl, h2⟩
  · rename_i hk
    simp only [Except.ok.injEq, Prod.mk.injEq] at ht
    obtain ⟨rfl, rfl⟩ := ht
    exact ⟨s, by rw [if_neg hk], h⟩

theorem Like.expect {ign : Nat → Bool} {s t t' : PState} (h : Like s t) {k : Nat} {b : Bool} (ht : t.expect ign k = .ok (b, t')) :
    ∃ s', s.expect ign k = .ok (b, s') ∧ Like s' t' := by
  unfold PState.expect at ht ⊢
  cases he : t.eat ign k with
  | error e => rw [he] at ht; cases ht
  | ok r =>
    obtain ⟨b1, t1⟩ := r
    rw [he] at ht
    obtain ⟨s1, h1, h2⟩ := h.eat he
    rw [h1]
    simp only [run_bind_ok, run_pure, Except.ok.injEq] at ht ⊢
    cases b1 with
    | true => simp only [if_true, Prod.mk.injEq] at ht ⊢; obtain ⟨rfl, rfl⟩ := ht; exact ⟨s1, ⟨rfl, rfl⟩, h2⟩
    | false =>
      simp only [Bool.false_eq_true, if_false, Prod.mk.injEq] at ht ⊢
      obtain ⟨rfl, rfl⟩ := ht; exact ⟨_, ⟨rfl, rfl⟩, h2.record 1⟩

theorem sumLen_fails {acc : Nat} {cs : List Green} {e : Fail} (h : sumLen acc cs = .error e) : e = .panic := by
  induction cs generalizing acc with
  | nil => simp [sumLen] at h
  | cons c cs ih =>
    rw [sumLen] at h
    unfold addU32 at h
    split at h
    · simp only [run_bind_ok] at h; exact ih h
    · injection h with h; exact h.symm

theorem finishAt_fails {s : PState} {cp : Nat × Nat} {k : Nat} {e : Fail} (h : s.finishAt cp k = .error e) : e = .panic := by
  unfold PState.finishAt Green.mkNode at h
  split at h
  · cases hs : sumLen 0 ((s.sink.drop cp.2).map Entry.tree) with
    | error e' => rw [hs] at h; injection h with h; rw [← h]; exact sumLen_fails hs
    | ok n => rw [hs] at h; cases h
  · injection h with h; exact h.symm

/-- `finish_at` leaves tokens and errors alone. -/
theorem finishAt_like {s s' : PState} {cp : Nat × Nat} {k : Nat} {e : Entry} (h : s.finishAt cp k = .ok (e, s')) : Like s s' := by
  unfold PState.finishAt Green.mkNode at h
  split at h
  · cases hs : sumLen 0 ((s.sink.drop cp.2).map Entry.tree) with
    | error e' => rw [hs] at h; cases h
    | ok n =>
      rw [hs] at h
      simp only [run_bind_ok, run_pure, Except.ok.injEq, Prod.mk.injEq] at h
      rw [← h.2]; exact ⟨rfl, rfl, rfl, rfl⟩
  · cases h

theorem Like.trans {s t u : PState} (h : Like s t) (h' : Like t u) : Like s u :=
  ⟨h.tokens.trans h'.tokens, h.index.trans h'.index, h.errors.trans h'.errors, h.srcLen.trans h'.srcLen⟩

theorem Like.symm {s t : PState} (h : Like s t) : Like t s := ⟨h.tokens.symm, h.index.symm, h.errors.symm, h.srcLen.symm⟩

/-- The same local variables, but for the place of the checkpoint. -/
def Alike (l m : Loc) : Prop := l.regs = m.regs ∧ l.cp.1 = m.cp.1

theorem view_alike {src : Source} {l m : Loc} {s t : PState} (hl : Alike l m) (hs : Like s t) : view src l s = view src m t := by
  unfold view; rw [hl.1, hl.2, hs.tokens, hs.index]

/-- What follows the same path but for a panic. -/
def Same (r : Run (Out × Loc × PState)) (o : Out) (m : Loc) (t : PState) : Prop :=
  r = .error .panic ∨ ∃ l s, r = .ok (o, l, s) ∧ Like s t ∧ Alike l m

/-- A statement follows another. -/
def Follows (f g : Loc → PState → Run (Out × Loc × PState)) : Prop :=
  ∀ l s m t o m' t', Like s t → Alike l m → g m t = .ok (o, m', t') → Same (f l s) o m' t'

theorem turns_follow {c b c' b' : Loc → PState → Run (Out × Loc × PState)} (hc : Follows c c') (hb : Follows b b') (fuel : Nat) :
    Follows (turns c b fuel) (turns c' b' fuel) := by
  induction fuel with
  | zero => intro l s m t o m' t' _ _ h; simp [turns] at h
  | succ n ih =>
    intro l s m t o m' t' hs hl h
    rw [turns] at h ⊢
    cases hcm : c' m t with
    | error e => rw [hcm] at h; cases h
    | ok r =>
      obtain ⟨o1, m1, t1⟩ := r
      rw [hcm] at h
      rcases hc _ _ _ _ _ _ _ hs hl hcm with hp | ⟨l1, s1, h1, h2, h3⟩
      · rw [hp]; exact .inl rfl
      · rw [h1]
        cases o1 with
        | val v =>
          cases v with
          | true =>
            simp only at h ⊢
            cases hbm : b' m1 t1 with
            | error e => rw [hbm] at h; cases h
            | ok r =>
              obtain ⟨o2, m2, t2⟩ := r
              rw [hbm] at h
              rcases hb _ _ _ _ _ _ _ h2 h3 hbm with hp | ⟨l2, s2, k1, k2, k3⟩
              · rw [hp]; exact .inl rfl
              · rw [k1]
                cases o2 with
                | val _ => exact ih _ _ _ _ _ _ _ k2 k3 h
                | cont => exact ih _ _ _ _ _ _ _ k2 k3 h
                | brk => simp only [Except.ok.injEq, Prod.mk.injEq] at h; obtain ⟨rfl, rfl, rfl⟩ := h; exact .inr ⟨_, _, rfl, k2, k3⟩
                | ret _ => simp only [Except.ok.injEq, Prod.mk.injEq] at h; obtain ⟨rfl, rfl, rfl⟩ := h; exact .inr ⟨_, _, rfl, k2, k3⟩
                | err => simp only [Except.ok.injEq, Prod.mk.injEq] at h; obtain ⟨rfl, rfl, rfl⟩ := h; exact .inr ⟨_, _, rfl, k2, k3⟩
          | false => simp only [Except.ok.injEq, Prod.mk.injEq] at h; obtain ⟨rfl, rfl, rfl⟩ := h; exact .inr ⟨_, _, rfl, h2, h3⟩
        | cont => simp only [Except.ok.injEq, Prod.mk.injEq] at h; obtain ⟨rfl, rfl, rfl⟩ := h; exact .inr ⟨_, _, rfl, h2, h3⟩
        | brk => simp only [Except.ok.injEq, Prod.mk.injEq] at h; obtain ⟨rfl, rfl, rfl⟩ := h; exact .inr ⟨_, _, rfl, h2, h3⟩
        | ret _ => simp only [Except.ok.injEq, Prod.mk.injEq] at h; obtain ⟨rfl, rfl, rfl⟩ := h; exact .inr ⟨_, _, rfl, h2, h3⟩
        | err => simp only [Except.ok.injEq, Prod.mk.injEq] at h; obtain ⟨rfl, rfl, rfl⟩ := h; exact .inr ⟨_, _, rfl, h2, h3⟩

/-- The functions follow others. -/
def CallsFollow (c c' : Nat → PState → Run (Out × PState)) : Prop :=
  ∀ f s t o t', Like s t → c' f t = .ok (o, t') → c f s = .error .panic ∨ ∃ s', c f s = .ok (o, s') ∧ Like s' t'

theorem exec_follows {ign : Nat → Bool} {src : Source} {slack : Nat} {c c' : Nat → PState → Run (Out × PState)} (hcalls : CallsFollow c c')
    (p : Prog) : Follows (exec ign src slack c p) (exec ign src slack c' p.bare) := by
  induction p with
  | val b =>
    intro l s m t o m' t' hs hl h
    simp only [bare, exec, Except.ok.injEq, Prod.mk.injEq] at h; obtain ⟨rfl, rfl, rfl⟩ := h
    exact .inr ⟨l, s, rfl, hs, hl⟩
  | sees k =>
    intro l s m t o m' t' hs hl h
    simp only [bare, exec, Except.ok.injEq, Prod.mk.injEq] at h; obtain ⟨rfl, rfl, rfl⟩ := h
    exact .inr ⟨l, s, by rw [exec, hs.atKind], hs, hl⟩
  | more =>
    intro l s m t o m' t' hs hl h
    simp only [bare, exec, Except.ok.injEq, Prod.mk.injEq] at h; obtain ⟨rfl, rfl, rfl⟩ := h
    exact .inr ⟨l, s, by rw [exec, hs.index, hs.tokens], hs, hl⟩
  | ask f =>
    intro l s m t o m' t' hs hl h
    simp only [bare, exec, Except.ok.injEq, Prod.mk.injEq] at h; obtain ⟨rfl, rfl, rfl⟩ := h
    exact .inr ⟨l, s, by rw [exec, view_alike hl hs], hs, hl⟩
  | bump =>
    intro l s m t o m' t' hs hl h
    simp only [bare, exec] at h
    cases hb : t.bump ign with
    | error e => rw [hb] at h; cases h
    | ok t1 =>
      rw [hb] at h
      simp only [run_bind_ok, run_pure, Except.ok.injEq, Prod.mk.injEq] at h; obtain ⟨rfl, rfl, rfl⟩ := h
      obtain ⟨s1, h1, h2⟩ := hs.bump hb
      exact .inr ⟨l, s1, by simp only [exec, h1]; rfl, h2, hl⟩
  | advance =>
    intro l s m t o m' t' hs hl h
    simp only [bare, exec] at h
    cases hb : t.advance ign with
    | error e => rw [hb] at h; cases h
    | ok t1 =>
      rw [hb] at h
      simp only [run_bind_ok, run_pure, Except.ok.injEq, Prod.mk.injEq] at h; obtain ⟨rfl, rfl, rfl⟩ := h
      obtain ⟨s1, h1, h2⟩ := hs.advance hb
      exact .inr ⟨l, s1, by simp only [exec, h1]; rfl, h2, hl⟩
  | eat k =>
    intro l s m t o m' t' hs hl h
    simp only [bare, exec] at h
    cases hb : t.eat ign k with
    | error e => rw [hb] at h; cases h
    | ok r =>
      obtain ⟨b, t1⟩ := r
      rw [hb] at h
      simp only [run_bind_ok, run_pure, Except.ok.injEq, Prod.mk.injEq] at h; obtain ⟨rfl, rfl, rfl⟩ := h
      obtain ⟨s1, h1, h2⟩ := hs.eat hb
      exact .inr ⟨l, s1, by simp only [exec, h1]; rfl, h2, hl⟩
  | expect k =>
    intro l s m t o m' t' hs hl h
    simp only [bare, exec] at h
    cases hb : t.expect ign k with
    | error e => rw [hb] at h; cases h
    | ok r =>
      obtain ⟨b, t1⟩ := r
      rw [hb] at h
      simp only [run_bind_ok, run_pure, Except.ok.injEq, Prod.mk.injEq] at h; obtain ⟨rfl, rfl, rfl⟩ := h
      obtain ⟨s1, h1, h2⟩ := hs.expect hb
      exact .inr ⟨l, s1, by simp only [exec, h1]; rfl, h2, hl⟩
  | need k =>
    intro l s m t o m' t' hs hl h
    simp only [bare, exec] at h
    cases hb : t.expect ign k with
    | error e => rw [hb] at h; cases h
    | ok r =>
      obtain ⟨b, t1⟩ := r
      rw [hb] at h
      simp only [run_bind_ok, run_pure, Except.ok.injEq, Prod.mk.injEq] at h; obtain ⟨rfl, rfl, rfl⟩ := h
      obtain ⟨s1, h1, h2⟩ := hs.expect hb
      exact .inr ⟨l, s1, by simp only [exec, h1]; rfl, h2, hl⟩
  | fail code off =>
    intro l s m t o m' t' hs hl h
    simp only [bare, exec, Except.ok.injEq, Prod.mk.injEq] at h; obtain ⟨rfl, rfl, rfl⟩ := h
    refine .inr ⟨l, _, rfl, ⟨hs.tokens, hs.index, ?_, hs.srcLen⟩, hl⟩
    simp only [hs.errors, view_alike hl hs]
  | set r f =>
    intro l s m t o m' t' hs hl h
    simp only [bare, exec, Except.ok.injEq, Prod.mk.injEq] at h; obtain ⟨rfl, rfl, rfl⟩ := h
    refine .inr ⟨_, s, rfl, hs, ?_, hl.2⟩
    simp only [hl.1, view_alike hl hs]
  | finish k =>
    intro l s m t o m' t' hs hl h
    simp only [bare, exec] at h
    cases hb : t.finishAt m.cp (k m.regs) with
    | error e => rw [hb] at h; cases h
    | ok r =>
      obtain ⟨e, t1⟩ := r
      rw [hb] at h
      simp only [run_bind_ok, run_pure, Except.ok.injEq, Prod.mk.injEq] at h; obtain ⟨rfl, rfl, rfl⟩ := h
      cases hf : s.finishAt l.cp (k l.regs) with
      | error e => rw [finishAt_fails hf] at hf; exact .inl (by simp only [exec, hf]; rfl)
      | ok r =>
        obtain ⟨e', s1⟩ := r
        exact .inr ⟨l, s1, by simp only [exec, hf]; rfl, (finishAt_like hf).symm.trans (hs.trans (finishAt_like hb)), hl⟩
  | within k p ih =>
    intro l s m t o m' t' hs hl h
    simp only [bare, exec] at h
    split at h
    · rename_i o1 m1 t1 h1
      cases hb : t1.finishAt t.checkpoint k with
      | error e => rw [hb] at h; cases h
      | ok r =>
        obtain ⟨e, t2⟩ := r
        rw [hb] at h
        simp only [Except.ok.injEq, Prod.mk.injEq] at h; obtain ⟨rfl, rfl, rfl⟩ := h
        rcases ih { l with cp := s.checkpoint } s { m with cp := t.checkpoint } t _ _ _ hs ⟨hl.1, hs.index⟩ h1 with hp | ⟨l1, s1, k1, k2, k3⟩
        · exact .inl (by simp only [exec, hp])
        · cases hf : s1.finishAt s.checkpoint k with
          | error e => rw [finishAt_fails hf] at hf; exact .inl (by simp only [exec, k1, hf])
          | ok r =>
            obtain ⟨e', s2⟩ := r
            exact .inr ⟨{ l1 with cp := l.cp }, s2, by simp only [exec, k1, hf], (finishAt_like hf).symm.trans (k2.trans (finishAt_like hb)),
              k3.1, hl.2⟩
    · cases h
  | mark p ih =>
    intro l s m t o m' t' hs hl h
    simp only [bare, exec] at h
    split at h
    · rename_i o1 m1 t1 h1
      simp only [Except.ok.injEq, Prod.mk.injEq] at h; obtain ⟨rfl, rfl, rfl⟩ := h
      rcases ih { l with cp := s.checkpoint } s { m with cp := t.checkpoint } t _ _ _ hs ⟨hl.1, hs.index⟩ h1 with hp | ⟨l1, s1, k1, k2, k3⟩
      · exact .inl (by simp only [exec, hp])
      · exact .inr ⟨{ l1 with cp := l.cp }, s1, by simp only [exec, k1], k2, k3.1, hl.2⟩
    · cases h
  | remark =>
    intro l s m t o m' t' hs hl h
    simp only [bare, exec, Except.ok.injEq, Prod.mk.injEq] at h; obtain ⟨rfl, rfl, rfl⟩ := h
    exact .inr ⟨_, s, rfl, hs, hl.1, hs.index⟩
  | again =>
    intro l s m t o m' t' hs hl h
    simp only [bare, exec, Except.ok.injEq, Prod.mk.injEq] at h; obtain ⟨rfl, rfl, rfl⟩ := h
    rw [exec]
    split
    · exact .inr ⟨l, _, rfl, ⟨hs.tokens, hs.index, hs.errors, hs.srcLen⟩, hl⟩
    · exact .inl rfl
  | back =>
    intro l s m t o m' t' hs hl h
    simp only [bare, exec, Except.ok.injEq, Prod.mk.injEq] at h; obtain ⟨rfl, rfl, rfl⟩ := h
    exact .inr ⟨_, s, rfl, hs, hl⟩
  | seq a b iha ihb =>
    intro l s m t o m' t' hs hl h
    simp only [bare, exec] at h
    cases ha : exec ign src slack c' a.bare m t with
    | error e => rw [ha] at h; cases h
    | ok r =>
      obtain ⟨o1, m1, t1⟩ := r
      rw [ha] at h
      rcases iha _ _ _ _ _ _ _ hs hl ha with hp | ⟨l1, s1, k1, k2, k3⟩
      · exact .inl (by simp only [exec, hp])
      · rw [exec, k1]
        cases o1 with
        | val _ => exact ihb _ _ _ _ _ _ _ k2 k3 h
        | _ => simp only [Except.ok.injEq, Prod.mk.injEq] at h; obtain ⟨rfl, rfl, rfl⟩ := h; exact .inr ⟨_, _, rfl, k2, k3⟩
  | ite cc a b ihc iha ihb =>
    intro l s m t o m' t' hs hl h
    simp only [bare, exec] at h
    cases ha : exec ign src slack c' cc.bare m t with
    | error e => rw [ha] at h; cases h
    | ok r =>
      obtain ⟨o1, m1, t1⟩ := r
      rw [ha] at h
      rcases ihc _ _ _ _ _ _ _ hs hl ha with hp | ⟨l1, s1, k1, k2, k3⟩
      · exact .inl (by simp only [exec, hp])
      · rw [exec, k1]
        cases o1 with
        | val v =>
          cases v with
          | true => exact iha _ _ _ _ _ _ _ k2 k3 h
          | false => exact ihb _ _ _ _ _ _ _ k2 k3 h
        | _ => simp only [Except.ok.injEq, Prod.mk.injEq] at h; obtain ⟨rfl, rfl, rfl⟩ := h; exact .inr ⟨_, _, rfl, k2, k3⟩
  | loop cc b ihc ihb =>
    intro l s m t o m' t' hs hl h
    simp only [bare, exec] at h
    rw [exec, hs.tokens, hs.index]
    exact turns_follow ihc ihb _ _ _ _ _ _ _ _ hs hl h
  | brk =>
    intro l s m t o m' t' hs hl h
    simp only [bare, exec, Except.ok.injEq, Prod.mk.injEq] at h; obtain ⟨rfl, rfl, rfl⟩ := h
    exact .inr ⟨l, s, rfl, hs, hl⟩
  | cont =>
    intro l s m t o m' t' hs hl h
    simp only [bare, exec, Except.ok.injEq, Prod.mk.injEq] at h; obtain ⟨rfl, rfl, rfl⟩ := h
    exact .inr ⟨l, s, rfl, hs, hl⟩
  | ret b =>
    intro l s m t o m' t' hs hl h
    simp only [bare, exec, Except.ok.injEq, Prod.mk.injEq] at h; obtain ⟨rfl, rfl, rfl⟩ := h
    exact .inr ⟨l, s, rfl, hs, hl⟩
  | catch_ p ih =>
    intro l s m t o m' t' hs hl h
    simp only [bare, exec] at h
    cases ha : exec ign src slack c' p.bare m t with
    | error e => rw [ha] at h; cases h
    | ok r =>
      obtain ⟨o1, m1, t1⟩ := r
      rw [ha] at h
      rcases ih _ _ _ _ _ _ _ hs hl ha with hp | ⟨l1, s1, k1, k2, k3⟩
      · exact .inl (by simp only [exec, hp])
      · rw [exec, k1]
        cases o1 with
        | _ => simp only [Except.ok.injEq, Prod.mk.injEq] at h; obtain ⟨rfl, rfl, rfl⟩ := h; exact .inr ⟨_, _, rfl, k2, k3⟩
  | call f =>
    intro l s m t o m' t' hs hl h
    simp only [bare, exec] at h
    split at h
    · rename_i o1 t1 h1
      simp only [Except.ok.injEq, Prod.mk.injEq] at h; obtain ⟨rfl, rfl, rfl⟩ := h
      rcases hcalls _ _ _ _ _ hs h1 with hp | ⟨s1, k1, k2⟩
      · exact .inl (by simp only [exec, hp])
      · exact .inr ⟨l, s1, by simp only [exec, k1], k2, hl⟩
    · cases h

theorem calls_follow {ign : Nat → Bool} {src : Source} {slack : Nat} {procs : List Prog} (depth : Nat) :
    CallsFollow (calls ign src slack procs depth) (calls ign src slack (procs.map bare) depth) := by
  induction depth with
  | zero => intro f s t o t' _ h; simp [calls] at h
  | succ n ih =>
    intro f s t o t' hs h
    rw [calls] at h ⊢
    rw [List.getElem?_map] at h
    cases hp : procs[f]? with
    | none => rw [hp] at h; cases h
    | some p =>
      rw [hp] at h
      simp only [Option.map_some] at h ⊢
      cases he : exec ign src slack (calls ign src slack (procs.map bare) n) p.bare ⟨t.checkpoint, fun _ => 0⟩ t with
      | error e => rw [he] at h; cases h
      | ok r =>
        obtain ⟨o1, m1, t1⟩ := r
        rw [he] at h
        rcases exec_follows ih p ⟨s.checkpoint, fun _ => 0⟩ s ⟨t.checkpoint, fun _ => 0⟩ t _ _ _ hs ⟨rfl, hs.index⟩ he with hp | ⟨l1, s1, k1, k2, _⟩
        · rw [hp]; exact .inl rfl
        · rw [k1]
          cases o1 with
          | _ => simp only [Except.ok.injEq, Prod.mk.injEq] at h; obtain ⟨rfl, rfl⟩ := h; exact .inr ⟨s1, rfl, k2⟩

end Prog

namespace HandParser
open Prog

/-- The same parser without the second copies. -/
def bare (h : HandParser) : HandParser := { h with main := h.main.bare, procs := h.procs.map Prog.bare }

/-- A parser reads what it reads without the second copies, unless a length is too large. -/
theorem parse_follows {h : HandParser} {slack : Nat} {src : Source} {toks : List Tok} {o : Option Green} {errs : List PErr}
    (hr : h.bare.parse slack src toks = .ok (o, errs)) :
    h.parse slack src toks = .error .panic ∨ ∃ o', h.parse slack src toks = .ok (o', errs) ∧ (o' = none ↔ o = none) := by
  unfold parse at hr ⊢
  change ((PState.new (fun k => h.ign.contains k) toks src.length) >>= fun s => h.main.bare.exec (fun k => h.ign.contains k) src slack
    (Prog.calls (fun k => h.ign.contains k) src slack (h.procs.map Prog.bare)
      (slack + ((toks.length + 1) * ((h.procs.map Prog.bare).length + 1) + 1))) ⟨h.begins s, fun _ => 0⟩ s >>= fun r =>
      h.done (h.begins s) r) = _ at hr
  rw [List.length_map] at hr
  cases hn : PState.new (fun k => h.ign.contains k) toks src.length with
  | error e => rw [hn] at hr; cases hr
  | ok s =>
    rw [hn, run_bind_ok] at hr
    rw [run_bind_ok]
    cases he : h.main.bare.exec (fun k => h.ign.contains k) src slack
        (Prog.calls (fun k => h.ign.contains k) src slack (h.procs.map Prog.bare) (slack + ((toks.length + 1) * (h.procs.length + 1) + 1)))
        ⟨h.begins s, fun _ => 0⟩ s with
    | error e => rw [he] at hr; cases hr
    | ok r =>
      obtain ⟨o1, m1, t1⟩ := r
      rw [he, run_bind_ok] at hr
      rcases exec_follows (calls_follow _) h.main _ s _ _ _ _ _ ⟨rfl, rfl, rfl, rfl⟩ ⟨rfl, rfl⟩ he with hp | ⟨l1, s1, k1, k2, _⟩
      · rw [hp]; exact .inl rfl
      · rw [k1, run_bind_ok]
        unfold done at hr ⊢
        cases o1 with
        | err => simp only [Except.ok.injEq, Prod.mk.injEq] at hr ⊢; exact .inr ⟨none, ⟨rfl, by rw [k2.errors]; exact hr.2⟩, by simp [← hr.1]⟩
        | _ =>
          simp only at hr ⊢
          cases hb : t1.finishAt (h.begins s) h.root with
          | error e => rw [hb] at hr; cases hr
          | ok r =>
            obtain ⟨e, t2⟩ := r
            rw [hb] at hr
            simp only [run_bind_ok, run_pure, Except.ok.injEq, Prod.mk.injEq] at hr
            cases hf : s1.finishAt (h.begins s) h.root with
            | error e => have := finishAt_fails hf; subst this; exact .inl rfl
            | ok r =>
              obtain ⟨e', s2⟩ := r
              refine .inr ⟨some e'.tree, ?_, by simp [← hr.1]⟩
              simp only [run_bind_ok, run_pure, Except.ok.injEq, Prod.mk.injEq, true_and]
              rw [← hr.2, ← (finishAt_like hf).errors, ← (finishAt_like hb).errors, k2.errors]

/-- A parser that passes the check without the second copies does not run on forever. -/
theorem parse_stops {h : HandParser} {S : List Sum} {R : Res} (hj : h.bare.judge S = some R) {slack : Nat} {src : Source} {toks : List Tok}
    (hl : (toks.map Tok.length).sum < 2 ^ 32) :
    h.parse slack src toks = .error .panic ∨
    ∃ o errs o', h.parse slack src toks = .ok (o, errs) ∧ h.bare.parse slack src toks = .ok (o', errs) ∧ (o = none ↔ o' = none) ∧
      (R.err.isNever = true → o ≠ none) := by
  obtain ⟨o, errs, h1, h2, _⟩ := parse_ends hj (slack := slack) (src := src) hl
  rcases parse_follows h1 with hp | ⟨o', k1, k2⟩
  · exact .inl hp
  · exact .inr ⟨o', errs, o, k1, h1, k2, fun hn ho => h2 hn (k2.1 ho)⟩

/-- The analysis accepts the parser with these claims; at the end nothing is left; if so said, no error is ever returned in place of the
tree. -/
def firm (h : HandParser) (S : List Sum) (tree : Bool) : Bool :=
  match h.judge S with
  | none => false
  | some R => (!tree || R.err.isNever) && !(ending R).neg && (ending R).ks.isEmpty

end HandParser
end Oaks
