import Verif.Spec.Parser
import Verif.Proofs.Tree
import Verif.Proofs.Edits

namespace Oaks
open Spec

variable {ign : Nat → Bool}

/-! ## Token movement -/

theorem skipTriviaLoop_spec (fuel : Nat) (s : PState) (hf : s.tokens.length - s.index < fuel) :
    ∃ (k : Nat) (es : List Entry), skipTriviaLoop ign fuel s =
        .ok { s with index := s.index + k, sink := s.sink ++ es } ∧
      s.index + k ≤ max s.index s.tokens.length ∧
      es = ((s.tokens.drop s.index).take k).map (fun t => ⟨.leaf t.kind (t.length % 2 ^ 32) none, 0⟩) ∧
      (∀ t ∈ (s.tokens.drop s.index).take k, ign t.kind = true) ∧
      (∀ t, s.tokens[s.index + k]? = some t → ign t.kind = false) := by
  induction fuel generalizing s with
  | zero => omega
  | succ fuel ih =>
    rw [skipTriviaLoop]
    unfold PState.current
    cases hc : s.tokens[s.index]? with
    | none => exact ⟨0, [], by simp, by omega, by simp, by simp, by simp [hc]⟩
    | some t =>
      obtain ⟨hi, ht⟩ := List.getElem?_eq_some_iff.1 hc
      cases hig : ign t.kind with
      | false => exact ⟨0, [], by simp [hig], by omega, by simp, by simp, by simp [hc, hig]⟩
      | true =>
        simp only [hig, if_true]
        obtain ⟨k, es, h1, h2, h3, h4, h5⟩ := ih (s.pushLeaf t.kind t.length).tokenAdvance (by
          simp [PState.tokenAdvance, PState.pushLeaf]; omega)
        simp only [PState.tokenAdvance, PState.pushLeaf] at h1 h2 h3 h4 h5
        refine ⟨k + 1, ⟨.leaf t.kind (t.length % 2 ^ 32) none, 0⟩ :: es, ?_, by omega, ?_, ?_, ?_⟩
        · simp only [PState.tokenAdvance, PState.pushLeaf]
          rw [h1]
          simp [Nat.add_assoc, Nat.add_comm 1 k]
        · rw [List.drop_eq_getElem_cons hi]
          simp [h3, ht]
        · rw [List.drop_eq_getElem_cons hi]
          intro u hu
          simp only [List.take_succ_cons, List.mem_cons] at hu
          rcases hu with rfl | hu
          · rw [ht]; exact hig
          · exact h4 u hu
        · intro u hu
          apply h5 u
          rw [← hu]; congr 1; omega

/-- What `skip_trivia` does: it consumes the run of trivia tokens into leaves. -/
theorem skipTrivia_spec (s : PState) :
    ∃ (k : Nat) (es : List Entry), s.skipTrivia ign = .ok { s with index := s.index + k, sink := s.sink ++ es } ∧
      s.index + k ≤ max s.index s.tokens.length ∧
      es = ((s.tokens.drop s.index).take k).map (fun t => ⟨.leaf t.kind (t.length % 2 ^ 32) none, 0⟩) ∧
      (∀ t ∈ (s.tokens.drop s.index).take k, ign t.kind = true) ∧
      (∀ t, s.tokens[s.index + k]? = some t → ign t.kind = false) :=
  skipTriviaLoop_spec _ s (by omega)

theorem leavesOfList_leaves (ts : List Tok) :
    leavesOfList ((ts.map (fun t => (⟨.leaf t.kind (t.length % 2 ^ 32) none, 0⟩ : Entry))).map Entry.tree) =
      ts.map (fun t => (t.kind, t.length % 2 ^ 32)) := by
  induction ts with
  | nil => simp [leavesOfList]
  | cons t ts ih => simpa [leavesOfList, leavesOf] using ih

/-- The consumed tokens are the leaves. -/
structure Consumed (toks : List Tok) (s : PState) : Prop where
  tokens : s.tokens = toks
  le : s.index ≤ toks.length
  leaves : sinkLeaves s = (toks.take s.index).map (fun t => (t.kind, t.length % 2 ^ 32))

theorem Consumed.skipTrivia {toks : List Tok} {s : PState} (h : Consumed toks s) :
    ∃ s', s.skipTrivia ign = .ok s' ∧ Consumed toks s' := by
  obtain ⟨k, es, h1, h2, h3, h4, h5⟩ := skipTrivia_spec (ign := ign) s
  refine ⟨_, h1, h.tokens, ?_, ?_⟩
  · have := h.le; simp only [h.tokens] at h2 ⊢; omega
  · simp only [sinkLeaves, List.map_append, leavesOfList_append]
    have := h.leaves
    simp only [sinkLeaves] at this
    rw [this, h3, leavesOfList_leaves, h.tokens, List.take_add, List.map_append]

theorem Consumed.bump {toks : List Tok} {s : PState} (h : Consumed toks s) :
    ∃ s', s.bump ign = .ok s' ∧ Consumed toks s' := by
  unfold PState.bump PState.current
  rw [h.tokens]
  cases hc : toks[s.index]? with
  | none => exact ⟨s, rfl, h⟩
  | some t =>
    obtain ⟨hi, ht⟩ := List.getElem?_eq_some_iff.1 hc
    apply Consumed.skipTrivia
    refine ⟨h.tokens, by simp [PState.tokenAdvance, PState.pushLeaf]; omega, ?_⟩
    simp only [PState.tokenAdvance, PState.pushLeaf, sinkLeaves, List.map_append, leavesOfList_append]
    have := h.leaves
    simp only [sinkLeaves] at this
    rw [this, List.take_succ_eq_append_getElem hi]
    simp [leavesOfList, leavesOf, ht]

theorem Consumed.eat {toks : List Tok} {s : PState} (h : Consumed toks s) (k : Nat) :
    ∃ b s', s.eat ign k = .ok (b, s') ∧ Consumed toks s' := by
  unfold PState.eat
  split
  · obtain ⟨s', h1, h2⟩ := h.bump (ign := ign)
    exact ⟨true, s', by rw [h1]; rfl, h2⟩
  · exact ⟨false, s, rfl, h⟩

theorem Consumed.expect {toks : List Tok} {s : PState} (h : Consumed toks s) (k : Nat) :
    ∃ b s', s.expect ign k = .ok (b, s') ∧ Consumed toks s' := by
  obtain ⟨b, s', h1, h2⟩ := h.eat (ign := ign) k
  unfold PState.expect
  rw [h1]
  cases b with
  | true => exact ⟨true, s', rfl, h2⟩
  | false => exact ⟨false, s'.record 1, rfl, h2.tokens, h2.le, h2.leaves⟩

theorem finishAt_leaves {s s' : PState} {e : Entry} {cp : Nat × Nat} {k : Nat} (h : s.finishAt cp k = .ok (e, s')) :
    sinkLeaves s' = sinkLeaves s ∧ s'.tokens = s.tokens ∧ s'.index = s.index ∧
      cp.2 ≤ s.sink.length ∧ s'.sink = s.sink.take cp.2 ++ [e] ∧ s'.errors = s.errors := by
  unfold PState.finishAt at h
  split at h
  · rename_i hle
    cases hm : Green.mkNode k ((s.sink.drop cp.2).map Entry.tree) with
    | error x => rw [hm] at h; simp at h
    | ok g =>
      rw [hm] at h
      simp only [run_bind_ok, run_pure, Except.ok.injEq, Prod.mk.injEq] at h
      obtain ⟨rfl, rfl⟩ := h
      obtain ⟨rfl, _⟩ := mkNode_ok.1 hm
      refine ⟨?_, rfl, rfl, hle, rfl, rfl⟩
      simp only [sinkLeaves, List.map_append, leavesOfList_append]
      simp only [List.map_cons, List.map_nil, leavesOfList, leavesOf, List.append_nil]
      rw [← leavesOfList_append, ← List.map_append, List.take_append_drop]
  · simp at h

theorem Consumed.run {toks : List Tok} {s s' : PState} (h : Consumed toks s) (op : POp) (hop : op.building)
    (hr : op.run ign s = .ok s') : Consumed toks s' := by
  cases op with
  | bump =>
    obtain ⟨s2, h1, h2⟩ := h.bump (ign := ign)
    simp only [POp.run, h1, Except.ok.injEq] at hr
    exact hr ▸ h2
  | eat k =>
    obtain ⟨b, s2, h1, h2⟩ := h.eat (ign := ign) k
    simp only [POp.run, h1, run_bind_ok, run_pure, Except.ok.injEq] at hr
    exact hr ▸ h2
  | expect k =>
    obtain ⟨b, s2, h1, h2⟩ := h.expect (ign := ign) k
    simp only [POp.run, h1, run_bind_ok, run_pure, Except.ok.injEq] at hr
    exact hr ▸ h2
  | skipTrivia =>
    obtain ⟨s2, h1, h2⟩ := h.skipTrivia (ign := ign)
    simp only [POp.run, h1, Except.ok.injEq] at hr
    exact hr ▸ h2
  | record c =>
    simp only [POp.run, Except.ok.injEq] at hr
    subst hr
    exact ⟨h.tokens, h.le, h.leaves⟩
  | finish cp k =>
    cases hf : s.finishAt cp k with
    | error x => simp [POp.run, hf] at hr
    | ok r =>
      obtain ⟨e, s2⟩ := r
      simp only [POp.run, hf, run_bind_ok, run_pure, Except.ok.injEq] at hr
      subst hr
      obtain ⟨h1, h2, h3, _⟩ := finishAt_leaves hf
      exact ⟨by rw [h2, h.tokens], by rw [h3]; exact h.le, by rw [h1, h3]; exact h.leaves⟩
  | advance => exact hop.elim
  | advanceUntil k => exact hop.elim
  | restore cp => exact hop.elim
  | push e => exact hop.elim
  | reuse k => exact hop.elim

theorem Consumed.runAll {toks : List Tok} {s s' : PState} (h : Consumed toks s) (ops : List POp)
    (hops : ∀ op ∈ ops, op.building) (hr : POp.runAll ign s ops = .ok s') : Consumed toks s' := by
  induction ops generalizing s with
  | nil => simp [POp.runAll] at hr; exact hr ▸ h
  | cons op ops ih =>
    rw [POp.runAll] at hr
    cases h1 : op.run ign s with
    | error x => rw [h1] at hr; simp at hr
    | ok s2 =>
      rw [h1, run_bind_ok] at hr
      exact ih (h.run op (hops op (by simp)) h1) (fun o ho => hops o (by simp [ho])) hr

theorem Consumed.new (toks : List Tok) (n : Nat) :
    ∃ s, PState.new ign toks n = .ok s ∧ Consumed toks s :=
  Consumed.skipTrivia ⟨rfl, by simp, by simp [sinkLeaves, leavesOfList]⟩

/-! ## Lengths -/

theorem Spec.TokTiles.take {a b : Nat} {ts : List Tok} (h : TokTiles a ts b) :
    ∀ k, k ≤ ts.length → TokTiles a (ts.take k) (match ts[k]? with | some t => t.start | none => b) := by
  induction h with
  | nil a => intro k hk; simp at hk; subst hk; exact .nil _
  | @cons a b t ts h1 h2 h3 ih =>
    intro k hk
    cases k with
    | zero => simp only [List.take_zero, List.getElem?_cons_zero]; rw [h1]; exact .nil _
    | succ k => simp only [List.take_succ_cons, List.getElem?_cons_succ]; exact .cons h1 h2 (ih k (by simpa using hk))

theorem Spec.TokTiles.drop {a b : Nat} {ts : List Tok} (h : TokTiles a ts b) :
    ∀ k, k ≤ ts.length → TokTiles (match ts[k]? with | some t => t.start | none => b) (ts.drop k) b := by
  induction h with
  | nil a => intro k hk; simp at hk; subst hk; exact .nil _
  | @cons a b t ts h1 h2 h3 ih =>
    intro k hk
    cases k with
    | zero => simp only [List.drop_zero, List.getElem?_cons_zero]; exact .cons rfl h2 h3
    | succ k => simp only [List.drop_succ_cons, List.getElem?_cons_succ]; exact ih k (by simpa using hk)

theorem Spec.TokTiles.sum {a b : Nat} {ts : List Tok} (h : TokTiles a ts b) :
    a + (ts.map Tok.length).sum = b := by
  induction h with
  | nil a => simp
  | cons h1 h2 h3 ih => simp [Tok.length]; omega

theorem Spec.TokTiles.le {a b : Nat} {ts : List Tok} (h : TokTiles a ts b) : a ≤ b := by
  have := h.sum; omega

theorem Spec.TokTiles.small {a b : Nat} {ts : List Tok} (h : TokTiles a ts b) (hb : b < 2 ^ 32) :
    ∀ t ∈ ts, t.length % 2 ^ 32 = t.length := by
  induction h with
  | nil => simp
  | cons h1 h2 h3 ih =>
    intro t ht
    simp only [List.mem_cons] at ht
    rcases ht with rfl | ht
    · have := h3.le
      exact Nat.mod_eq_of_lt (by simp [Tok.length]; omega)
    · exact ih hb t ht

/-! ## Backtracking -/

/-- The first `base` children are untouched. -/
structure Keeps (base : List Entry) (s s' : PState) : Prop where
  tokens : s'.tokens = s.tokens
  sink : ∃ es, s'.sink = base ++ es
  errors : ∃ xs, s'.errors = s.errors ++ xs

theorem skipTrivia_keeps {base : List Entry} {s s' : PState} (hb : ∃ es, s.sink = base ++ es)
    (h : s.skipTrivia ign = .ok s') : Keeps base s s' := by
  obtain ⟨k, es, h1, _⟩ := skipTrivia_spec (ign := ign) s
  rw [h1] at h
  simp only [Except.ok.injEq] at h
  subst h
  obtain ⟨es', hes⟩ := hb
  exact ⟨rfl, ⟨es' ++ es, by simp [hes]⟩, ⟨[], by simp⟩⟩

theorem bump_keeps {base : List Entry} {s s' : PState} (hb : ∃ es, s.sink = base ++ es)
    (h : s.bump ign = .ok s') : Keeps base s s' := by
  unfold PState.bump at h
  split at h
  · rename_i t _
    unfold PState.advance at h
    have := skipTrivia_keeps (base := base) (s := (s.pushLeaf t.kind t.length).tokenAdvance) (by
      obtain ⟨es', hes⟩ := hb
      exact ⟨es' ++ [_], by simp only [PState.pushLeaf, PState.tokenAdvance]; rw [hes, List.append_assoc]⟩) h
    exact ⟨this.tokens, this.sink, this.errors⟩
  · simp only [Except.ok.injEq] at h; subst h; exact ⟨rfl, hb, ⟨[], by simp⟩⟩

theorem eat_keeps {base : List Entry} {s : PState} {k : Nat} {r : Bool × PState} (hb : ∃ es, s.sink = base ++ es)
    (h : s.eat ign k = .ok r) : Keeps base s r.2 := by
  unfold PState.eat at h
  split at h
  · cases h1 : s.bump ign with
    | error x => rw [h1] at h; simp at h
    | ok s2 =>
      rw [h1] at h
      simp only [run_bind_ok, run_pure, Except.ok.injEq] at h
      subst h
      exact bump_keeps hb h1
  · simp only [Except.ok.injEq] at h; subst h; exact ⟨rfl, hb, ⟨[], by simp⟩⟩

theorem expect_keeps {base : List Entry} {s : PState} {k : Nat} {r : Bool × PState} (hb : ∃ es, s.sink = base ++ es)
    (h : s.expect ign k = .ok r) : Keeps base s r.2 := by
  unfold PState.expect at h
  cases h1 : s.eat ign k with
  | error x => rw [h1] at h; simp at h
  | ok q =>
    obtain ⟨b, s2⟩ := q
    rw [h1] at h
    have hk := eat_keeps hb h1
    cases b with
    | true =>
      simp only [run_bind_ok, run_pure, Except.ok.injEq, if_true] at h
      subst h; exact hk
    | false =>
      simp only [run_bind_ok, run_pure, Except.ok.injEq] at h
      simp at h
      subst h
      obtain ⟨xs, hx⟩ := hk.errors
      refine ⟨hk.tokens, hk.sink, ⟨xs ++ [⟨1, s2.currentOffset⟩], ?_⟩⟩
      show s2.errors ++ _ = _
      simp only at hx
      rw [hx, List.append_assoc]

theorem advanceUntilLoop_keeps {base : List Entry} (k fuel : Nat) {s s' : PState} (hb : ∃ es, s.sink = base ++ es)
    (h : advanceUntilLoop ign k fuel s = .ok s') : Keeps base s s' := by
  induction fuel generalizing s with
  | zero => simp [advanceUntilLoop] at h
  | succ fuel ih =>
    rw [advanceUntilLoop] at h
    split at h
    · cases h1 : s.advance ign with
      | error x => rw [h1] at h; simp at h
      | ok s2 =>
        rw [h1, run_bind_ok] at h
        have hk := skipTrivia_keeps (base := base) (s := s.tokenAdvance) hb h1
        have hk2 := ih hk.sink h
        obtain ⟨x1, hx1⟩ := hk.errors
        obtain ⟨x2, hx2⟩ := hk2.errors
        exact ⟨hk2.tokens.trans hk.tokens, hk2.sink, ⟨x1 ++ x2, by rw [hx2, hx1]; simp [PState.tokenAdvance]⟩⟩
    · simp only [Except.ok.injEq] at h; subst h; exact ⟨rfl, hb, ⟨[], by simp⟩⟩

theorem reuseLoop_keeps {base : List Entry} {s : PState} (kind newPos target steps : Nat) (inc : Inc) {r : Bool × PState}
    (hb : ∃ es, s.sink = base ++ es) (h : reuseLoop s kind newPos target steps inc = .ok r) : Keeps base s r.2 := by
  induction steps generalizing inc with
  | zero =>
    rw [reuseLoop] at h
    split at h
    · rename_i node c _
      cases hd : deepClone node with
      | error x => rw [hd] at h; simp at h
      | ok g =>
        rw [hd] at h
        simp only [run_bind_ok, run_pure, Except.ok.injEq] at h
        subst h
        obtain ⟨es, hes⟩ := hb
        exact ⟨rfl, ⟨es ++ [_], by simp only; rw [hes, List.append_assoc]⟩, ⟨[], by simp⟩⟩
    · split at h
      · simp only [Except.ok.injEq] at h; subst h; exact ⟨rfl, hb, ⟨[], by simp⟩⟩
      · simp only [Except.ok.injEq] at h; subst h; exact ⟨rfl, hb, ⟨[], by simp⟩⟩
  | succ steps ih =>
    rw [reuseLoop] at h
    split at h
    · rename_i node c _
      cases hd : deepClone node with
      | error x => rw [hd] at h; simp at h
      | ok g =>
        rw [hd] at h
        simp only [run_bind_ok, run_pure, Except.ok.injEq] at h
        subst h
        obtain ⟨es, hes⟩ := hb
        exact ⟨rfl, ⟨es ++ [_], by simp only; rw [hes, List.append_assoc]⟩, ⟨[], by simp⟩⟩
    · split at h
      · simp only [Except.ok.injEq] at h; subst h; exact ⟨rfl, hb, ⟨[], by simp⟩⟩
      · exact ih _ h

theorem run_keeps {base : List Entry} {s s' : PState} (hb : ∃ es, s.sink = base ++ es) (op : POp)
    (hop : op.above base.length) (h : op.run ign s = .ok s') : Keeps base s s' := by
  cases op with
  | bump => exact bump_keeps hb h
  | eat k =>
    simp only [POp.run] at h
    cases h1 : s.eat ign k with
    | error x => rw [h1] at h; simp at h
    | ok r => rw [h1] at h; simp only [run_bind_ok, run_pure, Except.ok.injEq] at h; subst h; exact eat_keeps hb h1
  | expect k =>
    simp only [POp.run] at h
    cases h1 : s.expect ign k with
    | error x => rw [h1] at h; simp at h
    | ok r => rw [h1] at h; simp only [run_bind_ok, run_pure, Except.ok.injEq] at h; subst h; exact expect_keeps hb h1
  | advance =>
    have := skipTrivia_keeps (base := base) (s := s.tokenAdvance) hb h
    exact ⟨this.tokens, this.sink, this.errors⟩
  | skipTrivia => exact skipTrivia_keeps hb h
  | advanceUntil k => exact advanceUntilLoop_keeps k _ hb h
  | record c =>
    simp only [POp.run, Except.ok.injEq] at h
    subst h
    exact ⟨rfl, hb, ⟨[_], rfl⟩⟩
  | finish cp k =>
    simp only [POp.run] at h
    cases h1 : s.finishAt cp k with
    | error x => rw [h1] at h; simp at h
    | ok r =>
      obtain ⟨e, s2⟩ := r
      rw [h1] at h; simp only [run_bind_ok, run_pure, Except.ok.injEq] at h; subst h
      obtain ⟨_, h2, _, h4, h5, h6⟩ := finishAt_leaves h1
      obtain ⟨es, hes⟩ := hb
      simp only [POp.above] at hop
      refine ⟨h2, ⟨es.take (cp.2 - base.length) ++ [e], ?_⟩, ⟨[], by simp [h6]⟩⟩
      rw [h5, hes, List.take_append, List.take_of_length_le hop, List.append_assoc]
  | restore cp =>
    simp only [POp.run, Except.ok.injEq] at h
    subst h
    obtain ⟨es, hes⟩ := hb
    simp only [POp.above] at hop
    refine ⟨rfl, ⟨es.take (cp.2 - base.length), ?_⟩, ⟨[], by simp [PState.restore]⟩⟩
    simp only [PState.restore]
    rw [hes, List.take_append, List.take_of_length_le hop]
  | push e =>
    simp only [POp.run, Except.ok.injEq] at h
    subst h
    obtain ⟨es, hes⟩ := hb
    exact ⟨rfl, ⟨es ++ [e], by simp only [PState.pushChild]; rw [hes, List.append_assoc]⟩, ⟨[], by simp [PState.pushChild]⟩⟩
  | reuse k =>
    simp only [POp.run] at h
    cases h1 : s.tryReuse k with
    | error x => rw [h1] at h; simp at h
    | ok r =>
      rw [h1] at h; simp only [run_bind_ok, run_pure, Except.ok.injEq] at h; subst h
      unfold PState.tryReuse at h1
      split at h1
      · simp only [Except.ok.injEq] at h1; subst h1; exact ⟨rfl, hb, ⟨[], by simp⟩⟩
      · rename_i inc _
        cases hm : inc.mapNewToOld s.currentOffset with
        | error x => rw [hm] at h1; simp at h1
        | ok q =>
          rw [hm, run_bind_ok] at h1
          cases q with
          | none =>
            simp only [run_pure, Except.ok.injEq] at h1
            subst h1; exact ⟨rfl, hb, ⟨[], by simp⟩⟩
          | some target => exact reuseLoop_keeps _ _ _ _ _ hb h1

theorem runAll_keeps {base : List Entry} {s s' : PState} (hb : ∃ es, s.sink = base ++ es) (ops : List POp)
    (hops : ∀ op ∈ ops, op.above base.length) (h : POp.runAll ign s ops = .ok s') : Keeps base s s' := by
  induction ops generalizing s with
  | nil => simp only [POp.runAll, Except.ok.injEq] at h; subst h; exact ⟨rfl, hb, ⟨[], by simp⟩⟩
  | cons op ops ih =>
    rw [POp.runAll] at h
    cases h1 : op.run ign s with
    | error x => rw [h1] at h; simp at h
    | ok s2 =>
      rw [h1, run_bind_ok] at h
      have hk := run_keeps hb op (hops op (by simp)) h1
      have hk2 := ih hk.sink (fun o ho => hops o (by simp [ho])) h
      obtain ⟨x1, hx1⟩ := hk.errors
      obtain ⟨x2, hx2⟩ := hk2.errors
      exact ⟨hk2.tokens.trans hk.tokens, hk2.sink, ⟨x1 ++ x2, by rw [hx2, hx1]; simp⟩⟩

/-! ## Lookahead -/

theorem peekNonTriviaLoop_spec (s : PState) (fuel n offset : Nat)
    (hf : s.tokens.length - (s.index + offset) < fuel) :
    peekNonTriviaLoop ign s fuel n offset =
      .ok (((s.tokens.drop (s.index + offset)).filter (fun t => !ign t.kind))[n]?) := by
  induction fuel generalizing n offset with
  | zero => omega
  | succ fuel ih =>
    rw [peekNonTriviaLoop]
    unfold PState.peekAt
    cases hc : s.tokens[s.index + offset]? with
    | none =>
      rw [List.drop_of_length_le (by simpa using hc)]; simp
    | some t =>
      obtain ⟨hi, ht⟩ := List.getElem?_eq_some_iff.1 hc
      rw [List.drop_eq_getElem_cons hi, ht]
      simp only
      have ih' := fun m => ih m (offset + 1) (by omega)
      cases hig : ign t.kind with
      | true =>
        simp only [if_true]
        rw [ih' n]; simp [hig, Nat.add_assoc]
      | false =>
        cases n with
        | zero => simp [hig]
        | succ n =>
          simp only
          rw [if_neg (by simp), ih' n]; simp [hig, Nat.add_assoc]

/-! ## Positions -/

theorem byStart_sort {edits sorted : List Edit} (hs : SameChanges edits sorted) {o : Nat} {s n : Str}
    (h : Spliced o s sorted n) : sortBy byStart edits = sorted :=
  sortEdits_eq hs (spliced_sorted h)

theorem take_drop_append_left {α : Type} (a b : List α) (i m : Nat) (h : i + m ≤ a.length) :
    ((a ++ b).drop i).take m = (a.drop i).take m := by
  rw [List.drop_append_of_le_length (by omega), List.take_append_of_le_length (by simp; omega)]

theorem drop_append_right {α : Type} (a b : List α) (i : Nat) :
    (a ++ b).drop (a.length + i) = b.drop i := by
  rw [List.drop_append]; simp

theorem mapLoop_spec {o : Nat} {s new : Str} {es : List Edit} (h : Spliced o s es new) :
    ∀ (n p : Nat), n ≤ p → p ≤ n + blen new →
      ∃ r, mapLoop p (processEdits ((n : Int) - o) es) ((n : Int) - o) = .ok r ∧
        (r = none ↔ ∃ x ∈ insertedAt o n es, x.1 ≤ p ∧ p < x.2) ∧
        (∀ q, r = some q → o ≤ q ∧ q ≤ o + blen s ∧
          ∀ m, q + m ≤ o + blen s → (∀ e ∈ es, e.stop ≤ q ∨ q + m ≤ e.start) →
            p + m ≤ n + blen new ∧
            ((bytes new).drop (p - n)).take m = ((bytes s).drop (q - o)).take m) := by
  induction h with
  | nil o s =>
    intro n p h1 h2
    refine ⟨some (o + (p - n)), ?_, by simp [insertedAt], ?_⟩
    · simp only [processEdits, mapLoop, toUsize]
      rw [if_pos (by omega)]
      simp; omega
    · intro q hq
      simp at hq
      subst hq
      refine ⟨by omega, by omega, fun m hm _ => ⟨by omega, ?_⟩⟩
      rw [show o + (p - n) - o = p - n by omega]
  | @cons o gap del rest new e es h1 h2 hs ih =>
    intro n p hp1 hp2
    simp only [blen_append] at hp2
    have hle : e.start ≤ e.stop := by omega
    have hd : (n : Int) - o + ((blen e.text : Int) - ((e.stop - e.start : Nat) : Int)) =
        ((n + blen gap + blen e.text : Nat) : Int) - e.stop := by omega
    have hins : n + (e.start - o) = n + blen gap := by omega
    simp only [processEdits, mapLoop, hd, insertedAt, hins]
    have e1 : toUsize ((e.start : Int) + ((n : Int) - o)) = .ok (n + blen gap) := by
      unfold toUsize; rw [if_pos (by omega)]; congr 1; omega
    have e2 : toUsize ((e.stop : Int) + ((n : Int) - o) +
        (((n + blen gap + blen e.text : Nat) : Int) - e.stop - ((n : Int) - o))) =
        .ok (n + blen gap + blen e.text) := by
      unfold toUsize; rw [if_pos (by omega)]; congr 1; omega
    rw [e1, e2]
    simp only [run_bind_ok]
    have hlater : ∀ x ∈ insertedAt e.stop (n + blen gap + blen e.text) es, n + blen gap + blen e.text ≤ x.1 := by
      have gen : ∀ (es : List Edit) (o n : Nat), ∀ x ∈ insertedAt o n es, n ≤ x.1 := by
        intro es
        induction es with
        | nil => simp [insertedAt]
        | cons f es ih =>
          intro o n x hx
          simp only [insertedAt, List.mem_cons] at hx
          rcases hx with rfl | hx
          · simp
          · have := ih _ _ x hx; omega
      exact gen es _ _
    by_cases hlt : p < n + blen gap
    · rw [if_pos hlt]
      have e3 : toUsize ((p : Int) - ((n : Int) - o)) = .ok (o + (p - n)) := by
        unfold toUsize; rw [if_pos (by omega)]; congr 1; omega
      rw [e3]
      refine ⟨some (o + (p - n)), rfl, ?_, ?_⟩
      · simp only [reduceCtorEq, false_iff, List.mem_cons, not_exists, not_and]
        rintro x (rfl | hx)
        · simp; omega
        · intro h; have := hlater x hx; omega
      · intro q hq
        simp at hq
        subst hq
        refine ⟨by omega, by simp; omega, fun m hm hedits => ?_⟩
        have hm' : o + (p - n) + m ≤ e.start := by
          rcases hedits e (by simp) with h | h
          · omega
          · exact h
        refine ⟨by simp; omega, ?_⟩
        rw [show o + (p - n) - o = p - n by omega, bytes_append, bytes_append, bytes_append, bytes_append,
          List.append_assoc, List.append_assoc,
          take_drop_append_left _ _ _ _ (by rw [length_bytes]; omega),
          take_drop_append_left _ _ _ _ (by rw [length_bytes]; omega)]
    · rw [if_neg hlt]
      by_cases hin : p < n + blen gap + blen e.text
      · rw [if_pos hin]
        refine ⟨none, rfl, ?_, by simp⟩
        simp only [true_iff]
        exact ⟨_, List.mem_cons_self .., by simp; omega⟩
      · rw [if_neg hin]
        obtain ⟨r, h3, h4, h5⟩ := ih (n + blen gap + blen e.text) p (by omega) (by omega)
        refine ⟨r, h3, ?_, ?_⟩
        · rw [h4]
          constructor
          · rintro ⟨x, hx, hxp⟩; exact ⟨x, by simp [hx], hxp⟩
          · rintro ⟨x, hx, hxp⟩
            simp only [List.mem_cons] at hx
            rcases hx with rfl | hx
            · simp at hxp; omega
            · exact ⟨x, hx, hxp⟩
        · intro q hq
          obtain ⟨h6, h7, h8⟩ := h5 q hq
          refine ⟨by omega, by simp; omega, fun m hm hedits => ?_⟩
          simp only [blen_append] at hm
          obtain ⟨h9, h10⟩ := h8 m (by omega) (fun f hf => hedits f (by simp [hf]))
          refine ⟨by simp; omega, ?_⟩
          have a1 : p - n = (bytes (gap ++ e.text)).length + (p - (n + blen gap + blen e.text)) := by
            rw [length_bytes, blen_append]; omega
          have a2 : q - o = (bytes (gap ++ del)).length + (q - e.stop) := by
            rw [length_bytes, blen_append]; omega
          rw [bytes_append, bytes_append (gap ++ del), a1, a2, drop_append_right, drop_append_right, h10]

/-- The token walk inside `try_reuse`: the tokens counted tile the span. -/
theorem tokenScan_spec (target : Nat) (ts : List Tok) (hord : ∀ t ∈ ts, t.start ≤ t.stop) :
    ∀ (k pos c : Nat), tokenScan target ts k pos = some c →
      ∃ j, c = k + j ∧ 0 < j ∧ j ≤ ts.length ∧ TokTiles pos (ts.take j) target := by
  induction ts with
  | nil => intro k pos c h; simp [tokenScan] at h
  | cons t ts ih =>
    intro k pos c h
    have ht := hord t (by simp)
    rw [tokenScan] at h
    split at h
    · simp at h
    · rename_i hst
      simp only [ne_eq, Decidable.not_not] at hst
      split at h
      · rename_i hstop
        simp at h
        exact ⟨1, by omega, by omega, by simp, .cons hst ht (by rw [hstop]; exact .nil _)⟩
      · split at h
        · simp at h
        · obtain ⟨j, h1, h2, h3, h4⟩ := ih (fun u hu => hord u (by simp [hu])) (k + 1) t.stop c h
          exact ⟨j + 1, by omega, by omega, by simpa using h3, .cons hst ht h4⟩

end Oaks

namespace Oaks
open Spec

/-! ## Reuse -/

theorem not_dirty {edits : List Edit} (d : Int) (c : TreeCur) {a b : Nat}
    (h : (Inc.mk c (processEdits d edits)).isDirty a b = false) :
    ∀ e ∈ edits, e.stop ≤ a ∨ b ≤ e.start := by
  induction edits generalizing d with
  | nil => simp
  | cons e es ih =>
    simp only [Inc.isDirty, processEdits, List.any_cons, Bool.or_eq_false_iff] at h
    intro f hf
    simp only [List.mem_cons] at hf
    rcases hf with rfl | hf
    · have := h.1
      simp at this
      omega
    · exact ih _ (by simpa [Inc.isDirty] using h.2) f hf

theorem reuseMove_focus {root : Green} (hroot : Built root) {c : TreeCur} {p : List Nat} (h : Focus root c p)
    (target : Nat) :
    (∃ q, Focus root (reuseMove c target).2 q) ∧
      (∀ c', (reuseMove c target).1 = some c' → ∃ q, Focus root c' q) := by
  have hn := stepNext_spec hroot h
  have hnext : (∃ q, Focus root c.stepNext.2 q) := by
    split at hn <;> rename_i c' hc <;> rw [hc]
    · exact hn.1
    · exact ⟨[], by rw [hn.1]; exact .top⟩
  unfold reuseMove
  cases hs : c.stepInto with
  | some d =>
    obtain ⟨hf, _⟩ := h.stepInto hs
    cases hx : c.stepNext with
    | mk b d' =>
      rw [hx] at hnext
      cases b <;> simp only <;> split <;> try (exact ⟨⟨_, hf⟩, by simp; exact ⟨_, hf⟩⟩)
      all_goals
        split <;> try (exact ⟨⟨_, hf⟩, by simp; exact ⟨_, hf⟩⟩)
        split
        · exact ⟨hnext, by intro c' hc; cases hc <;> exact hnext⟩
        · exact ⟨⟨_, h⟩, by simp⟩
  | none =>
    cases hx : c.stepNext with
    | mk b d' =>
      rw [hx] at hnext
      cases b <;> simp only <;> split
      all_goals first
        | (refine ⟨hnext, ?_⟩; intro c' hc; cases hc <;> exact hnext)
        | (split
           · exact ⟨hnext, by intro c' hc; cases hc <;> exact hnext⟩
           · split
             · exact ⟨hnext, by intro c' hc; cases hc <;> exact hnext⟩
             · exact ⟨⟨_, h⟩, by simp⟩)

/-- The incremental context follows a tree and a batch. -/
structure IncOk (root : Green) (edits : List Edit) (inc : Inc) : Prop where
  edits : inc.edits = processEdits 0 (sortBy byStart edits)
  focus : ∃ p, Focus root inc.cursor p

/-- What a successful `try_reuse` did. -/
structure Reused (root : Green) (edits : List Edit) (s s' : PState) (kind newPos target : Nat) : Prop where
  res : ∃ path n cs k, atPath root path = some (.node kind n cs, target) ∧
    s'.sink = s.sink ++ [⟨.node kind n cs, s.fresh⟩] ∧ s'.index = s.index + k ∧ k ≤ s.tokens.length - s.index ∧
    TokTiles newPos ((s.tokens.drop s.index).take k) (newPos + n) ∧
    (∀ e ∈ sortBy byStart edits, e.stop ≤ target ∨ target + n ≤ e.start)

theorem reuseLoop_spec {root : Green} (hroot : Built root) {edits : List Edit} {s : PState}
    (hord : ∀ t ∈ s.tokens, t.start ≤ t.stop) (kind newPos target steps : Nat) {inc : Inc}
    (hi : IncOk root edits inc) {b : Bool} {s' : PState}
    (h : reuseLoop s kind newPos target steps inc = .ok (b, s')) :
    (∃ inc', s'.inc = some inc' ∧ IncOk root edits inc') ∧ s'.tokens = s.tokens ∧ s'.srcLen = s.srcLen ∧
      s'.errors = s.errors ∧
      (b = false → s'.sink = s.sink ∧ s'.index = s.index) ∧
      (b = true → Reused root edits s s' kind newPos target) := by
  have key : ∀ (inc : Inc) (node : Green) (k : Nat), IncOk root edits inc →
      reuseHere s inc kind newPos target = some (node, k) →
      ∃ path n cs, node = .node kind n cs ∧ Built node ∧ atPath root path = some (node, target) ∧
        k ≤ s.tokens.length - s.index ∧
        TokTiles newPos ((s.tokens.drop s.index).take k) (newPos + n) ∧
        (∀ e ∈ sortBy byStart edits, e.stop ≤ target ∨ target + n ≤ e.start) := by
    intro inc node k hi hh
    obtain ⟨p, hp⟩ := hi.focus
    unfold reuseHere at hh
    split at hh
    · rename_i hoff
      split at hh
      · rename_i k' n cs hcur
        split at hh
        · rename_i hk
          split at hh
          · rename_i hd
            simp only [Option.map_eq_some_iff, Prod.mk.injEq] at hh
            obtain ⟨c, hc, rfl, rfl⟩ := hh
            obtain ⟨j, h1, h2, h3, h4⟩ := tokenScan_spec _ _ (fun t ht => hord t (List.mem_of_mem_drop ht)) _ _ _ hc
            have hb := hp.built hroot
            have hat := hp.atPath_eq
            rw [hcur] at hb
            rw [hcur, hoff] at hat
            rw [hoff] at hd
            subst hk
            refine ⟨p, n, cs, rfl, hb, hat, ?_, ?_, ?_⟩
            · simp at h3; omega
            · rw [h1, Nat.zero_add]; exact h4
            · have := hi.edits
              obtain ⟨cur, ed⟩ := inc
              simp only at this
              subst this
              exact not_dirty 0 cur (by simpa using hd)
          · simp at hh
        · simp at hh
      · simp at hh
    · simp at hh
  have hit : ∀ (inc : Inc) (node : Green) (k : Nat), IncOk root edits inc →
      reuseHere s inc kind newPos target = some (node, k) → ∀ {b s'},
      ((do let g ← deepClone node
           let c := inc.cursor.stepOver.getD inc.cursor
           return (true, { s with
              sink := s.sink ++ [⟨g, s.fresh⟩], fresh := s.fresh + 1, index := s.index + k
              inc := some { inc with cursor := c } }) : Run (Bool × PState)) = .ok (b, s')) →
      (∃ inc', s'.inc = some inc' ∧ IncOk root edits inc') ∧ s'.tokens = s.tokens ∧ s'.srcLen = s.srcLen ∧
        s'.errors = s.errors ∧
        (b = false → s'.sink = s.sink ∧ s'.index = s.index) ∧
        (b = true → Reused root edits s s' kind newPos target) := by
    intro inc node k hi hh b s' h
    obtain ⟨path, n, cs, rfl, hb, hat, hk, ht, hd⟩ := key inc node k hi hh
    rw [deepClone_ok hb] at h
    simp only [run_bind_ok, run_pure, Except.ok.injEq, Prod.mk.injEq] at h
    obtain ⟨rfl, rfl⟩ := h
    refine ⟨⟨_, rfl, hi.edits, ?_⟩, rfl, rfl, rfl, by simp, fun _ => ⟨path, n, cs, k, hat, rfl, rfl, hk, ht, hd⟩⟩
    obtain ⟨p, hp⟩ := hi.focus
    cases hs : inc.cursor.stepOver with
    | none => exact ⟨p, hp⟩
    | some c' =>
      obtain ⟨⟨q, i, _, hf⟩, _⟩ := hp.stepOver hroot hs
      exact ⟨_, hf⟩
  induction steps generalizing inc with
  | zero =>
    rw [reuseLoop] at h
    split at h
    · rename_i node k hh
      exact hit inc node k hi hh h
    · obtain ⟨p, hp⟩ := hi.focus
      obtain ⟨m1, m2⟩ := reuseMove_focus hroot hp target
      split at h
      · rename_i c hm
        simp only [Except.ok.injEq, Prod.mk.injEq] at h
        obtain ⟨rfl, rfl⟩ := h
        rw [hm] at m1
        exact ⟨⟨_, rfl, hi.edits, m1⟩, rfl, rfl, rfl, by simp, by simp⟩
      · rename_i c _ hm
        simp only [Except.ok.injEq, Prod.mk.injEq] at h
        obtain ⟨rfl, rfl⟩ := h
        rw [hm] at m2
        exact ⟨⟨_, rfl, hi.edits, m2 c rfl⟩, rfl, rfl, rfl, by simp, by simp⟩
  | succ steps ih =>
    rw [reuseLoop] at h
    split at h
    · rename_i node k hh
      exact hit inc node k hi hh h
    · obtain ⟨p, hp⟩ := hi.focus
      obtain ⟨m1, m2⟩ := reuseMove_focus hroot hp target
      split at h
      · rename_i c hm
        simp only [Except.ok.injEq, Prod.mk.injEq] at h
        obtain ⟨rfl, rfl⟩ := h
        rw [hm] at m1
        exact ⟨⟨_, rfl, hi.edits, m1⟩, rfl, rfl, rfl, by simp, by simp⟩
      · rename_i c _ hm
        rw [hm] at m2
        exact ih (inc := { inc with cursor := c }) ⟨hi.edits, m2 c rfl⟩ h

end Oaks

namespace Oaks
open Spec

variable {ign : Nat → Bool}

/-! ## The state during an incremental parse -/

theorem Spec.TokTiles.append {a b c : Nat} {xs ys : List Tok} (h : TokTiles a xs b) (h' : TokTiles b ys c) :
    TokTiles a (xs ++ ys) c := by
  induction h with
  | nil => exact h'
  | cons h1 h2 h3 ih => exact .cons h1 h2 (ih h')

theorem Spec.TokTiles.ord {a b : Nat} {xs : List Tok} (h : TokTiles a xs b) : ∀ t ∈ xs, t.start ≤ t.stop := by
  induction h with
  | nil => simp
  | cons h1 h2 h3 ih =>
    intro t ht
    simp only [List.mem_cons] at ht
    rcases ht with rfl | ht
    · exact h2
    · exact ih t ht

theorem Spec.TokTiles.end_unique {a b c : Nat} {xs : List Tok} (h : TokTiles a xs b) (h' : TokTiles a xs c) :
    b = c := by
  have := h.sum; have := h'.sum; omega

/-- Tokens, text length and incremental context are as at the start. -/
structure Steady (root : Green) (edits : List Edit) (s s' : PState) : Prop where
  tokens : s'.tokens = s.tokens
  srcLen : s'.srcLen = s.srcLen
  inc : (∀ i, s.inc = some i → IncOk root edits i) → ∀ i, s'.inc = some i → IncOk root edits i

theorem Steady.refl {root : Green} {edits : List Edit} (s : PState) : Steady root edits s s := ⟨rfl, rfl, fun h => h⟩

theorem Steady.trans {root : Green} {edits : List Edit} {s t u : PState} (h : Steady root edits s t)
    (h' : Steady root edits t u) : Steady root edits s u :=
  ⟨h'.tokens.trans h.tokens, h'.srcLen.trans h.srcLen, fun x => h'.inc (h.inc x)⟩

theorem skipTrivia_steady {root : Green} {edits : List Edit} {s s' : PState} (h : s.skipTrivia ign = .ok s') :
    Steady root edits s s' := by
  obtain ⟨k, es, h1, _⟩ := skipTrivia_spec (ign := ign) s
  rw [h1] at h
  simp only [Except.ok.injEq] at h
  subst h
  exact ⟨rfl, rfl, fun h => h⟩

theorem bump_steady {root : Green} {edits : List Edit} {s s' : PState} (h : s.bump ign = .ok s') :
    Steady root edits s s' := by
  unfold PState.bump at h
  split at h
  · unfold PState.advance at h
    have := skipTrivia_steady (root := root) (edits := edits) h
    exact ⟨this.tokens, this.srcLen, this.inc⟩
  · simp only [Except.ok.injEq] at h; subst h; exact .refl _

theorem eat_steady {root : Green} {edits : List Edit} {s : PState} {k : Nat} {r : Bool × PState}
    (h : s.eat ign k = .ok r) : Steady root edits s r.2 := by
  unfold PState.eat at h
  split at h
  · cases h1 : s.bump ign with
    | error x => rw [h1] at h; simp at h
    | ok s2 =>
      rw [h1] at h
      simp only [run_bind_ok, run_pure, Except.ok.injEq] at h
      subst h
      exact bump_steady h1
  · simp only [Except.ok.injEq] at h; subst h; exact .refl _

theorem advanceUntilLoop_steady {root : Green} {edits : List Edit} (k fuel : Nat) {s s' : PState}
    (h : advanceUntilLoop ign k fuel s = .ok s') : Steady root edits s s' := by
  induction fuel generalizing s with
  | zero => simp [advanceUntilLoop] at h
  | succ fuel ih =>
    rw [advanceUntilLoop] at h
    split at h
    · cases h1 : s.advance ign with
      | error x => rw [h1] at h; simp at h
      | ok s2 =>
        rw [h1, run_bind_ok] at h
        have hk := skipTrivia_steady (root := root) (edits := edits) (s := s.tokenAdvance) h1
        exact Steady.trans ⟨hk.tokens, hk.srcLen, hk.inc⟩ (ih h)
    · simp only [Except.ok.injEq] at h; subst h; exact .refl _

/-- `try_reuse` on a state whose incremental context is in order. -/
theorem tryReuse_spec {root : Green} (hroot : Built root) {edits : List Edit} {s s' : PState} {b : Bool} {kind : Nat}
    (hi : ∀ i, s.inc = some i → IncOk root edits i) (hord : ∀ t ∈ s.tokens, t.start ≤ t.stop)
    (h : s.tryReuse kind = .ok (b, s')) :
    Steady root edits s s' ∧ s'.errors = s.errors ∧ (b = false → s'.sink = s.sink ∧ s'.index = s.index) ∧
      (b = true → ∃ target, mapLoop s.currentOffset (processEdits 0 (sortBy byStart edits)) 0 = .ok (some target) ∧
        Reused root edits s s' kind s.currentOffset target) := by
  unfold PState.tryReuse at h
  split at h
  · simp only [Except.ok.injEq, Prod.mk.injEq] at h
    obtain ⟨rfl, rfl⟩ := h
    exact ⟨.refl _, rfl, by simp, by simp⟩
  · rename_i inc hinc
    have hio := hi inc hinc
    unfold Inc.mapNewToOld at h
    rw [hio.edits] at h
    cases hm : mapLoop s.currentOffset (processEdits 0 (sortBy byStart edits)) 0 with
    | error x => rw [hm] at h; simp at h
    | ok q =>
      rw [hm, run_bind_ok] at h
      cases q with
      | none =>
        simp only [run_pure, Except.ok.injEq, Prod.mk.injEq] at h
        obtain ⟨rfl, rfl⟩ := h
        exact ⟨.refl _, rfl, by simp, by simp⟩
      | some target =>
        obtain ⟨⟨i', h1, h2⟩, h3, h4, h5, h6, h7⟩ := reuseLoop_spec hroot hord _ _ _ _ hio h
        refine ⟨⟨h3, h4, fun _ j hj => ?_⟩, h5, h6, fun hb => ⟨target, rfl, h7 hb⟩⟩
        rw [h1] at hj
        simp only [Option.some.injEq] at hj
        exact hj ▸ h2

theorem run_steady {root : Green} (hroot : Built root) {edits : List Edit} {s s' : PState}
    (hi : ∀ i, s.inc = some i → IncOk root edits i) (hord : ∀ t ∈ s.tokens, t.start ≤ t.stop)
    (op : POp) (h : op.run ign s = .ok s') : Steady root edits s s' := by
  cases op with
  | bump => exact bump_steady h
  | eat k =>
    simp only [POp.run] at h
    cases h1 : s.eat ign k with
    | error x => rw [h1] at h; simp at h
    | ok r => rw [h1] at h; simp only [run_bind_ok, run_pure, Except.ok.injEq] at h; subst h; exact eat_steady h1
  | expect k =>
    simp only [POp.run] at h
    cases h1 : s.eat ign k with
    | error x => rw [PState.expect, h1] at h; simp at h
    | ok r =>
      obtain ⟨b, s2⟩ := r
      rw [PState.expect, h1] at h
      have := eat_steady (root := root) (edits := edits) h1
      cases b with
      | true =>
        simp only [run_bind_ok, run_pure, Except.ok.injEq, if_true] at h
        subst h; exact this
      | false =>
        simp only [run_bind_ok, run_pure, Except.ok.injEq] at h
        simp at h
        subst h; exact ⟨this.tokens, this.srcLen, this.inc⟩
  | advance =>
    have := skipTrivia_steady (root := root) (edits := edits) (s := s.tokenAdvance) h
    exact ⟨this.tokens, this.srcLen, this.inc⟩
  | skipTrivia => exact skipTrivia_steady h
  | advanceUntil k => exact advanceUntilLoop_steady k _ h
  | record c => simp only [POp.run, Except.ok.injEq] at h; subst h; exact ⟨rfl, rfl, fun h => h⟩
  | finish cp k =>
    simp only [POp.run, PState.finishAt] at h
    split at h
    · cases h1 : Green.mkNode k ((s.sink.drop cp.2).map Entry.tree) with
      | error x => rw [h1] at h; simp at h
      | ok g =>
        rw [h1] at h
        simp only [run_bind_ok, run_pure, Except.ok.injEq] at h
        subst h
        exact ⟨rfl, rfl, fun h => h⟩
    · simp at h
  | restore cp => simp only [POp.run, Except.ok.injEq] at h; subst h; exact ⟨rfl, rfl, fun h => h⟩
  | push e => simp only [POp.run, Except.ok.injEq] at h; subst h; exact ⟨rfl, rfl, fun h => h⟩
  | reuse k =>
    simp only [POp.run] at h
    cases h1 : s.tryReuse k with
    | error x => rw [h1] at h; simp at h
    | ok r =>
      obtain ⟨b, s2⟩ := r
      rw [h1] at h; simp only [run_bind_ok, run_pure, Except.ok.injEq] at h; subst h
      exact (tryReuse_spec hroot hi hord h1).1

theorem runAll_steady {root : Green} (hroot : Built root) {edits : List Edit} {s s' : PState}
    (hi : ∀ i, s.inc = some i → IncOk root edits i) (hord : ∀ t ∈ s.tokens, t.start ≤ t.stop)
    (ops : List POp) (h : POp.runAll ign s ops = .ok s') : Steady root edits s s' := by
  induction ops generalizing s with
  | nil => simp only [POp.runAll, Except.ok.injEq] at h; subst h; exact .refl _
  | cons op ops ih =>
    rw [POp.runAll] at h
    cases h1 : op.run ign s with
    | error x => rw [h1] at h; simp at h
    | ok s2 =>
      rw [h1, run_bind_ok] at h
      have hk := run_steady hroot hi hord op h1
      exact hk.trans (ih (hk.inc hi) (by rw [hk.tokens]; exact hord) h)

theorem Inc.new_ok (root : Green) (edits : List Edit) : IncOk root edits (Inc.new root edits) :=
  ⟨rfl, [], .top⟩

theorem atPath_bounds {g : Green} {p : List Nat} {e : Green} {o : Nat} (h : atPath g p = some (e, o)) :
    o + bytesBelow e ≤ bytesBelow g := by
  induction p generalizing g e o with
  | nil => simp [atPath] at h; obtain ⟨rfl, rfl⟩ := h; omega
  | cons i p ih =>
    simp only [atPath] at h
    cases hc : (childrenOf g)[i]? with
    | none => rw [hc] at h; simp at h
    | some c =>
      rw [hc] at h
      simp only at h
      cases hp : atPath c p with
      | none => rw [hp] at h; simp at h
      | some r =>
        obtain ⟨e', o'⟩ := r
        rw [hp] at h
        simp only [Option.some.injEq, Prod.mk.injEq] at h
        obtain ⟨rfl, rfl⟩ := h
        have := ih hp
        cases g with
        | leaf k n m => simp [childrenOf] at hc
        | node k n cs =>
          simp only [childrenOf] at hc ⊢
          obtain ⟨hi, rfl⟩ := List.getElem?_eq_some_iff.1 hc
          have hs : bytesBelowList cs = bytesBelowList (cs.take i ++ cs[i] :: cs.drop (i + 1)) := by
            rw [← List.drop_eq_getElem_cons hi, List.take_append_drop]
          simp only [bytesBelow_node]
          rw [hs, bytesBelowList_append, bytesBelowList_cons]
          omega

/-- A built tree reached by a path is built. -/
theorem atPath_built {g : Green} (hg : Built g) {p : List Nat} {e : Green} {o : Nat} (h : atPath g p = some (e, o)) :
    Built e := by
  induction p generalizing g e o with
  | nil => simp [atPath] at h; obtain ⟨rfl, rfl⟩ := h; exact hg
  | cons i p ih =>
    simp only [atPath] at h
    cases hc : (childrenOf g)[i]? with
    | none => rw [hc] at h; simp at h
    | some c =>
      rw [hc] at h
      simp only at h
      cases hp : atPath c p with
      | none => rw [hp] at h; simp at h
      | some r =>
        obtain ⟨e', o'⟩ := r
        rw [hp] at h
        simp only [Option.some.injEq, Prod.mk.injEq] at h
        obtain ⟨rfl, rfl⟩ := h
        cases g with
        | leaf k n m => simp [childrenOf] at hc
        | node k n cs =>
          simp only [childrenOf] at hc
          exact ih (hg.inv.1 c (List.mem_of_getElem? hc)) hp

/-- While parsing with reuse: what is in the sink is as long as the tokens passed. -/
structure Covers (toks : List Tok) (s : PState) : Prop where
  tokens : s.tokens = toks
  le : s.index ≤ toks.length
  built : ∀ e ∈ s.sink, Built e.tree
  tiles : TokTiles 0 (toks.take s.index) (bytesBelowList (s.sink.map Entry.tree))

theorem Covers.skipTrivia {toks : List Tok} {s s' : PState} {e : Nat} (hT : TokTiles 0 toks e) (he : e < 2 ^ 32)
    (h : Covers toks s) (hr : s.skipTrivia ign = .ok s') : Covers toks s' := by
  obtain ⟨k, es, h1, h2, h3, _, _⟩ := skipTrivia_spec (ign := ign) s
  rw [h1] at hr
  simp only [Except.ok.injEq] at hr
  subst hr
  have hle := h.le
  rw [h.tokens] at h2 h3
  have hk : s.index + k ≤ toks.length := by omega
  have hsmall := hT.small he
  refine ⟨h.tokens, hk, ?_, ?_⟩
  · intro x hx
    simp only [List.mem_append] at hx
    rcases hx with hx | hx
    · exact h.built x hx
    · rw [h3] at hx
      simp only [List.mem_map] at hx
      obtain ⟨t, _, rfl⟩ := hx
      exact .leaf _ _ _ (Nat.mod_lt _ (by decide))
  · simp only [List.map_append, bytesBelowList_append]
    have ha : bytesBelowList (es.map Entry.tree) = (((toks.drop s.index).take k).map Tok.length).sum := by
      rw [h3, bytesBelowList, leavesOfList_leaves]
      simp only [List.map_map]
      congr 1
      apply List.map_congr_left
      intro t ht
      exact hsmall t (List.mem_of_mem_drop (List.mem_of_mem_take ht))
    have h5 := hT.take (s.index + k) hk
    have h6 := h5.sum
    have h7 := h.tiles.sum
    rw [List.take_add, List.map_append, List.sum_append] at h6
    have : 0 + (bytesBelowList (s.sink.map Entry.tree) + bytesBelowList (es.map Entry.tree)) =
        (match toks[s.index + k]? with | some t => t.start | none => e) := by omega
    rw [Nat.zero_add] at this
    rw [this]
    exact h5

theorem Covers.bump {toks : List Tok} {s s' : PState} {e : Nat} (hT : TokTiles 0 toks e) (he : e < 2 ^ 32)
    (h : Covers toks s) (hr : s.bump ign = .ok s') : Covers toks s' := by
  unfold PState.bump PState.current at hr
  rw [h.tokens] at hr
  cases hc : toks[s.index]? with
  | none => rw [hc] at hr; simp only [Except.ok.injEq] at hr; exact hr ▸ h
  | some t =>
    rw [hc] at hr
    obtain ⟨hi, ht⟩ := List.getElem?_eq_some_iff.1 hc
    refine Covers.skipTrivia hT he (s := (s.pushLeaf t.kind t.length).tokenAdvance) ?_ hr
    have hm : t ∈ toks := List.mem_of_getElem? hc
    refine ⟨h.tokens, by simp [PState.tokenAdvance, PState.pushLeaf]; omega, ?_, ?_⟩
    · intro x hx
      simp only [PState.tokenAdvance, PState.pushLeaf, List.mem_append, List.mem_singleton] at hx
      rcases hx with hx | rfl
      · exact h.built x hx
      · exact .leaf _ _ _ (Nat.mod_lt _ (by decide))
    · simp only [PState.tokenAdvance, PState.pushLeaf, List.map_append, bytesBelowList_append]
      have h5 := hT.take (s.index + 1) hi
      have h6 := h5.sum
      have h7 := h.tiles.sum
      have h8 := hT.small he t hm
      rw [List.take_succ_eq_append_getElem hi, List.map_append, List.sum_append, ht] at h6
      simp only [List.map_cons, List.map_nil, List.sum_cons, List.sum_nil] at h6
      simp only [List.map_cons, List.map_nil, bytesBelowList_cons, bytesBelowList_nil, bytesBelow_leaf, h8]
      have : bytesBelowList (s.sink.map Entry.tree) + (t.length + 0) =
        (match toks[s.index + 1]? with | some t => t.start | none => e) := by omega
      rw [this]
      exact h5

theorem Covers.offset {toks : List Tok} {s : PState} {e : Nat} (hT : TokTiles 0 toks e)
    (h : Covers toks s) (hn : s.srcLen = e) : s.currentOffset = bytesBelowList (s.sink.map Entry.tree) := by
  have h5 := hT.take s.index h.le
  have := h5.end_unique h.tiles
  unfold PState.currentOffset PState.current
  rw [h.tokens, hn]
  exact this

theorem bytesBelowList_eq (gs : List Green) : bytesBelowList gs = ((leavesOfList gs).map (·.2)).sum := rfl

theorem Covers.finish_ok {toks : List Tok} {s : PState} {e : Nat} (hT : TokTiles 0 toks e) (he : e < 2 ^ 32)
    (h : Covers toks s) (cp : Nat × Nat) (k : Nat) (hcp : cp.2 ≤ s.sink.length) :
    ∃ g, Green.mkNode k ((s.sink.drop cp.2).map Entry.tree) = .ok g ∧ Built g ∧
      bytesBelow g = bytesBelowList ((s.sink.drop cp.2).map Entry.tree) := by
  have hb : ∀ c ∈ (s.sink.drop cp.2).map Entry.tree, Built c := by
    intro c hc
    simp only [List.mem_map] at hc
    obtain ⟨x, hx, rfl⟩ := hc
    exact h.built x (List.mem_of_mem_drop hx)
  have hl := Built.lenSum_eq hb
  have h1 := (hT.take s.index h.le).end_unique h.tiles
  have h2 := (hT.drop s.index h.le).le
  have h3 : bytesBelowList (s.sink.map Entry.tree) = bytesBelowList ((s.sink.take cp.2).map Entry.tree) +
      bytesBelowList ((s.sink.drop cp.2).map Entry.tree) := by
    rw [← bytesBelowList_append, ← List.map_append, List.take_append_drop]
  have hmk : Green.mkNode k ((s.sink.drop cp.2).map Entry.tree) = .ok (.node k (lenSum ((s.sink.drop cp.2).map Entry.tree))
      ((s.sink.drop cp.2).map Entry.tree)) := mkNode_ok.2 ⟨rfl, by rw [hl]; omega⟩
  exact ⟨_, hmk, .node hb hmk, by simp⟩

theorem Covers.run {root : Green} (hroot : Built root) {edits : List Edit} {toks : List Tok} {s s' : PState} {e : Nat}
    (hT : TokTiles 0 toks e) (he : e < 2 ^ 32) (hn : s.srcLen = e)
    (hi : ∀ i, s.inc = some i → IncOk root edits i)
    (h : Covers toks s) (op : POp) (hop : op.buildingOrReuse) (hr : op.run ign s = .ok s') : Covers toks s' := by
  have heat : ∀ (k : Nat) (r : Bool × PState), s.eat ign k = .ok r → Covers toks r.2 := by
    intro k r hr
    unfold PState.eat at hr
    split at hr
    · cases h1 : s.bump ign with
      | error x => rw [h1] at hr; simp at hr
      | ok s2 =>
        rw [h1] at hr
        simp only [run_bind_ok, run_pure, Except.ok.injEq] at hr
        subst hr
        exact h.bump hT he h1
    · simp only [Except.ok.injEq] at hr; subst hr; exact h
  cases op with
  | bump => exact h.bump hT he hr
  | eat k =>
    simp only [POp.run] at hr
    cases h1 : s.eat ign k with
    | error x => rw [h1] at hr; simp at hr
    | ok r => rw [h1] at hr; simp only [run_bind_ok, run_pure, Except.ok.injEq] at hr; subst hr; exact heat k r h1
  | expect k =>
    simp only [POp.run] at hr
    cases h1 : s.eat ign k with
    | error x => rw [PState.expect, h1] at hr; simp at hr
    | ok r =>
      have := heat k r h1
      obtain ⟨b, s2⟩ := r
      rw [PState.expect, h1] at hr
      cases b with
      | true =>
        simp only [run_bind_ok, run_pure, Except.ok.injEq, if_true] at hr
        subst hr; exact this
      | false =>
        simp only [run_bind_ok, run_pure, Except.ok.injEq] at hr
        simp at hr
        subst hr; exact ⟨this.tokens, this.le, this.built, this.tiles⟩
  | skipTrivia => exact h.skipTrivia hT he hr
  | record c =>
    simp only [POp.run, Except.ok.injEq] at hr
    subst hr
    exact ⟨h.tokens, h.le, h.built, h.tiles⟩
  | finish cp k =>
    simp only [POp.run, PState.finishAt] at hr
    split at hr
    · rename_i hcp
      obtain ⟨g, h1, h2, h3⟩ := h.finish_ok hT he cp k hcp
      rw [h1] at hr
      simp only [run_bind_ok, run_pure, Except.ok.injEq] at hr
      subst hr
      refine ⟨h.tokens, h.le, ?_, ?_⟩
      · intro x hx
        simp only [List.mem_append, List.mem_singleton] at hx
        rcases hx with hx | rfl
        · exact h.built x (List.mem_of_mem_take hx)
        · exact h2
      · simp only [List.map_append, bytesBelowList_append, List.map_cons, List.map_nil, bytesBelowList_cons,
          bytesBelowList_nil, h3, Nat.add_zero]
        rw [← bytesBelowList_append, ← List.map_append, List.take_append_drop]
        exact h.tiles
    · simp at hr
  | reuse k =>
    simp only [POp.run] at hr
    cases h1 : s.tryReuse k with
    | error x => rw [h1] at hr; simp at hr
    | ok r =>
      obtain ⟨b, s2⟩ := r
      rw [h1] at hr; simp only [run_bind_ok, run_pure, Except.ok.injEq] at hr; subst hr
      obtain ⟨h2, h3, h4, h5⟩ := tryReuse_spec hroot hi (by rw [h.tokens]; exact hT.ord) h1
      have h6 := h2.tokens
      cases b with
      | false =>
        obtain ⟨h7, h8⟩ := h4 rfl
        exact ⟨h6.trans h.tokens, by rw [h8]; exact h.le, by rw [h7]; exact h.built, by rw [h7, h8]; exact h.tiles⟩
      | true =>
        obtain ⟨target, _, ⟨path, n, cs, c, r1, r2, r3, r4, r5, _⟩⟩ := h5 rfl
        have hb := atPath_built hroot r1
        have hln := hb.len_eq.1
        simp only [Green.len] at hln
        have hle := h.le
        rw [h.tokens] at r4 r5
        refine ⟨h6.trans h.tokens, by rw [r3]; omega, ?_, ?_⟩
        · rw [r2]
          intro x hx
          simp only [List.mem_append, List.mem_singleton] at hx
          rcases hx with hx | rfl
          · exact h.built x hx
          · exact hb
        · rw [r2, r3, List.take_add]
          simp only [List.map_append, bytesBelowList_append, List.map_cons, List.map_nil, bytesBelowList_cons,
            bytesBelowList_nil, Nat.add_zero, ← hln]
          rw [h.offset hT hn] at r5
          exact h.tiles.append r5
  | advance => exact hop.elim
  | advanceUntil k => exact hop.elim
  | restore cp => exact hop.elim
  | push e => exact hop.elim

theorem Covers.runAll {root : Green} (hroot : Built root) {edits : List Edit} {toks : List Tok} {s s' : PState} {e : Nat}
    (hT : TokTiles 0 toks e) (he : e < 2 ^ 32) (hn : s.srcLen = e)
    (hi : ∀ i, s.inc = some i → IncOk root edits i)
    (h : Covers toks s) (ops : List POp) (hops : ∀ op ∈ ops, op.buildingOrReuse)
    (hr : POp.runAll ign s ops = .ok s') : Covers toks s' ∧ Steady root edits s s' := by
  induction ops generalizing s with
  | nil => simp only [POp.runAll, Except.ok.injEq] at hr; subst hr; exact ⟨h, .refl _⟩
  | cons op ops ih =>
    rw [POp.runAll] at hr
    cases h1 : op.run ign s with
    | error x => rw [h1] at hr; simp at hr
    | ok s2 =>
      rw [h1, run_bind_ok] at hr
      have hord : ∀ t ∈ s.tokens, t.start ≤ t.stop := by rw [h.tokens]; exact hT.ord
      have hk := run_steady hroot hi hord op h1
      have hc := h.run hroot hT he hn hi op (hops op (by simp)) h1
      obtain ⟨a, b⟩ := ih (hk.srcLen.trans hn) (hk.inc hi) hc (fun o ho => hops o (by simp [ho])) hr
      exact ⟨a, hk.trans b⟩

theorem Covers.new {toks : List Tok} {e : Nat} (hT : TokTiles 0 toks e) (he : e < 2 ^ 32) {s : PState}
    (h : PState.new ign toks e = .ok s) : Covers toks s ∧ s.srcLen = e ∧ s.inc = none ∧ s.tokens = toks := by
  have h0 : Covers toks (PState.mk toks 0 [] 0 none [] e) := ⟨rfl, by simp, by simp, by simpa using .nil 0⟩
  obtain ⟨k, es, h1, _⟩ := skipTrivia_spec (ign := ign) (PState.mk toks 0 [] 0 none [] e)
  have h2 := h
  unfold PState.new at h2
  rw [h1] at h2
  simp only [Except.ok.injEq] at h2
  subst h2
  exact ⟨h0.skipTrivia hT he h, rfl, rfl, rfl⟩

end Oaks

namespace Oaks
open Spec

theorem reuseLoop_srcLen {s : PState} (kind newPos target steps : Nat) (inc : Inc) {r : Bool × PState}
    (h : reuseLoop s kind newPos target steps inc = .ok r) : r.2.srcLen = s.srcLen := by
  have hit : ∀ (node : Green) (f : Green → PState), (∀ g, (f g).srcLen = s.srcLen) → ∀ r,
      ((do let g ← deepClone node; return (true, f g) : Run (Bool × PState)) = .ok r) → r.2.srcLen = s.srcLen := by
    intro node f hf r hr
    cases hd : deepClone node with
    | error x => rw [hd] at hr; simp at hr
    | ok g =>
      rw [hd] at hr
      simp only [run_bind_ok, run_pure, Except.ok.injEq] at hr
      subst hr; exact hf g
  induction steps generalizing inc with
  | zero =>
    rw [reuseLoop] at h
    split at h
    · exact hit _ _ (fun _ => by rfl) r h
    · split at h <;> (simp only [Except.ok.injEq] at h; subst h; rfl)
  | succ steps ih =>
    rw [reuseLoop] at h
    split at h
    · exact hit _ _ (fun _ => by rfl) r h
    · split at h
      · simp only [Except.ok.injEq] at h; subst h; rfl
      · exact ih _ h

theorem run_srcLen {ign : Nat → Bool} {s s' : PState} (op : POp) (h : op.run ign s = .ok s') :
    s'.srcLen = s.srcLen := by
  by_cases hop : ∃ k, op = .reuse k
  · obtain ⟨k, rfl⟩ := hop
    simp only [POp.run] at h
    cases h1 : s.tryReuse k with
    | error x => rw [h1] at h; simp at h
    | ok r =>
      rw [h1] at h; simp only [run_bind_ok, run_pure, Except.ok.injEq] at h; subst h
      unfold PState.tryReuse at h1
      split at h1
      · simp only [Except.ok.injEq] at h1; subst h1; rfl
      · rename_i inc _
        cases hm : inc.mapNewToOld s.currentOffset with
        | error x => rw [hm] at h1; simp at h1
        | ok q =>
          rw [hm, run_bind_ok] at h1
          cases q with
          | none => simp only [run_pure, Except.ok.injEq] at h1; subst h1; rfl
          | some target => exact reuseLoop_srcLen _ _ _ _ _ h1
  · cases op with
    | reuse k => exact absurd ⟨k, rfl⟩ hop
    | bump => exact (bump_steady (root := .leaf 0 0 none) (edits := []) h).srcLen
    | eat k =>
      simp only [POp.run] at h
      cases h1 : s.eat ign k with
      | error x => rw [h1] at h; simp at h
      | ok r =>
        rw [h1] at h; simp only [run_bind_ok, run_pure, Except.ok.injEq] at h; subst h
        exact (eat_steady (root := .leaf 0 0 none) (edits := []) h1).srcLen
    | expect k =>
      simp only [POp.run] at h
      cases h1 : s.eat ign k with
      | error x => rw [PState.expect, h1] at h; simp at h
      | ok r =>
        obtain ⟨b, s2⟩ := r
        rw [PState.expect, h1] at h
        have := (eat_steady (root := .leaf 0 0 none) (edits := []) h1).srcLen
        cases b with
        | true =>
          simp only [run_bind_ok, run_pure, Except.ok.injEq, if_true] at h
          subst h; exact this
        | false =>
          simp only [run_bind_ok, run_pure, Except.ok.injEq] at h
          simp at h
          subst h; exact this
    | advance => exact (skipTrivia_steady (root := .leaf 0 0 none) (edits := []) (s := s.tokenAdvance) h).srcLen
    | skipTrivia => exact (skipTrivia_steady (root := .leaf 0 0 none) (edits := []) h).srcLen
    | advanceUntil k => exact (advanceUntilLoop_steady (root := .leaf 0 0 none) (edits := []) k _ h).srcLen
    | record c => simp only [POp.run, Except.ok.injEq] at h; subst h; rfl
    | finish cp k =>
      simp only [POp.run, PState.finishAt] at h
      split at h
      · cases h1 : Green.mkNode k ((s.sink.drop cp.2).map Entry.tree) with
        | error x => rw [h1] at h; simp at h
        | ok g =>
          rw [h1] at h
          simp only [run_bind_ok, run_pure, Except.ok.injEq] at h
          subst h; rfl
      · simp at h
    | restore cp => simp only [POp.run, Except.ok.injEq] at h; subst h; rfl
    | push e => simp only [POp.run, Except.ok.injEq] at h; subst h; rfl

end Oaks
