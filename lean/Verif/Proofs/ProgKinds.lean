import Verif.Proofs.Prog

/-! Which kinds of tokens can be in the tree of a parser that has no `bump`. -/
namespace Oaks
open Spec

namespace Prog

/-- Only tokens of these kinds are taken. -/
def only (K : List Nat) : Prog → Bool
  | bump => false
  | eat k => K.contains k
  | expect k => K.contains k
  | need k => K.contains k
  | mark p => only K p
  | within _ p => only K p
  | seq a b => only K a && only K b
  | ite c a b => only K c && only K a && only K b
  | loop c b => only K c && only K b
  | catch_ p => only K p
  | _ => true

/-- Only leaves of these kinds are in the sink. -/
def Has (K ign : List Nat) (s : PState) : Prop := ∀ x ∈ leavesOfList (s.sink.map Entry.tree), x.1 ∈ K ∨ x.1 ∈ ign

variable {K ign : List Nat} {s s' : PState}

theorem Has.push (h : Has K ign s) {k : Nat} (hk : k ∈ K ∨ k ∈ ign) (n : Nat) : Has K ign (s.pushLeaf k n) := by
  intro x hx
  simp only [PState.pushLeaf, List.map_append, leavesOfList_append, List.mem_append] at hx
  rcases hx with hx | hx
  · exact h x hx
  · simp [leavesOfList, leavesOf] at hx; rw [hx]; exact hk

theorem Has.skipLoop (fuel : Nat) : ∀ {s s'}, Has K ign s → skipTriviaLoop (fun k => ign.contains k) fuel s = .ok s' → Has K ign s' := by
  induction fuel with
  | zero => intro s s' _ h; simp [skipTriviaLoop] at h
  | succ n ih =>
    intro s s' hs h
    unfold skipTriviaLoop at h
    split at h
    · split at h
      · rename_i t _ hi
        exact ih (s := (s.pushLeaf t.kind t.length).tokenAdvance) (hs.push (.inr (by simpa using hi)) _) h
      · injection h with h; exact h ▸ hs
    · injection h with h; exact h ▸ hs

theorem Has.advance (hs : Has K ign s) (h : s.advance (fun k => ign.contains k) = .ok s') : Has K ign s' :=
  Has.skipLoop (s := s.tokenAdvance) _ hs h

theorem Has.eat (hs : Has K ign s) {k : Nat} (hk : K.contains k = true) {b : Bool} (h : s.eat (fun k => ign.contains k) k = .ok (b, s')) :
    Has K ign s' := by
  unfold PState.eat at h
  split at h
  · rename_i hat
    unfold PState.bump at h
    cases hc : s.current with
    | none =>
      rw [hc] at h
      injection h with h; injection h with _ h; exact h ▸ hs
    | some t =>
      rw [hc] at h
      have ht : t.kind = k := by simpa [PState.atKind, PState.peekKind, hc] using hat
      cases h1 : (s.pushLeaf t.kind t.length).advance (fun k => ign.contains k) with
      | error e => simp only [h1] at h; cases h
      | ok s1 =>
        simp only [h1] at h
        injection h with h; injection h with _ h
        rw [← h]
        exact Has.advance (hs.push (.inl (by rw [ht]; simpa using hk)) _) h1
  · injection h with h; injection h with _ h; exact h ▸ hs

theorem Has.expect (hs : Has K ign s) {k : Nat} (hk : K.contains k = true) {b : Bool}
    (h : s.expect (fun k => ign.contains k) k = .ok (b, s')) : Has K ign s' := by
  unfold PState.expect at h
  cases h1 : s.eat (fun k => ign.contains k) k with
  | error e => rw [h1] at h; cases h
  | ok r =>
    obtain ⟨b1, s1⟩ := r
    rw [h1, run_bind_ok] at h
    have := hs.eat hk h1
    cases b1
    · injection h with h; injection h with _ h; exact h ▸ this
    · injection h with h; injection h with _ h; exact h ▸ this

theorem Has.finish (hs : Has K ign s) {cp : Nat × Nat} {k : Nat} {e : Entry} (h : s.finishAt cp k = .ok (e, s')) :
    Has K ign s' ∧ ∃ g ∈ s'.sink, g = e := by
  unfold PState.finishAt at h
  split at h
  · cases h1 : Green.mkNode k ((s.sink.drop cp.2).map Entry.tree) with
    | error e => rw [h1] at h; cases h
    | ok g =>
      rw [h1, run_bind_ok] at h
      injection h with h; injection h with h2 h
      obtain ⟨hg, _⟩ := mkNode_ok.1 h1
      subst h h2
      refine ⟨?_, _, by simp, rfl⟩
      intro x hx
      refine hs x ?_
      rw [← List.take_append_drop cp.2 s.sink, List.map_append, leavesOfList_append]
      simpa [leavesOfList_append, leavesOfList, leavesOf, hg] using hx
  · simp at h

/-- A statement keeps the kinds. -/
def KeepsHas (K ign : List Nat) (f : Loc → PState → Run (Out × Loc × PState)) : Prop :=
  ∀ l s o l' s', Has K ign s → f l s = .ok (o, l', s') → Has K ign s'

theorem turns_has {c body : Loc → PState → Run (Out × Loc × PState)} (hc : KeepsHas K ign c) (hb : KeepsHas K ign body) (fuel : Nat) :
    KeepsHas K ign (turns c body fuel) := by
  induction fuel with
  | zero => intro l s o l' s' _ h; simp [turns] at h
  | succ n ih =>
    intro l s o l' s' hs h
    rw [turns] at h
    split at h
    · rename_i h1
      have k1 := hc _ _ _ _ _ hs h1
      split at h
      · rename_i h2; exact ih _ _ _ _ _ (hb _ _ _ _ _ k1 h2) h
      · rename_i h2; exact ih _ _ _ _ _ (hb _ _ _ _ _ k1 h2) h
      · rename_i h2
        have k2 := hb _ _ _ _ _ k1 h2
        simp at h; rw [← h.2.2]; exact k2
      · exact hb _ _ _ _ _ k1 h
    · rename_i h1
      have k1 := hc _ _ _ _ _ hs h1
      simp at h; rw [← h.2.2]; exact k1
    · exact hc _ _ _ _ _ hs h

theorem exec_has {src : Source} {slack : Nat} {calls : Nat → PState → Run (Out × PState)}
    (hcalls : ∀ f s o s', Has K ign s → calls f s = .ok (o, s') → Has K ign s') (p : Prog) (hp : p.only K = true) :
    KeepsHas K ign (exec (fun k => ign.contains k) src slack calls p) := by
  induction p with
  | val b => intro l s o l' s' hs h; simp [exec] at h; rw [← h.2.2]; exact hs
  | sees k => intro l s o l' s' hs h; simp [exec] at h; rw [← h.2.2]; exact hs
  | more => intro l s o l' s' hs h; simp [exec] at h; rw [← h.2.2]; exact hs
  | ask f => intro l s o l' s' hs h; simp [exec] at h; rw [← h.2.2]; exact hs
  | bump => simp [only] at hp
  | advance =>
    intro l s o l' s' hs h
    unfold exec at h
    cases h1 : s.advance (fun k => ign.contains k) with
    | error e => rw [h1] at h; cases h
    | ok s1 => rw [h1] at h; injection h with h; injection h with _ h; injection h with _ h; exact h ▸ hs.advance h1
  | eat k =>
    intro l s o l' s' hs h
    unfold exec at h
    cases h1 : s.eat (fun k => ign.contains k) k with
    | error e => rw [h1] at h; cases h
    | ok r => rw [h1] at h; injection h with h; injection h with _ h; injection h with _ h; exact h ▸ hs.eat hp h1
  | expect k =>
    intro l s o l' s' hs h
    unfold exec at h
    cases h1 : s.expect (fun k => ign.contains k) k with
    | error e => rw [h1] at h; cases h
    | ok r => rw [h1] at h; injection h with h; injection h with _ h; injection h with _ h; exact h ▸ hs.expect hp h1
  | need k =>
    intro l s o l' s' hs h
    unfold exec at h
    cases h1 : s.expect (fun k => ign.contains k) k with
    | error e => rw [h1] at h; cases h
    | ok r => rw [h1] at h; injection h with h; injection h with _ h; injection h with _ h; exact h ▸ hs.expect hp h1
  | fail c f => intro l s o l' s' hs h; simp [exec] at h; rw [← h.2.2]; exact hs
  | set r f => intro l s o l' s' hs h; simp [exec] at h; rw [← h.2.2]; exact hs
  | finish k =>
    intro l s o l' s' hs h
    unfold exec at h
    cases h1 : s.finishAt l.cp (k l.regs) with
    | error e => rw [h1] at h; cases h
    | ok r => rw [h1] at h; injection h with h; injection h with _ h; injection h with _ h; exact h ▸ (hs.finish h1).1
  | within k p ih =>
    intro l s o l' s' hs h
    unfold exec at h
    split at h
    · rename_i o1 l1 s1 h1
      have k1 := ih hp _ _ _ _ _ hs h1
      cases h2 : s1.finishAt s.checkpoint k with
      | error e => rw [h2] at h; cases h
      | ok r => rw [h2] at h; simp at h; rw [← h.2.2]; exact (k1.finish h2).1
    · cases h
  | mark p ih =>
    intro l s o l' s' hs h
    unfold exec at h
    split at h
    · rename_i h1
      simp at h; rw [← h.2.2]
      exact ih hp _ _ _ _ _ hs h1
    · cases h
  | remark => intro l s o l' s' hs h; simp [exec] at h; rw [← h.2.2]; exact hs
  | again =>
    intro l s o l' s' hs h
    rw [exec] at h
    split at h
    · rename_i e he
      simp at h; rw [← h.2.2]
      have hmem : e ∈ s.sink := List.mem_reverse.1 (List.mem_of_find?_eq_some he)
      obtain ⟨a, b, hab⟩ := List.append_of_mem hmem
      intro x hx
      simp only [PState.pushChild, List.map_append, List.map_cons, List.map_nil, leavesOfList_append, leavesOfList, List.append_nil,
        List.mem_append] at hx
      rcases hx with hx | hx
      · exact hs x hx
      · refine hs x ?_
        rw [hab]
        simp only [List.map_append, List.map_cons, leavesOfList_append, leavesOfList, List.mem_append]
        exact .inr (.inl hx)
    · cases h
  | back => intro l s o l' s' hs h; simp [exec] at h; rw [← h.2.2]; exact hs
  | seq a b iha ihb =>
    simp only [only, Bool.and_eq_true] at hp
    intro l s o l' s' hs h
    unfold exec at h
    split at h
    · rename_i h1; exact ihb hp.2 _ _ _ _ _ (iha hp.1 _ _ _ _ _ hs h1) h
    · exact iha hp.1 _ _ _ _ _ hs h
  | ite c a b ihc iha ihb =>
    simp only [only, Bool.and_eq_true] at hp
    intro l s o l' s' hs h
    unfold exec at h
    split at h
    · rename_i h1; exact iha hp.1.2 _ _ _ _ _ (ihc hp.1.1 _ _ _ _ _ hs h1) h
    · rename_i h1; exact ihb hp.2 _ _ _ _ _ (ihc hp.1.1 _ _ _ _ _ hs h1) h
    · exact ihc hp.1.1 _ _ _ _ _ hs h
  | loop c b ihc ihb =>
    simp only [only, Bool.and_eq_true] at hp
    intro l s o l' s' hs h
    exact turns_has (ihc hp.1) (ihb hp.2) _ _ _ _ _ _ hs h
  | brk => intro l s o l' s' hs h; simp [exec] at h; rw [← h.2.2]; exact hs
  | cont => intro l s o l' s' hs h; simp [exec] at h; rw [← h.2.2]; exact hs
  | ret b => intro l s o l' s' hs h; simp [exec] at h; rw [← h.2.2]; exact hs
  | catch_ p ih =>
    intro l s o l' s' hs h
    unfold exec at h
    split at h
    · rename_i h1
      simp at h; rw [← h.2.2]
      exact ih hp _ _ _ _ _ hs h1
    · exact ih hp _ _ _ _ _ hs h
  | call f =>
    intro l s o l' s' hs h
    unfold exec at h
    split at h
    · rename_i h1
      simp at h; rw [← h.2.2]
      exact hcalls _ _ _ _ hs h1
    · cases h

theorem calls_has {src : Source} {slack : Nat} {procs : List Prog} (hp : procs.all (only K) = true) (d : Nat) :
    ∀ f s o s', Has K ign s → calls (fun k => ign.contains k) src slack procs d f s = .ok (o, s') → Has K ign s' := by
  induction d with
  | zero => intro f s o s' _ h; cases h
  | succ d ih =>
    intro f s o s' hs h
    unfold calls at h
    split at h
    · cases h
    · rename_i p hpf
      have hpp : p.only K = true := List.all_eq_true.mp hp p (List.mem_of_getElem? hpf)
      split at h
      · rename_i h1
        simp at h; rw [← h.2]; exact exec_has ih p hpp _ _ _ _ _ hs h1
      · rename_i h1
        simp at h; rw [← h.2]; exact exec_has ih p hpp _ _ _ _ _ hs h1
      · cases h

end Prog

open Prog in
theorem HandParser.parse_only {h : HandParser} {K : List Nat} (hp : (h.main.only K && h.procs.all (Prog.only K)) = true)
    {slack : Nat} {src : Source} {toks : List Tok} {g : Green} {errs : List PErr} (hr : h.parse slack src toks = .ok (some g, errs)) :
    ∀ x ∈ leavesOf g, x.1 ∈ K ∨ x.1 ∈ h.ign := by
  rw [Bool.and_eq_true] at hp
  unfold HandParser.parse at hr
  cases h0 : PState.new (fun k => h.ign.contains k) toks src.length with
  | error e => rw [h0] at hr; cases hr
  | ok s =>
    rw [h0, run_bind_ok] at hr
    have hs : Has K h.ign s := Has.skipLoop (s := ⟨toks, 0, [], 0, none, [], src.length⟩) _ (by intro x hx; cases hx) h0
    cases h1 : h.main.exec (fun k => h.ign.contains k) src slack (Prog.calls (fun k => h.ign.contains k) src slack h.procs
        (slack + ((toks.length + 1) * (h.procs.length + 1) + 1))) ⟨h.begins s, fun _ => 0⟩ s with
    | error e => rw [h1] at hr; cases hr
    | ok r =>
      obtain ⟨o, l, s1⟩ := r
      rw [h1, run_bind_ok] at hr
      have hs1 := exec_has (fun f s o s' => calls_has hp.2 _ f s o s') h.main hp.1 _ _ _ _ _ hs h1
      cases h2 : s1.finishAt (h.begins s) h.root with
      | error e => unfold HandParser.done at hr; cases o <;> simp [h2] at hr
      | ok r2 =>
        obtain ⟨e, s2⟩ := r2
        obtain ⟨f1, g1, f2, rfl⟩ := hs1.finish h2
        have hg : g = g1.tree := by unfold HandParser.done at hr; cases o <;> simp [h2] at hr <;> exact hr.1.symm
        rw [hg]
        intro x hx
        refine f1 x ?_
        obtain ⟨a, b, hab⟩ := List.append_of_mem f2
        rw [hab]
        simp [leavesOfList_append, leavesOfList, hx]
end Oaks
