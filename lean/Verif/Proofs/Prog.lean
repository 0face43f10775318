import Verif.Model.Prog
import Verif.Proofs.Flat
import Verif.Proofs.Prs

/-! Parsers that are given as data: what every one of them keeps, and a check that is sufficient for ending. -/
namespace Oaks
open Spec

/-- How many tokens are left. -/
def PState.left (s : PState) : Nat := s.tokens.length - s.index

namespace Prog

/-- The sink holds tokens read so far in order, with `strict` all of them, and its lengths are right; the next token is not ignored. -/
structure Sound (ign : Nat → Bool) (strict : Bool) (toks : List Tok) (s : PState) : Prop where
  tokens : s.tokens = toks
  leaves : (leavesOfList (s.sink.map Entry.tree)).Sublist ((toks.take s.index).map Tok.kl)
  all : strict = true → leavesOfList (s.sink.map Entry.tree) = (toks.take s.index).map Tok.kl
  weight : lenSum (s.sink.map Entry.tree) = bytesBelowList (s.sink.map Entry.tree)
  quiet : ∀ t, s.current = some t → ign t.kind = false

/-- From `s` to `s'` nothing below `m` in the sink was touched, no token was given back, no error was dropped. -/
structure Moves (m : Nat) (s s' : PState) : Prop where
  sink : s'.sink.take m = s.sink.take m
  le : m ≤ s'.sink.length
  left : s'.left ≤ s.left
  errs : s.errors <+: s'.errors

theorem Moves.refl {m : Nat} {s : PState} (h : m ≤ s.sink.length) : Moves m s s := ⟨rfl, h, Nat.le_refl _, List.prefix_rfl⟩

theorem Moves.trans {m : Nat} {s s' s'' : PState} (h : Moves m s s') (h' : Moves m s' s'') : Moves m s s'' :=
  ⟨h'.sink.trans h.sink, h'.le, Nat.le_trans h'.left h.left, h.errs.trans h'.errs⟩

theorem Moves.mono {m m' : Nat} {s s' : PState} (h : Moves m s s') (hm : m' ≤ m) : Moves m' s s' := by
  refine ⟨?_, Nat.le_trans hm h.le, h.left, h.errs⟩
  have := congrArg (List.take m') h.sink
  simpa [List.take_take, Nat.min_eq_left hm] using this

variable {ign : Nat → Bool} {strict : Bool} {toks : List Tok} {s s' : PState}

theorem length_mod (hl : (toks.map Tok.length).sum < 2 ^ 32) {t : Tok} (h : t ∈ toks) : t.length % 2 ^ 32 = t.length := by
  apply Nat.mod_eq_of_lt
  have := FlatParser.mem_le_sum (List.mem_map_of_mem (f := Tok.kl) h)
  rw [List.map_map] at this
  exact Nat.lt_of_le_of_lt this hl

theorem bytesBelowList_app (a b : List Green) : bytesBelowList (a ++ b) = bytesBelowList a + bytesBelowList b := by
  simp [bytesBelowList, leavesOfList_append]

theorem bytesBelowList_single_leaf (k n : Nat) : bytesBelowList [.leaf k n none] = n := by
  simp [bytesBelowList, leavesOfList, leavesOf]

/-- The parts of `Sound` that hold between tokens and trivia, too. -/
structure Half (strict : Bool) (toks : List Tok) (s : PState) : Prop where
  tokens : s.tokens = toks
  leaves : (leavesOfList (s.sink.map Entry.tree)).Sublist ((toks.take s.index).map Tok.kl)
  all : strict = true → leavesOfList (s.sink.map Entry.tree) = (toks.take s.index).map Tok.kl
  weight : lenSum (s.sink.map Entry.tree) = bytesBelowList (s.sink.map Entry.tree)

theorem Sound.half (h : Sound ign strict toks s) : Half strict toks s := ⟨h.tokens, h.leaves, h.all, h.weight⟩

theorem Half.skip (hl : (toks.map Tok.length).sum < 2 ^ 32) (h : Half strict toks s) {m : Nat} (hm : m ≤ s.sink.length) :
    ∃ s', s.skipTrivia ign = .ok s' ∧ Sound ign strict toks s' ∧ Moves m s s' ∧ s'.errors = s.errors := by
  obtain ⟨k, es, h1, h2, h3, h4, h5⟩ := skipTrivia_spec (ign := ign) s
  rw [h.tokens] at h2 h3 h4 h5
  have hes : es.map Entry.tree = (((toks.drop s.index).take k).map Tok.kl).map leafOf := by
    rw [h3, List.map_map, List.map_map]; rfl
  have hmod : ∀ t ∈ ((toks.drop s.index).take k).map Tok.kl, t.2 < 2 ^ 32 := by
    intro t ht
    obtain ⟨u, hu, rfl⟩ := List.mem_map.1 ht
    have := length_mod hl (List.mem_of_mem_drop (List.mem_of_mem_take hu))
    show u.length < 2 ^ 32
    omega
  refine ⟨_, h1, ⟨h.tokens, ?_, ?_, ?_, ?_⟩, ⟨?_, ?_, ?_, List.prefix_rfl⟩, rfl⟩
  · simp only [List.map_append, leavesOfList_append, hes, FlatParser.leavesOfList_leafOf _ hmod, List.take_add]
    exact h.leaves.append (List.Sublist.refl _)
  · intro hs
    simp only [List.map_append, leavesOfList_append, hes, FlatParser.leavesOfList_leafOf _ hmod, List.take_add, h.all hs]
  · simp only [List.map_append, lenSum_append, bytesBelowList_app, h.weight, hes, Prs.bytes_leaves]
  · intro t ht
    refine h5 t ?_
    simpa [PState.current, h.tokens] using ht
  · simp [List.take_append, hm]
  · simp; omega
  · simp only [PState.left]; omega

theorem left_lt {t : Tok} (hc : s.current = some t) : s.index < s.tokens.length := by
  unfold PState.current at hc
  exact (List.getElem?_eq_some_iff.1 hc).1

theorem Sound.bump (hl : (toks.map Tok.length).sum < 2 ^ 32) (h : Sound ign strict toks s) {m : Nat} (hm : m ≤ s.sink.length) :
    ∃ s', s.bump ign = .ok s' ∧ Sound ign strict toks s' ∧ Moves m s s' ∧
      ((s.current = none ∧ s' = s) ∨ (s.current ≠ none ∧ s'.left < s.left)) := by
  unfold PState.bump
  cases hc : s.current with
  | none => exact ⟨s, rfl, h, Moves.refl hm, .inl ⟨rfl, rfl⟩⟩
  | some t =>
    have hlt := left_lt hc
    have hc' := hc
    unfold PState.current at hc'
    rw [h.tokens] at hc' hlt
    obtain ⟨_, hg⟩ := List.getElem?_eq_some_iff.1 hc'
    have hmem : t ∈ toks := hg ▸ List.getElem_mem _
    have hmod := length_mod hl hmem
    have hh : Half strict toks (s.pushLeaf t.kind t.length).tokenAdvance := by
      refine ⟨h.tokens, ?_, ?_, ?_⟩
      · simp only [PState.tokenAdvance, PState.pushLeaf, List.map_append, leavesOfList_append, List.take_succ_eq_append_getElem hlt, hg]
        refine h.leaves.append ?_
        simp [leavesOfList, leavesOf, hmod, Tok.kl]
      · intro hs
        simp only [PState.tokenAdvance, PState.pushLeaf, List.map_append, leavesOfList_append, List.take_succ_eq_append_getElem hlt, hg,
          h.all hs]
        simp [leavesOfList, leavesOf, hmod, Tok.kl]
      · simp only [PState.tokenAdvance, PState.pushLeaf, List.map_append, lenSum_append, bytesBelowList_app, h.weight, List.map_cons,
          List.map_nil, bytesBelowList_single_leaf]
        simp [lenSum, Green.len]
    obtain ⟨s', h1, h2, h3, h4⟩ := hh.skip (ign := ign) hl (m := m) (by simp [PState.tokenAdvance, PState.pushLeaf]; omega)
    refine ⟨s', h1, h2, ⟨?_, h3.le, ?_, ?_⟩, .inr ⟨by simp, ?_⟩⟩
    · rw [h3.sink]; simp [PState.tokenAdvance, PState.pushLeaf, List.take_append, hm]
    · refine Nat.le_trans h3.left ?_; simp [PState.left, PState.tokenAdvance, PState.pushLeaf]; omega
    · rw [h4]; exact List.prefix_rfl
    · refine Nat.lt_of_le_of_lt h3.left ?_
      simp [PState.left, PState.tokenAdvance, PState.pushLeaf, h.tokens]; omega

theorem Sound.advance (hl : (toks.map Tok.length).sum < 2 ^ 32) (h : Sound ign false toks s) {m : Nat} (hm : m ≤ s.sink.length) :
    ∃ s', s.advance ign = .ok s' ∧ Sound ign false toks s' ∧ Moves m s s' ∧
      ((s.current = none ∧ s'.current = none ∧ s'.left = s.left) ∨ (s.current ≠ none ∧ s'.left < s.left)) := by
  unfold PState.advance
  have hh : Half false toks s.tokenAdvance := by
    refine ⟨h.tokens, h.leaves.trans ?_, by simp, h.weight⟩
    exact List.Sublist.map _ (List.take_sublist_take_left (by simp [PState.tokenAdvance]))
  obtain ⟨s', h1, h2, h3, h4⟩ := hh.skip (ign := ign) hl (m := m) hm
  have hle : s'.left ≤ s.left := Nat.le_trans h3.left (by simp [PState.left, PState.tokenAdvance]; omega)
  refine ⟨s', h1, h2, ⟨h3.sink, h3.le, hle, ?_⟩, ?_⟩
  · rw [h4]; exact List.prefix_rfl
  · cases hc : s.current with
    | none =>
      have h5 : s.tokens.length ≤ s.index := by simpa [PState.current] using hc
      have h6 : s.left = 0 := by simp [PState.left]; omega
      left
      refine ⟨rfl, ?_, by omega⟩
      have h7 := skipTrivia_spec (ign := ign) s.tokenAdvance
      obtain ⟨k, es, h8, _⟩ := h7
      rw [h8] at h1
      injection h1 with h1
      subst h1
      simp [PState.current, PState.tokenAdvance]; omega
    | some t =>
      right
      have hlt := left_lt hc
      refine ⟨by simp, Nat.lt_of_le_of_lt h3.left ?_⟩
      simp [PState.left, PState.tokenAdvance]; omega

theorem Sound.eat (hl : (toks.map Tok.length).sum < 2 ^ 32) (h : Sound ign strict toks s) {m : Nat} (hm : m ≤ s.sink.length) (k : Nat) :
    ∃ b s', s.eat ign k = .ok (b, s') ∧ Sound ign strict toks s' ∧ Moves m s s' ∧
      ((b = true ∧ s.peekKind = some k ∧ s'.left < s.left) ∨ (b = false ∧ s.peekKind ≠ some k ∧ s' = s)) := by
  unfold PState.eat
  cases hk : s.atKind k with
  | true =>
    have hk' : s.peekKind = some k := by simpa [PState.atKind] using hk
    obtain ⟨s', h1, h2, h3, h4⟩ := h.bump hl hm
    refine ⟨true, s', by simp [h1], h2, h3, .inl ⟨rfl, hk', ?_⟩⟩
    rcases h4 with ⟨h5, _⟩ | ⟨_, h5⟩
    · simp [PState.peekKind, h5] at hk'
    · exact h5
  | false =>
    have hk' : s.peekKind ≠ some k := by simpa [PState.atKind] using hk
    exact ⟨false, s, by simp, h, Moves.refl hm, .inr ⟨rfl, hk', rfl⟩⟩

theorem Sound.record (h : Sound ign strict toks s) (e : PErr) : Sound ign strict toks { s with errors := s.errors ++ [e] } :=
  ⟨h.tokens, h.leaves, h.all, h.weight, h.quiet⟩

theorem Moves.record {m : Nat} (h : m ≤ s.sink.length) (e : PErr) : Moves m s { s with errors := s.errors ++ [e] } :=
  ⟨rfl, h, Nat.le_refl _, List.prefix_append _ _⟩

theorem Sound.expect (hl : (toks.map Tok.length).sum < 2 ^ 32) (h : Sound ign strict toks s) {m : Nat} (hm : m ≤ s.sink.length) (k : Nat) :
    ∃ b s', s.expect ign k = .ok (b, s') ∧ Sound ign strict toks s' ∧ Moves m s s' ∧
      ((b = true ∧ s.peekKind = some k ∧ s'.left < s.left) ∨
        (b = false ∧ s.peekKind ≠ some k ∧ s'.left = s.left ∧ s'.peekKind = s.peekKind ∧ s'.errors.length = s.errors.length + 1)) := by
  obtain ⟨b, s', h1, h2, h3, h4⟩ := h.eat hl hm k
  unfold PState.expect
  rw [h1]
  rcases h4 with ⟨rfl, h5, h6⟩ | ⟨rfl, h5, rfl⟩
  · exact ⟨true, s', rfl, h2, h3, .inl ⟨rfl, h5, h6⟩⟩
  · exact ⟨false, s'.record 1, rfl, h2.record _, Moves.record hm _, .inr ⟨rfl, h5, rfl, rfl, by simp [PState.record]⟩⟩

theorem Sound.weight_lt (hl : (toks.map Tok.length).sum < 2 ^ 32) (h : Sound ign strict toks s) :
    lenSum (s.sink.map Entry.tree) < 2 ^ 32 := by
  rw [h.weight]
  refine Nat.lt_of_le_of_lt ?_ hl
  have h1 := Prs.sum_sublist h.leaves
  have h2 : (((toks.take s.index).map Tok.kl).map (·.2)).sum ≤ ((toks.map Tok.kl).map (·.2)).sum :=
    Prs.sum_sublist (List.Sublist.map _ (List.take_sublist _ _))
  have h3 : ((toks.map Tok.kl).map (·.2)) = toks.map Tok.length := by simp [Tok.kl]
  rw [h3] at h2
  exact Nat.le_trans h1 h2

theorem Sound.finish (hl : (toks.map Tok.length).sum < 2 ^ 32) (h : Sound ign strict toks s) {cp : Nat × Nat} (hm : cp.2 ≤ s.sink.length)
    (k : Nat) :
    ∃ s', s.finishAt cp k = .ok (⟨.node k (lenSum ((s.sink.drop cp.2).map Entry.tree)) ((s.sink.drop cp.2).map Entry.tree), s.fresh⟩, s') ∧
      Sound ign strict toks s' ∧ Moves cp.2 s s' ∧ s'.index = s.index ∧ s'.errors = s.errors := by
  have hw := h.weight_lt hl
  have hsplit : lenSum ((s.sink.take cp.2).map Entry.tree) + lenSum ((s.sink.drop cp.2).map Entry.tree) = lenSum (s.sink.map Entry.tree) := by
    rw [← lenSum_append, ← List.map_append, List.take_append_drop]
  have hmk : Green.mkNode k ((s.sink.drop cp.2).map Entry.tree) =
      .ok (.node k (lenSum ((s.sink.drop cp.2).map Entry.tree)) ((s.sink.drop cp.2).map Entry.tree)) := mkNode_ok.2 ⟨rfl, by omega⟩
  unfold PState.finishAt
  rw [if_pos hm, hmk]
  have hlv : leavesOfList ((s.sink.take cp.2 ++ [(⟨.node k (lenSum ((s.sink.drop cp.2).map Entry.tree)) ((s.sink.drop cp.2).map Entry.tree),
      s.fresh⟩ : Entry)]).map Entry.tree) = leavesOfList (s.sink.map Entry.tree) := by
    simp only [List.map_append, leavesOfList_append, List.map_cons, List.map_nil, leavesOfList, leavesOf, List.append_nil]
    rw [← leavesOfList_append, ← List.map_append, List.take_append_drop]
  refine ⟨_, rfl, ⟨h.tokens, ?_, ?_, ?_, h.quiet⟩, ⟨?_, ?_, Nat.le_refl _, List.prefix_rfl⟩, rfl, rfl⟩
  · simp only [hlv]; exact h.leaves
  · intro hs; simp only [hlv]; exact h.all hs
  · have hb : ∀ gs gs', leavesOfList gs = leavesOfList gs' → bytesBelowList gs = bytesBelowList gs' := by
      intro a b hab; simp [bytesBelowList, hab]
    simp only
    rw [hb _ _ hlv, ← h.weight, ← hsplit, List.map_append, lenSum_append]
    simp [lenSum, Green.len]
  · simp [hm]
  · simp [Nat.min_eq_left hm]

/-! ### Every statement keeps these -/

/-- What a statement has done when it ends. -/
structure Kept (ign : Nat → Bool) (strict : Bool) (toks : List Tok) (l : Loc) (s : PState) (o : Out) (l' : Loc) (s' : PState) : Prop where
  sound : Sound ign strict toks s'
  moves : Moves l.cp.2 s s'
  here : l'.cp.2 ≤ s'.sink.length
  up : l.cp.2 ≤ l'.cp.2
  err : o = .err → s.errors.length < s'.errors.length

/-- A statement keeps the sink in order. -/
def Keeps (ign : Nat → Bool) (strict : Bool) (toks : List Tok) (f : Loc → PState → Run (Out × Loc × PState)) : Prop :=
  ∀ l s o l' s', Sound ign strict toks s → l.cp.2 ≤ s.sink.length → f l s = .ok (o, l', s') → Kept ign strict toks l s o l' s'

/-- Functions keep the sink in order. -/
def CallsKeep (ign : Nat → Bool) (strict : Bool) (toks : List Tok) (calls : Nat → PState → Run (Out × PState)) : Prop :=
  ∀ f s o s', Sound ign strict toks s → calls f s = .ok (o, s') →
    Sound ign strict toks s' ∧ Moves s.sink.length s s' ∧ (o = .err → s.errors.length < s'.errors.length)

theorem Kept.same {l : Loc} {o : Out} (h : Sound ign strict toks s) (hl : l.cp.2 ≤ s.sink.length) (ho : o ≠ .err) :
    Kept ign strict toks l s o l s := ⟨h, Moves.refl hl, hl, Nat.le_refl _, fun h => absurd h ho⟩

theorem Kept.trans {l l' l'' : Loc} {o o' : Out} {s'' : PState} (h : Kept ign strict toks l s o l' s')
    (h' : Kept ign strict toks l' s' o' l'' s'') : Kept ign strict toks l s o' l'' s'' :=
  ⟨h'.sound, h.moves.trans (h'.moves.mono h.up), h'.here, Nat.le_trans h.up h'.up,
    fun ho => Nat.lt_of_le_of_lt h.moves.errs.length_le (h'.err ho)⟩

theorem Kept.out {l l' : Loc} {o o' : Out} (h : Kept ign strict toks l s o l' s') (ho : o' ≠ .err) : Kept ign strict toks l s o' l' s' :=
  ⟨h.sound, h.moves, h.here, h.up, fun h => absurd h ho⟩

theorem turns_keeps {c body : Loc → PState → Run (Out × Loc × PState)} (hc : Keeps ign strict toks c) (hb : Keeps ign strict toks body)
    (fuel : Nat) : Keeps ign strict toks (turns c body fuel) := by
  induction fuel with
  | zero => intro l s o l' s' _ _ h; simp [turns] at h
  | succ fuel ih =>
    intro l s o l' s' hs hl h
    rw [turns] at h
    split at h
    · rename_i l1 s1 h1
      have k1 := hc _ _ _ _ _ hs hl h1
      split at h
      · rename_i l2 s2 h2
        have k2 := k1.trans (hb _ _ _ _ _ k1.sound k1.here h2)
        exact k2.trans (ih _ _ _ _ _ k2.sound k2.here h)
      · rename_i l2 s2 h2
        have k2 := k1.trans (hb _ _ _ _ _ k1.sound k1.here h2)
        exact k2.trans (ih _ _ _ _ _ k2.sound k2.here h)
      · rename_i l2 s2 h2
        have k2 := k1.trans (hb _ _ _ _ _ k1.sound k1.here h2)
        injection h with h
        obtain ⟨rfl, rfl, rfl⟩ := Prod.mk.inj h |>.imp id Prod.mk.inj
        exact k2.out (by simp)
      · exact k1.trans (hb _ _ _ _ _ k1.sound k1.here h)
    · rename_i l1 s1 h1
      have k1 := hc _ _ _ _ _ hs hl h1
      injection h with h
      obtain ⟨rfl, rfl, rfl⟩ := Prod.mk.inj h |>.imp id Prod.mk.inj
      exact k1.out (by simp)
    · exact hc _ _ _ _ _ hs hl h

/-- No node is put into the sink twice or looked for in it; with `strict` no token is dropped. -/
def fits (strict : Bool) : Prog → Bool
  | advance => !strict
  | again => false
  | back => false
  | mark p => fits strict p
  | within _ p => fits strict p
  | seq a b => fits strict a && fits strict b
  | ite c a b => fits strict c && fits strict a && fits strict b
  | loop c b => fits strict c && fits strict b
  | catch_ p => fits strict p
  | _ => true

theorem exec_keeps (hl : (toks.map Tok.length).sum < 2 ^ 32) {src : Source} {slack : Nat} {calls : Nat → PState → Run (Out × PState)}
    (hcalls : CallsKeep ign strict toks calls) (p : Prog) (hp : p.fits strict = true) :
    Keeps ign strict toks (exec ign src slack calls p) := by
  induction p with
  | val b =>
    intro l s o l' s' hs hl h
    injection h with h; obtain ⟨rfl, rfl, rfl⟩ := Prod.mk.inj h |>.imp id Prod.mk.inj
    exact Kept.same hs hl (by simp)
  | sees b =>
    intro l s o l' s' hs hl h
    injection h with h; obtain ⟨rfl, rfl, rfl⟩ := Prod.mk.inj h |>.imp id Prod.mk.inj
    exact Kept.same hs hl (by simp)
  | more =>
    intro l s o l' s' hs hl h
    injection h with h; obtain ⟨rfl, rfl, rfl⟩ := Prod.mk.inj h |>.imp id Prod.mk.inj
    exact Kept.same hs hl (by simp)
  | ask f =>
    intro l s o l' s' hs hl h
    injection h with h; obtain ⟨rfl, rfl, rfl⟩ := Prod.mk.inj h |>.imp id Prod.mk.inj
    exact Kept.same hs hl (by simp)
  | brk =>
    intro l s o l' s' hs hl h
    injection h with h; obtain ⟨rfl, rfl, rfl⟩ := Prod.mk.inj h |>.imp id Prod.mk.inj
    exact Kept.same hs hl (by simp)
  | cont =>
    intro l s o l' s' hs hl h
    injection h with h; obtain ⟨rfl, rfl, rfl⟩ := Prod.mk.inj h |>.imp id Prod.mk.inj
    exact Kept.same hs hl (by simp)
  | ret b =>
    intro l s o l' s' hs hl h
    injection h with h; obtain ⟨rfl, rfl, rfl⟩ := Prod.mk.inj h |>.imp id Prod.mk.inj
    exact Kept.same hs hl (by simp)
  | set r f =>
    intro l s o l' s' hs hl h
    injection h with h; obtain ⟨rfl, rfl, rfl⟩ := Prod.mk.inj h |>.imp id Prod.mk.inj
    exact ⟨hs, Moves.refl hl, hl, Nat.le_refl _, by simp⟩
  | remark =>
    intro l s o l' s' hs hl h
    injection h with h; obtain ⟨rfl, rfl, rfl⟩ := Prod.mk.inj h |>.imp id Prod.mk.inj
    exact ⟨hs, Moves.refl hl, Nat.le_refl _, hl, by simp⟩
  | fail c f =>
    intro l s o l' s' hs hl h
    injection h with h; obtain ⟨rfl, rfl, rfl⟩ := Prod.mk.inj h |>.imp id Prod.mk.inj
    exact ⟨hs.record _, Moves.record hl _, hl, Nat.le_refl _, by simp⟩
  | bump =>
    intro l s o l' s' hs hcp h
    obtain ⟨s1, h1, h2, h3, _⟩ := hs.bump hl hcp
    simp only [exec, h1, run_bind_ok, run_pure, Except.ok.injEq, Prod.mk.injEq] at h
    obtain ⟨rfl, rfl, rfl⟩ := h
    exact ⟨h2, h3, h3.le, Nat.le_refl _, by simp⟩
  | advance =>
    intro l s o l' s' hs hcp h
    cases strict with
    | true => simp [fits] at hp
    | false =>
      obtain ⟨s1, h1, h2, h3, _⟩ := hs.advance hl hcp
      simp only [exec, h1, run_bind_ok, run_pure, Except.ok.injEq, Prod.mk.injEq] at h
      obtain ⟨rfl, rfl, rfl⟩ := h
      exact ⟨h2, h3, h3.le, Nat.le_refl _, by simp⟩
  | eat k =>
    intro l s o l' s' hs hcp h
    obtain ⟨b, s1, h1, h2, h3, _⟩ := hs.eat hl hcp k
    simp only [exec, h1, run_bind_ok, run_pure, Except.ok.injEq, Prod.mk.injEq] at h
    obtain ⟨rfl, rfl, rfl⟩ := h
    exact ⟨h2, h3, h3.le, Nat.le_refl _, by simp⟩
  | expect k =>
    intro l s o l' s' hs hcp h
    obtain ⟨b, s1, h1, h2, h3, _⟩ := hs.expect hl hcp k
    simp only [exec, h1, run_bind_ok, run_pure, Except.ok.injEq, Prod.mk.injEq] at h
    obtain ⟨rfl, rfl, rfl⟩ := h
    exact ⟨h2, h3, h3.le, Nat.le_refl _, by simp⟩
  | need k =>
    intro l s o l' s' hs hcp h
    obtain ⟨b, s1, h1, h2, h3, h4⟩ := hs.expect hl hcp k
    simp only [exec, h1, run_bind_ok, run_pure, Except.ok.injEq, Prod.mk.injEq] at h
    obtain ⟨rfl, rfl, rfl⟩ := h
    refine ⟨h2, h3, h3.le, Nat.le_refl _, ?_⟩
    rcases h4 with ⟨rfl, _⟩ | ⟨_, _, _, _, h5⟩
    · simp
    · intro _; omega
  | finish k =>
    intro l s o l' s' hs hcp h
    obtain ⟨s1, h1, h2, h3, _⟩ := hs.finish hl hcp (k l.regs)
    simp only [exec, h1, run_bind_ok, run_pure, Except.ok.injEq, Prod.mk.injEq] at h
    obtain ⟨rfl, rfl, rfl⟩ := h
    exact ⟨h2, h3, h3.le, Nat.le_refl _, by simp⟩
  | mark p ih =>
    intro l s o l' s' hs hcp h
    rw [exec] at h
    split at h
    · rename_i o1 l1 s1 h1
      have k1 := ih hp _ _ _ _ _ hs (Nat.le_refl _) h1
      injection h with h; obtain ⟨rfl, rfl, rfl⟩ := Prod.mk.inj h |>.imp id Prod.mk.inj
      exact ⟨k1.sound, k1.moves.mono hcp, Nat.le_trans hcp k1.moves.le, Nat.le_refl _, k1.err⟩
    · simp at h
  | within k p ih =>
    intro l s o l' s' hs hcp h
    rw [exec] at h
    split at h
    · rename_i o1 l1 s1 h1
      have k1 := ih hp _ _ _ _ _ hs (Nat.le_refl _) h1
      obtain ⟨s2, h2, k2, k3, _, k5⟩ := k1.sound.finish hl (cp := s.checkpoint) k1.moves.le k
      simp only [h2, Except.ok.injEq, Prod.mk.injEq] at h
      obtain ⟨rfl, rfl, rfl⟩ := h
      have k4 := (k1.moves.trans k3).mono hcp
      exact ⟨k2, k4, k4.le, Nat.le_refl _, fun he => by rw [k5]; exact k1.err he⟩
    · simp at h
  | again => simp [fits] at hp
  | back => simp [fits] at hp
  | seq a b iha ihb =>
    intro l s o l' s' hs hcp h
    simp only [fits, Bool.and_eq_true] at hp
    rw [exec] at h
    split at h
    · rename_i b1 l1 s1 h1
      have k1 := iha hp.1 _ _ _ _ _ hs hcp h1
      exact k1.trans (ihb hp.2 _ _ _ _ _ k1.sound k1.here h)
    · exact iha hp.1 _ _ _ _ _ hs hcp h
  | ite c a b ihc iha ihb =>
    intro l s o l' s' hs hcp h
    simp only [fits, Bool.and_eq_true] at hp
    rw [exec] at h
    split at h
    · rename_i l1 s1 h1
      have k1 := ihc hp.1.1 _ _ _ _ _ hs hcp h1
      exact k1.trans (iha hp.1.2 _ _ _ _ _ k1.sound k1.here h)
    · rename_i l1 s1 h1
      have k1 := ihc hp.1.1 _ _ _ _ _ hs hcp h1
      exact k1.trans (ihb hp.2 _ _ _ _ _ k1.sound k1.here h)
    · exact ihc hp.1.1 _ _ _ _ _ hs hcp h
  | loop c b ihc ihb =>
    simp only [fits, Bool.and_eq_true] at hp
    intro l s o l' s' hs hcp h
    exact turns_keeps (ihc hp.1) (ihb hp.2) _ _ _ _ _ _ hs hcp h
  | catch_ p ih =>
    intro l s o l' s' hs hcp h
    rw [exec] at h
    split at h
    · rename_i l1 s1 h1
      have k1 := ih hp _ _ _ _ _ hs hcp h1
      injection h with h; obtain ⟨rfl, rfl, rfl⟩ := Prod.mk.inj h |>.imp id Prod.mk.inj
      exact k1.out (by simp)
    · exact ih hp _ _ _ _ _ hs hcp h
  | call f =>
    intro l s o l' s' hs hcp h
    rw [exec] at h
    split at h
    · rename_i o1 s1 h1
      obtain ⟨k1, k2, k3⟩ := hcalls _ _ _ _ hs h1
      injection h with h; obtain ⟨rfl, rfl, rfl⟩ := Prod.mk.inj h |>.imp id Prod.mk.inj
      exact ⟨k1, k2.mono hcp, Nat.le_trans hcp k2.le, Nat.le_refl _, k3⟩
    · simp at h

theorem calls_keep (hl : (toks.map Tok.length).sum < 2 ^ 32) {src : Source} {slack : Nat} {procs : List Prog}
    (hp : procs.all (fits strict) = true) (depth : Nat) : CallsKeep ign strict toks (calls ign src slack procs depth) := by
  induction depth with
  | zero => intro f s o s' _ h; simp [calls] at h
  | succ depth ih =>
    intro f s o s' hs h
    rw [calls] at h
    split at h
    · simp at h
    · rename_i p hpf
      have hpp : p.fits strict = true := List.all_eq_true.1 hp p (List.mem_of_getElem? hpf)
      have key := exec_keeps (src := src) (slack := slack) hl ih p hpp ⟨s.checkpoint, fun _ => 0⟩ s
      split at h
      · rename_i b l1 s1 h1
        have k1 := key _ _ _ hs (Nat.le_refl _) h1
        injection h with h; obtain ⟨rfl, rfl⟩ := Prod.mk.inj h
        exact ⟨k1.sound, k1.moves, by simp⟩
      · rename_i o1 l1 s1 _ h1
        have k1 := key _ _ _ hs (Nat.le_refl _) h1
        injection h with h; obtain ⟨rfl, rfl⟩ := Prod.mk.inj h
        exact ⟨k1.sound, k1.moves, k1.err⟩
      · simp at h

end Prog
end Oaks
