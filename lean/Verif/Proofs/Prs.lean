import Verif.Model.Prs
import Verif.Proofs.CsvDoc
import Verif.Proofs.Flat

/-! Rules for parser programs: what they do from the tokens ahead. -/
namespace Oaks
open Spec

namespace Prs

/-- The parser went over the groups `a` of `gs`, pushed `cs` and recorded `es`; the leaves pushed are among the tokens gone over, and
all of them if `strict`. -/
structure Went (strict : Bool) (pre : List (Nat × Nat)) (gs : List Group) (sink : List Green) (errs : List PErr)
    (a rest : List Group) (cs : List Green) (es : List PErr) (s : PState) : Prop where
  split : gs = a ++ rest
  now : PAt (pre ++ flat a) (flat rest) (sink ++ cs) (errs ++ es) s
  len : lenSum cs = bytesBelowList cs
  sub : (leavesOfList cs).Sublist (leavesOfList (a.flatMap leavesG))
  all : strict = true → leavesOfList cs = leavesOfList (a.flatMap leavesG)

/-- What is said of a run: the answer, what was gone over, what is left, what was pushed, what was recorded. -/
abbrev Said (α : Type) := Option α → List Group → List Group → List Green → List PErr → Prop

/-- From anywhere with `gs` ahead (and `pre` behind) the program ends, and `R` holds of what it did. -/
def Runs {α : Type} (ign : Nat → Bool) (strict : Bool) (p : Prs α) (pre : List (Nat × Nat)) (gs : List Group) (R : Said α) : Prop :=
  Grouped ign gs → weight gs < 2 ^ 32 → ∀ sink errs s, PAt pre (flat gs) sink errs s →
    ∃ r s' a rest cs es, p s = .ok (r, s') ∧ Went strict pre gs sink errs a rest cs es s' ∧ R r a rest cs es

section
variable {α β : Type} {ign : Nat → Bool} {strict : Bool} {pre : List (Nat × Nat)} {gs : List Group} {R : Said α}

theorem bytes_leaves (ts : List (Nat × Nat)) : bytesBelowList (ts.map leafOf) = lenSum (ts.map leafOf) := by
  induction ts with
  | nil => rfl
  | cons t ts ih => simp only [List.map_cons, bytesBelowList_cons, lenSum_cons, ih]; simp [leafOf, Green.len]

theorem bytes_weight (gs : List Group) : bytesBelowList (gs.flatMap leavesG) = weight gs := by
  rw [weight, flatMap_leavesG, bytes_leaves]

theorem sum_sublist {a b : List (Nat × Nat)} (h : a.Sublist b) : (a.map (·.2)).sum ≤ (b.map (·.2)).sum := by
  induction h with
  | slnil => simp
  | cons x _ ih => simp; omega
  | cons_cons x _ ih => simp; omega

theorem weight_app (a b : List Group) : weight (a ++ b) = weight a + weight b := by
  simp [weight, lenSum_append]

variable {sink : List Green} {errs : List PErr} {s : PState}

theorem Went.le {a rest : List Group} {cs : List Green} {es : List PErr} (h : Went strict pre gs sink errs a rest cs es s) :
    lenSum cs + weight rest ≤ weight gs := by
  have := sum_sublist h.sub
  have h1 : lenSum cs ≤ bytesBelowList (a.flatMap leavesG) := by rw [h.len]; exact this
  rw [bytes_weight] at h1
  rw [h.split, weight_app]
  omega

theorem Went.refl (h : PAt pre (flat gs) sink errs s) : Went strict pre gs sink errs [] gs [] [] s :=
  ⟨rfl, by simpa [flat] using h, rfl, by simp [leavesOfList], fun _ => rfl⟩

theorem Went.trans {a rest a' rest' : List Group} {cs cs' : List Green} {es es' : List PErr} {s' : PState}
    (h : Went strict pre gs sink errs a rest cs es s)
    (h' : Went strict (pre ++ flat a) rest (sink ++ cs) (errs ++ es) a' rest' cs' es' s') :
    Went strict pre gs sink errs (a ++ a') rest' (cs ++ cs') (es ++ es') s' :=
  ⟨by rw [h.split, h'.split, List.append_assoc], by simpa [flat_append] using h'.now,
    by rw [lenSum_append, bytesBelowList_append, h.len, h'.len],
    by rw [leavesOfList_append, List.flatMap_append, leavesOfList_append]; exact h.sub.append h'.sub,
    fun hs => by rw [leavesOfList_append, List.flatMap_append, leavesOfList_append, h.all hs, h'.all hs]⟩

theorem Went.grouped {a rest : List Group} {cs : List Green} {es : List PErr} (h : Went strict pre gs sink errs a rest cs es s)
    (hg : Grouped ign gs) : Grouped ign rest := by
  rw [h.split] at hg; exact hg.append

theorem Runs.mono {R' : Said α} {p : Prs α} (h : Runs ign strict p pre gs R')
    (hR : ∀ r a rest cs es, gs = a ++ rest → R' r a rest cs es → R r a rest cs es) : Runs ign strict p pre gs R := by
  intro hg hw sink errs s hs
  obtain ⟨r, s', a, rest, cs, es, h1, h2, h3⟩ := h hg hw sink errs s hs
  exact ⟨r, s', a, rest, cs, es, h1, h2, hR _ _ _ _ _ h2.split h3⟩

theorem Runs.pure {x : α} (h : R (some x) [] gs [] []) : Runs ign strict (pure x) pre gs R :=
  fun _ _ _ _ s hs => ⟨_, s, [], gs, [], [], rfl, .refl hs, h⟩

theorem Runs.fail (h : R none [] gs [] []) : Runs ign strict fail pre gs R :=
  fun _ _ _ _ s hs => ⟨_, s, [], gs, [], [], rfl, .refl hs, h⟩

theorem bind_none {p : Prs β} {f : β → Prs α} {s s' : PState} (h : p s = .ok (none, s')) : (p >>= f) s = .ok (none, s') := by
  simp only [Bind.bind]; rw [h]

theorem bind_some {p : Prs β} {f : β → Prs α} {s s' : PState} {x : β} (h : p s = .ok (some x, s')) : (p >>= f) s = f x s' := by
  simp only [Bind.bind]; rw [h]

/-- One part after another. -/
theorem Runs.bind {p : Prs β} {f : β → Prs α} {R' : Said β} (h : Runs ign strict p pre gs R')
    (hn : ∀ a rest cs es, gs = a ++ rest → R' none a rest cs es → R none a rest cs es)
    (hf : ∀ x a rest cs es, gs = a ++ rest → R' (some x) a rest cs es →
      Runs ign strict (f x) (pre ++ flat a) rest (fun r a' rest' cs' es' => R r (a ++ a') rest' (cs ++ cs') (es ++ es'))) :
    Runs ign strict (p >>= f) pre gs R := by
  intro hg hw sink errs s hs
  obtain ⟨r, s', a, rest, cs, es, h1, h2, h3⟩ := h hg hw sink errs s hs
  cases r with
  | none => exact ⟨none, s', a, rest, cs, es, bind_none h1, h2, hn _ _ _ _ h2.split h3⟩
  | some x =>
    have := h2.le
    obtain ⟨r', s'', a', rest', cs', es', g1, g2, g3⟩ := hf x a rest cs es h2.split h3 (h2.grouped hg) (by omega) _ _ s' h2.now
    exact ⟨r', s'', a ++ a', rest', cs ++ cs', es ++ es', (bind_some h1).trans g1, h2.trans g2, g3⟩

theorem headKind_eq (h : PAt pre (flat gs) sink errs s) : s.peekKind = headKind gs := by
  have := h.current
  rw [flat_head] at this
  unfold PState.peekKind headKind
  have h2 := congrArg (Option.map Prod.fst) this
  simp only [Option.map_map] at h2
  exact h2

theorem atKind_eq (h : PAt pre (flat gs) sink errs s) (k : Nat) : s.atKind k = (headKind gs == some k) := by
  rw [PState.atKind, headKind_eq h]

theorem more_eq (h : PAt pre (flat gs) sink errs s) : decide (s.index < s.tokens.length) = decide (gs ≠ []) := by
  rw [h.length, h.index, decide_eq_decide]
  cases gs <;> simp [flat]

theorem Runs.sees {k : Nat} {f : Bool → Prs α} (h : Runs ign strict (f (headKind gs == some k)) pre gs R) :
    Runs ign strict (sees k >>= f) pre gs R := by
  intro hg hw sink errs s hs
  have := h hg hw sink errs s hs
  rw [← atKind_eq hs] at this
  exact this

theorem Runs.kind {f : Option Nat → Prs α} (h : Runs ign strict (f (headKind gs)) pre gs R) :
    Runs ign strict (kind >>= f) pre gs R := by
  intro hg hw sink errs s hs
  have := h hg hw sink errs s hs
  rw [← headKind_eq hs] at this
  exact this

theorem Runs.more {f : Bool → Prs α} (h : Runs ign strict (f (decide (gs ≠ []))) pre gs R) :
    Runs ign strict (more >>= f) pre gs R := by
  intro hg hw sink errs s hs
  have := h hg hw sink errs s hs
  rw [← more_eq hs] at this
  exact this

theorem went_bump {g : Group} {rest : List Group} (hg : Grouped ign (g :: rest)) (hs : PAt pre (flat (g :: rest)) sink errs s) :
    ∃ s', s.bump ign = .ok s' ∧ Went strict pre (g :: rest) sink errs [g] rest (leavesG g) [] s' := by
  obtain ⟨s', h1, h2⟩ := hs.bumpG hg
  refine ⟨s', h1, rfl, by simpa [flat] using h2, ?_, by simp, fun _ => by simp⟩
  have := bytes_weight [g]
  simp [weight] at this
  exact this.symm

/-- A token and its trivia become leaves. -/
theorem Runs.bumped {R : Said Unit} {g : Group} {rest : List Group} (h : R (some ()) [g] rest (leavesG g) []) :
    Runs ign strict (bump ign) pre (g :: rest) R := by
  intro hg hw sink errs s hs
  obtain ⟨s', h1, h2⟩ := went_bump (strict := strict) hg hs
  exact ⟨_, s', _, _, _, _, by unfold Prs.bump; rw [h1]; rfl, h2, h⟩

theorem Runs.bump_nil {R : Said Unit} (h : R (some ()) [] [] [] []) : Runs ign strict (bump ign) pre [] R := by
  intro hg hw sink errs s hs
  have hc : s.current = none := by simpa [flat] using hs.current
  exact ⟨_, s, [], [], [], [], by unfold Prs.bump PState.bump; rw [hc]; rfl, .refl hs, h⟩

theorem Runs.advanced {R : Said Unit} {g : Group} {rest : List Group} (h : R (some ()) [g] rest (g.2.map leafOf) []) :
    Runs ign false (advance ign) pre (g :: rest) R := by
  intro hg hw sink errs s hs
  have h' : PAt pre (g.1 :: (g.2 ++ flat rest)) sink errs s := by simpa [flat] using hs
  obtain ⟨s', h1, h2⟩ := h'.advance (hg g List.mem_cons_self).2 hg.tail.head
  refine ⟨_, s', [g], rest, g.2.map leafOf, [], by unfold Prs.advance; rw [h1]; rfl, ⟨rfl, by simpa [flat] using h2, ?_, ?_, by simp⟩, h⟩
  · rw [bytes_leaves]
  · rw [show [g].flatMap leavesG = leafOf g.1 :: g.2.map leafOf by simp [leavesG]]
    simp only [leavesOfList]
    exact List.sublist_append_right _ _

theorem headKind_cons {k : Nat} (h : headKind gs = some k) : ∃ g rest, gs = g :: rest ∧ g.1.1 = k := by
  cases gs with
  | nil => simp [headKind] at h
  | cons g gs => exact ⟨g, gs, rfl, by simpa [headKind] using h⟩

theorem Runs.eat {k : Nat} {R : Said Bool}
    (hy : ∀ g rest, gs = g :: rest → g.1.1 = k → R (some true) [g] rest (leavesG g) [])
    (hn : headKind gs ≠ some k → R (some false) [] gs [] []) : Runs ign strict (eat ign k) pre gs R := by
  intro hg hw sink errs s hs
  unfold Prs.eat PState.eat
  rw [atKind_eq hs]
  by_cases hk : headKind gs = some k
  · obtain ⟨g, rest, rfl, hgk⟩ := headKind_cons hk
    obtain ⟨s', h1, h2⟩ := went_bump (strict := strict) hg hs
    simp only [hk, beq_self_eq_true, if_true, h1, run_bind_ok]
    exact ⟨_, s', _, _, _, _, rfl, h2, hy g rest rfl hgk⟩
  · rw [if_neg (by simpa using hk)]
    exact ⟨_, s, [], gs, [], [], rfl, .refl hs, hn hk⟩

theorem Went.record {a rest : List Group} {cs : List Green} {es : List PErr} (h : Went strict pre gs sink errs a rest cs es s) (e : PErr) :
    Went strict pre gs sink errs a rest cs (es ++ [e]) { s with errors := s.errors ++ [e] } :=
  ⟨h.split, ⟨h.now.tokens, h.now.index, h.now.sink, by simp [h.now.errors], h.now.inc⟩, h.len, h.sub, h.all⟩

theorem expect_run {k : Nat} (hg : Grouped ign gs) (hs : PAt pre (flat gs) sink errs s) :
    (∃ g rest s', gs = g :: rest ∧ g.1.1 = k ∧ s.expect ign k = .ok (true, s') ∧
      Went strict pre gs sink errs [g] rest (leavesG g) [] s') ∨
    (headKind gs ≠ some k ∧ ∃ o s', s.expect ign k = .ok (false, s') ∧ Went strict pre gs sink errs [] gs [] [⟨1, o⟩] s') := by
  unfold PState.expect PState.eat
  rw [atKind_eq hs]
  by_cases hk : headKind gs = some k
  · obtain ⟨g, rest, rfl, hgk⟩ := headKind_cons hk
    obtain ⟨s', h1, h2⟩ := went_bump (strict := strict) hg hs
    refine .inl ⟨g, rest, s', rfl, hgk, ?_, h2⟩
    simp only [hk, beq_self_eq_true, if_true, h1, run_bind_ok]
    rfl
  · refine .inr ⟨hk, s.currentOffset, _, ?_, (Went.refl hs).record ⟨1, s.currentOffset⟩⟩
    rw [if_neg (by simpa using hk)]
    rfl

theorem Runs.want {k : Nat} {R : Said Unit}
    (hy : ∀ g rest, gs = g :: rest → g.1.1 = k → R (some ()) [g] rest (leavesG g) [])
    (hn : headKind gs ≠ some k → ∀ o, R (some ()) [] gs [] [⟨1, o⟩]) : Runs ign strict (want ign k) pre gs R := by
  intro hg hw sink errs s hs
  unfold Prs.want
  rcases expect_run (k := k) (strict := strict) hg hs with ⟨g, rest, s', he, hk, h1, h2⟩ | ⟨hk, o, s', h1, h2⟩
  · rw [h1]
    exact ⟨_, s', _, _, _, _, rfl, h2, hy g rest he hk⟩
  · rw [h1]
    exact ⟨_, s', _, _, _, _, rfl, h2, hn hk o⟩

theorem Runs.need {k : Nat} {R : Said Unit}
    (hy : ∀ g rest, gs = g :: rest → g.1.1 = k → R (some ()) [g] rest (leavesG g) [])
    (hn : headKind gs ≠ some k → ∀ o, R none [] gs [] [⟨1, o⟩]) : Runs ign strict (need ign k) pre gs R := by
  intro hg hw sink errs s hs
  unfold Prs.need
  rcases expect_run (k := k) (strict := strict) hg hs with ⟨g, rest, s', he, hk, h1, h2⟩ | ⟨hk, o, s', h1, h2⟩
  · rw [h1]
    exact ⟨_, s', _, _, _, _, rfl, h2, hy g rest he hk⟩
  · rw [h1]
    exact ⟨_, s', _, _, _, _, rfl, h2, hn hk o⟩

/-- An error at the number of the token ahead. -/
theorem Runs.report_index {c : Nat} {R : Said Unit} (h : R (some ()) [] gs [] [⟨c, pre.length⟩]) :
    Runs ign strict (report c PState.index) pre gs R := by
  intro hg hw sink errs s hs
  have := (Went.refl (strict := strict) hs).record ⟨c, s.index⟩
  rw [hs.index] at this
  exact ⟨_, _, _, _, _, _, by unfold report; rw [hs.index], this, h⟩

theorem Runs.report {c : Nat} {f : PState → Nat} {R : Said Unit} (h : ∀ o, R (some ()) [] gs [] [⟨c, o⟩]) :
    Runs ign strict (report c f) pre gs R := by
  intro hg hw sink errs s hs
  exact ⟨_, _, _, _, _, _, rfl, (Went.refl (strict := strict) hs).record ⟨c, f s⟩, h _⟩

/-- A node around what was pushed. -/
theorem Runs.node {p : Prs α} {k : Nat} (h : Runs ign strict p pre gs (fun r a rest cs es =>
    (r = none → R none a rest cs es) ∧ ∀ x, r = some x → R (some x) a rest [mkG k cs] es)) : Runs ign strict (node k p) pre gs R := by
  intro hg hw sink errs s hs
  obtain ⟨r, s', a, rest, cs, es, h1, h2, h3, h4⟩ := h hg hw sink errs s hs
  unfold Prs.node
  rw [h1]
  cases r with
  | none => exact ⟨none, s', a, rest, cs, es, rfl, h2, h3 rfl⟩
  | some x =>
    have := h2.le
    obtain ⟨e, s2, g1, _, g3⟩ := h2.now.finish s.checkpoint (by simp [PState.checkpoint, hs.sink_length]) k (by omega)
    simp only [run_bind_ok, g1]
    refine ⟨some x, s2, a, rest, [mkG k cs], es, rfl, ⟨h2.split, g3, ?_, ?_, ?_⟩, h4 x rfl⟩
    · have := h2.len
      simp only [bytesBelowList] at this
      simp [this, bytesBelowList, leavesOfList, mkG, leavesOf, Green.len]
    · simpa [mkG, leavesOfList, leavesOf] using h2.sub
    · intro hst; simpa [mkG, leavesOfList, leavesOf] using h2.all hst

/-- A loop, with what holds before each turn (of what the turns before it did). -/
theorem Runs.loop {turn : Prs Bool} {R : Said Unit} (J : List Group → List Group → List Green → List PErr → Prop) (h0 : J [] gs [] [])
    (h : ∀ a rest cs es, gs = a ++ rest → J a rest cs es → Runs ign strict turn (pre ++ flat a) rest (fun r a' rest' cs' es' =>
      match r with
      | some true => a' ≠ [] ∧ J (a ++ a') rest' (cs ++ cs') (es ++ es')
      | some false => R (some ()) (a ++ a') rest' (cs ++ cs') (es ++ es')
      | none => R none (a ++ a') rest' (cs ++ cs') (es ++ es'))) :
    Runs ign strict (loop_ turn) pre gs R := by
  intro hg hw sink errs s hs
  have key : ∀ (fuel : Nat) (a rest : List Group) (cs : List Green) (es : List PErr) (s1 : PState),
      Went strict pre gs sink errs a rest cs es s1 → J a rest cs es → rest.length < fuel →
      ∃ r s' a rest cs es, turns turn fuel s1 = .ok (r, s') ∧ Went strict pre gs sink errs a rest cs es s' ∧ R r a rest cs es := by
    intro fuel
    induction fuel with
    | zero => intro a rest cs es s1 _ _ hf; omega
    | succ fuel ih =>
      intro a rest cs es s1 hw1 hj hf
      have := hw1.le
      obtain ⟨r, s2, a', rest', cs', es', g1, g2, g3⟩ := h a rest cs es hw1.split hj (hw1.grouped hg) (by omega) _ _ s1 hw1.now
      have h12 := hw1.trans g2
      cases r with
      | none => exact ⟨none, s2, _, _, _, _, by rw [turns, bind_none g1], h12, g3⟩
      | some b =>
        cases b with
        | false => exact ⟨some (), s2, _, _, _, _, by rw [turns, bind_some g1]; rfl, h12, g3⟩
        | true =>
          rw [turns, bind_some g1]
          have hl := congrArg List.length g2.split
          have : 0 < a'.length := List.length_pos_iff.mpr g3.1
          simp at hl
          exact ih _ _ _ _ s2 h12 g3.2 (by omega)
  unfold loop_
  refine key _ [] gs [] [] s (.refl hs) h0 ?_
  rw [hs.left]
  have := length_le_flat gs
  omega

end

section
variable {α β : Type} {ign : Nat → Bool} {strict : Bool} {pre : List (Nat × Nat)} {gs : List Group} {R : Said α}

/-- The kinds of the tokens that are not trivia. -/
def kinds (gs : List Group) : List Nat := gs.map (·.1.1)

theorem kinds_append (a b : List Group) : kinds (a ++ b) = kinds a ++ kinds b := List.map_append

theorem kinds_cons (g : Group) (a : List Group) : kinds (g :: a) = g.1.1 :: kinds a := rfl

theorem kinds_nil : kinds [] = [] := rfl

theorem kinds_cons_eq {gs : List Group} {k : Nat} {ks : List Nat} (h : kinds gs = k :: ks) : ∃ g a, gs = g :: a ∧ g.1.1 = k ∧ kinds a = ks := by
  cases gs with
  | nil => simp [kinds] at h
  | cons g a => simp [kinds] at h; exact ⟨g, a, rfl, h.1, h.2⟩

theorem kinds_append_eq {gs : List Group} {k1 k2 : List Nat} (h : kinds gs = k1 ++ k2) : ∃ a b, gs = a ++ b ∧ kinds a = k1 ∧ kinds b = k2 := by
  obtain ⟨a, b, h1, h2, h3⟩ := List.map_eq_append_iff.mp h
  exact ⟨a, b, h1, h2, h3⟩

theorem kinds_nil_eq {gs : List Group} (h : kinds gs = []) : gs = [] := List.map_eq_nil_iff.mp h

theorem Runs.seesIf {k : Nat} {p q : Prs α} (hy : ∀ g rest, gs = g :: rest → g.1.1 = k → Runs ign strict p pre gs R)
    (hn : headKind gs ≠ some k → Runs ign strict q pre gs R) : Runs ign strict (do if ← Prs.sees k then p else q) pre gs R := by
  refine .sees ?_
  by_cases h : headKind gs = some k
  · obtain ⟨g, rest, hg, hk⟩ := headKind_cons h
    rw [if_pos (by simp [h])]
    exact hy g rest hg hk
  · rw [if_neg (by simp [h])]
    exact hn h

theorem Runs.bumpThen {f : Unit → Prs α} {g : Group} {rest : List Group} (h : Runs ign strict (f ()) (pre ++ flat [g]) rest
    (fun r a' rest' cs' es' => R r (g :: a') rest' (leavesG g ++ cs') es')) : Runs ign strict (Prs.bump ign >>= f) pre (g :: rest) R := by
  refine .bind (R' := fun r a rest' cs es => r = some () ∧ a = [g] ∧ rest' = rest ∧ cs = leavesG g ∧ es = [])
    (.bumped ⟨rfl, rfl, rfl, rfl, rfl⟩) (by rintro _ _ _ _ _ ⟨h, _⟩; cases h) ?_
  rintro _ _ _ _ _ _ ⟨_, rfl, rfl, rfl, rfl⟩
  exact h

theorem Runs.needThen {k : Nat} {f : Unit → Prs α}
    (hy : ∀ g rest, gs = g :: rest → g.1.1 = k → Runs ign strict (f ()) (pre ++ flat [g]) rest
      (fun r a' rest' cs' es' => R r (g :: a') rest' (leavesG g ++ cs') es'))
    (hn : headKind gs ≠ some k → ∀ o, R none [] gs [] [⟨1, o⟩]) : Runs ign strict (Prs.need ign k >>= f) pre gs R := by
  by_cases h : headKind gs = some k
  · obtain ⟨g, rest, rfl, hk⟩ := headKind_cons h
    refine .bind (R' := fun r a rest' cs es => r = some () ∧ a = [g] ∧ rest' = rest ∧ cs = leavesG g ∧ es = []) (.need ?_ ?_)
      (by rintro _ _ _ _ _ ⟨h, _⟩; cases h) ?_
    · intro g' rest' he _
      cases he
      exact ⟨rfl, rfl, rfl, rfl, rfl⟩
    · intro h'; exact absurd h h'
    · rintro _ _ _ _ _ _ ⟨_, rfl, rfl, rfl, rfl⟩
      exact hy g _ rfl hk
  · refine .bind (R' := fun r a rest' cs es => r = none ∧ a = [] ∧ rest' = gs ∧ cs = [] ∧ ∃ o, es = [⟨1, o⟩]) (.need ?_ ?_) ?_
      (by rintro _ _ _ _ _ _ ⟨h, _⟩; cases h)
    · rintro g' rest' rfl hk
      exact absurd (by simp [headKind, hk]) h
    · intro _ o; exact ⟨rfl, rfl, rfl, rfl, o, rfl⟩
    · rintro _ _ _ _ _ ⟨_, rfl, rfl, rfl, o, rfl⟩
      exact hn h o

end

/-- The whole parse, from the tokens. -/
theorem parse_run {ign : Nat → Bool} {strict : Bool} {root n : Nat} {p : Prs Unit} {R : Said Unit} {toks : List Tok}
    (hl : (toks.map Tok.length).sum < 2 ^ 32)
    (h : ∀ tri gs, toks.map Tok.kl = tri ++ flat gs → (∀ t ∈ tri, ign t.1 = true) → Grouped ign gs → Runs ign strict p tri gs R) :
    ∃ tri r a rest cs es, toks.map Tok.kl = tri ++ flat (a ++ rest) ∧ (∀ t ∈ tri, ign t.1 = true) ∧ Grouped ign (a ++ rest) ∧
      parse ign root p toks n = .ok (r.map (fun _ => .node root (lenSum cs) cs), es) ∧
      R r a rest cs es ∧ lenSum cs = bytesBelowList cs ∧ (leavesOfList cs).Sublist ((flat a).map (fun t => (t.1, t.2))) ∧
      (strict = true → leavesOfList cs = flat a) := by
  obtain ⟨tri, gs, h1, h2, h3⟩ := groups_exist ign (toks.map Tok.kl)
  obtain ⟨s, g1, g2⟩ := PAt.new (ign := ign) h1 h2 h3.head n
  have hb : ((toks.map Tok.kl).map (·.2)).sum < 2 ^ 32 := by simpa [Function.comp_def, Tok.kl] using hl
  rw [h1, List.map_append, List.sum_append] at hb
  have hw : weight gs < 2 ^ 32 := Nat.lt_of_le_of_lt (weight_le gs) (by omega)
  obtain ⟨r, s', a, rest, cs, es, e1, e2, e3⟩ := h tri gs h1 h2 h3 h3 hw _ _ s g2
  have hle := e2.le
  have hsp := e2.split
  have hleaf : leavesOfList (a.flatMap leavesG) = flat a := by
    rw [flatMap_leavesG]
    refine FlatParser.leavesOfList_leafOf _ ?_
    intro t ht
    have hm : t ∈ flat gs := by rw [hsp, flat_append]; exact List.mem_append_left _ ht
    have := FlatParser.mem_le_sum hm
    omega
  have hsub := e2.sub
  have hall := e2.all
  rw [hleaf] at hsub hall
  refine ⟨tri, r, a, rest, cs, es, by rw [h1, hsp], h2, by rw [← hsp]; exact h3, ?_, e3, e2.len, by simpa using hsub, hall⟩
  unfold parse
  rw [g1]
  simp only [run_bind_ok, e1]
  have herr : s'.errors = es := by simpa using e2.now.errors
  cases r with
  | none => simp only [herr]; rfl
  | some x =>
    obtain ⟨e, s2, f1, f2, f3⟩ := e2.now.finish s.checkpoint (by simp [PState.checkpoint, g2.sink_length]) root (by omega)
    have herr2 : s2.errors = es := by simpa using f3.errors
    simp only [f1, run_bind_ok, f2, herr2]
    rfl

end Prs
end Oaks
