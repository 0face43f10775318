import Verif.Proofs.Parser
import Verif.Spec.Pieces

/-! The parser state between two parts of the token stream; cutting a text into pieces. -/
namespace Oaks
open Spec

/-- What the parser reads of a token: its kind and its length. -/
def Tok.kl (t : Tok) : Nat × Nat := (t.kind, t.length)

/-- The leaf pushed for a token of that kind and length. -/
def leafOf (t : Nat × Nat) : Green := .leaf t.1 (t.2 % 2 ^ 32) none

/-- The parser has consumed `pre`, `suf` is ahead (kinds and lengths), the sink holds `gs`, the recorded errors
are `errs`; there is no old tree. -/
structure PAt (pre suf : List (Nat × Nat)) (gs : List Green) (errs : List PErr) (s : PState) : Prop where
  tokens : s.tokens.map Tok.kl = pre ++ suf
  index : s.index = pre.length
  sink : s.sink.map Entry.tree = gs
  errors : s.errors = errs
  inc : s.inc = none

section
variable {ign : Nat → Bool} {pre suf : List (Nat × Nat)} {gs : List Green} {errs : List PErr} {s : PState}

theorem PAt.current (h : PAt pre suf gs errs s) : s.current.map Tok.kl = suf.head? := by
  rw [PState.current, ← List.getElem?_map, h.tokens, h.index, List.getElem?_append_right (Nat.le_refl _), Nat.sub_self,
    List.head?_eq_getElem?]

theorem PAt.atKind (h : PAt pre suf gs errs s) (k : Nat) : s.atKind k = (suf.head?.map (·.1) == some k) := by
  rw [PState.atKind, PState.peekKind, ← h.current, Option.map_map]
  rfl

theorem PAt.sink_length (h : PAt pre suf gs errs s) : s.sink.length = gs.length := by
  rw [← h.sink]; simp

theorem PAt.length (h : PAt pre suf gs errs s) : s.tokens.length = pre.length + suf.length := by
  have := congrArg List.length h.tokens
  simpa using this

theorem PAt.left (h : PAt pre suf gs errs s) : s.tokens.length - s.index = suf.length := by
  rw [h.length, h.index]; omega

/-- The run of trivia ahead is consumed into leaves. -/
theorem PAt.skipTrivia {tri rest : List (Nat × Nat)} (h : PAt pre (tri ++ rest) gs errs s)
    (ht : ∀ t ∈ tri, ign t.1 = true) (hr : ∀ t, rest.head? = some t → ign t.1 = false) :
    ∃ s', s.skipTrivia ign = .ok s' ∧ PAt (pre ++ tri) rest (gs ++ tri.map leafOf) errs s' := by
  obtain ⟨k, es, h1, h2, h3, h4, h5⟩ := skipTrivia_spec (ign := ign) s
  have hd : (s.tokens.drop s.index).map Tok.kl = tri ++ rest := by
    rw [List.map_drop, h.tokens, h.index]; simp
  have hlen := h.length
  have h4' : ∀ t ∈ (tri ++ rest).take k, ign t.1 = true := by
    intro t ht'
    rw [← hd, ← List.map_take, List.mem_map] at ht'
    obtain ⟨u, hu, rfl⟩ := ht'
    exact h4 u hu
  have h5' : ∀ t, (tri ++ rest)[k]? = some t → ign t.1 = false := by
    intro t ht'
    rw [← hd, List.getElem?_map, List.getElem?_drop, Option.map_eq_some_iff] at ht'
    obtain ⟨u, hu, rfl⟩ := ht'
    exact h5 u hu
  have hk : k = tri.length := by
    rw [hlen, h.index] at h2
    apply Nat.le_antisymm
    · refine Nat.le_of_not_lt fun hlt => ?_
      cases rest with
      | nil => simp at h2; omega
      | cons t rest =>
        have hm : t ∈ (tri ++ t :: rest).take k := by
          rw [List.take_append, List.mem_append]
          right
          obtain ⟨j, hj⟩ : ∃ j, k - tri.length = j + 1 := ⟨k - tri.length - 1, by omega⟩
          rw [hj]; simp
        have hf := hr t rfl
        rw [h4' t hm] at hf
        exact absurd hf (by simp)
    · refine Nat.le_of_not_lt fun hlt => ?_
      have := h5' tri[k] (by rw [List.getElem?_append_left (by omega)]; simp [hlt])
      rw [ht _ (List.getElem_mem hlt)] at this
      exact absurd this (by simp)
  subst hk
  refine ⟨_, h1, by simp [h.tokens], by simp [h.index], ?_, h.errors, h.inc⟩
  have h6 : ((s.tokens.drop s.index).take tri.length).map Tok.kl = tri := by
    rw [List.map_take, hd]; simp
  conv => rhs; rw [← h6]
  simp [h.sink, h3, leafOf, Tok.kl, Function.comp_def]

/-- `bump` consumes a token and the trivia after it. -/
theorem PAt.bump {t : Nat × Nat} {tri rest : List (Nat × Nat)} (h : PAt pre (t :: (tri ++ rest)) gs errs s)
    (ht : ∀ t ∈ tri, ign t.1 = true) (hr : ∀ t, rest.head? = some t → ign t.1 = false) :
    ∃ s', s.bump ign = .ok s' ∧ PAt (pre ++ t :: tri) rest (gs ++ leafOf t :: tri.map leafOf) errs s' := by
  unfold PState.bump
  have hc := h.current
  simp only [List.head?_cons, Option.map_eq_some_iff] at hc
  obtain ⟨u, hu, rfl⟩ := hc
  rw [hu]
  have h' : PAt (pre ++ [u.kl]) (tri ++ rest) (gs ++ [leafOf u.kl]) errs (s.pushLeaf u.kind u.length).tokenAdvance :=
    ⟨by simp [PState.tokenAdvance, PState.pushLeaf, h.tokens], by simp [PState.tokenAdvance, PState.pushLeaf, h.index],
      by simp [PState.tokenAdvance, PState.pushLeaf, h.sink, leafOf, Tok.kl], h.errors, h.inc⟩
  obtain ⟨s', h1, h2⟩ := h'.skipTrivia ht hr
  exact ⟨s', h1, by simpa using h2⟩

theorem PAt.finish {cs : List Green} (h : PAt pre suf (gs ++ cs) errs s) (cp : Nat × Nat) (hcp : cp.2 = gs.length)
    (kind : Nat) (hl : lenSum cs < 2 ^ 32) :
    ∃ e s', s.finishAt cp kind = .ok (e, s') ∧ e.tree = .node kind (lenSum cs) cs ∧
      PAt pre suf (gs ++ [.node kind (lenSum cs) cs]) errs s' := by
  unfold PState.finishAt
  have hd : (s.sink.drop cp.2).map Entry.tree = cs := by
    rw [List.map_drop, h.sink, hcp]; simp
  have htk : (s.sink.take cp.2).map Entry.tree = gs := by
    rw [List.map_take, h.sink, hcp]; simp
  rw [if_pos (by rw [h.sink_length, hcp]; simp), hd, mkNode_ok.2 ⟨rfl, hl⟩]
  exact ⟨_, _, rfl, rfl, h.tokens, h.index, by simp [htk], h.errors, h.inc⟩

theorem PAt.new {toks : List Tok} {tri rest : List (Nat × Nat)} (he : toks.map Tok.kl = tri ++ rest)
    (ht : ∀ t ∈ tri, ign t.1 = true) (hr : ∀ t, rest.head? = some t → ign t.1 = false) (n : Nat) :
    ∃ s, PState.new ign toks n = .ok s ∧ PAt tri rest (tri.map leafOf) [] s := by
  have h : PAt [] (tri ++ rest) [] [] (PState.mk toks 0 [] 0 none [] n) := ⟨he, rfl, rfl, rfl, rfl⟩
  obtain ⟨s, h1, h2⟩ := h.skipTrivia ht hr
  exact ⟨s, h1, by simpa using h2⟩

end

/-! ### Significant tokens with the trivia after them -/

/-- A token that is not trivia, and the trivia after it. -/
abbrev Group := (Nat × Nat) × List (Nat × Nat)

def flat (gs : List Group) : List (Nat × Nat) := gs.flatMap (fun g => g.1 :: g.2)

/-- The leaves of a group. -/
def leavesG (g : Group) : List Green := leafOf g.1 :: g.2.map leafOf

/-- Trivia are where they belong. -/
def Grouped (ign : Nat → Bool) (gs : List Group) : Prop :=
  ∀ g ∈ gs, ign g.1.1 = false ∧ ∀ t ∈ g.2, ign t.1 = true

theorem groups_exist (ign : Nat → Bool) (toks : List (Nat × Nat)) :
    ∃ tri gs, toks = tri ++ flat gs ∧ (∀ t ∈ tri, ign t.1 = true) ∧ Grouped ign gs := by
  induction toks with
  | nil => exact ⟨[], [], rfl, by simp, by simp [Grouped]⟩
  | cons t toks ih =>
    obtain ⟨tri, gs, rfl, h1, h2⟩ := ih
    cases ht : ign t.1 with
    | true =>
      refine ⟨t :: tri, gs, rfl, ?_, h2⟩
      intro u hu
      rw [List.mem_cons] at hu
      rcases hu with rfl | hu
      · exact ht
      · exact h1 u hu
    | false =>
      refine ⟨[], (t, tri) :: gs, by simp [flat], by simp, ?_⟩
      intro g hg
      rw [List.mem_cons] at hg
      rcases hg with rfl | hg
      · exact ⟨ht, h1⟩
      · exact h2 g hg

theorem Grouped.head {ign : Nat → Bool} {gs : List Group} (h : Grouped ign gs) :
    ∀ t, (flat gs).head? = some t → ign t.1 = false := by
  intro t ht
  cases gs with
  | nil => simp [flat] at ht
  | cons g gs => simp [flat] at ht; rw [← ht]; exact (h g List.mem_cons_self).1

theorem Grouped.tail {ign : Nat → Bool} {g : Group} {gs : List Group} (h : Grouped ign (g :: gs)) : Grouped ign gs :=
  fun x hx => h x (List.mem_cons_of_mem _ hx)

theorem flat_head (gs : List Group) : (flat gs).head? = gs.head?.map (·.1) := by
  cases gs <;> simp [flat]

theorem length_le_flat (gs : List Group) : gs.length ≤ (flat gs).length := by
  induction gs with
  | nil => simp
  | cons g gs ih => simp [flat] at ih ⊢; omega

section
variable {ign : Nat → Bool} {pre : List (Nat × Nat)} {gs : List Green} {errs : List PErr} {s : PState}

theorem PAt.bumpG {g : Group} {rest : List Group} (h : PAt pre (flat (g :: rest)) gs errs s) (hg : Grouped ign (g :: rest)) :
    ∃ s', s.bump ign = .ok s' ∧ PAt (pre ++ g.1 :: g.2) (flat rest) (gs ++ leavesG g) errs s' := by
  have h' : PAt pre (g.1 :: (g.2 ++ flat rest)) gs errs s := by simpa [flat] using h
  obtain ⟨s', h1, h2⟩ := h'.bump (ign := ign) (hg g List.mem_cons_self).2 hg.tail.head
  exact ⟨s', h1, h2⟩

theorem PAt.atG {rest : List Group} (h : PAt pre (flat rest) gs errs s) (k : Nat) :
    s.atKind k = (rest.head?.map (·.1.1) == some k) := by
  rw [h.atKind, flat_head, Option.map_map]; rfl

end

/-! ### Pieces -/

theorem tokensOf_append (p : Nat) (a b : List (Option Nat × Str)) :
    tokensOf p (a ++ b) = tokensOf p a ++ tokensOf (p + blen (a.flatMap (·.2))) b := by
  induction a generalizing p with
  | nil => simp [tokensOf]
  | cons x a ih =>
    obtain ⟨k, m⟩ := x
    cases k <;> simp [tokensOf, ih, Nat.add_assoc]

theorem Spec.Cut.text {P : Option Nat → Str → Str → Prop} {t : Str} {ps : List (Option Nat × Str)} (h : Cut P t ps) :
    ps.flatMap (·.2) = t := by
  induction h with
  | nil => rfl
  | cons _ _ _ ih => simp [ih]

theorem Spec.Cut.unique {P : Option Nat → Str → Str → Prop}
    (hP : ∀ {k k' m m' r r'}, m ≠ [] → m' ≠ [] → P k m r → P k' m' r' → m ++ r = m' ++ r' → k = k' ∧ m = m')
    {t : Str} {ps ps' : List (Option Nat × Str)} (h : Cut P t ps) (h' : Cut P t ps') : ps = ps' := by
  induction h generalizing ps' with
  | nil =>
    generalize ht : ([] : Str) = t at h'
    cases h' with
    | nil => rfl
    | cons hm _ _ => exact absurd (List.append_eq_nil_iff.mp ht.symm).1 hm
  | @cons k m rest ps hm hp _ ih =>
    generalize ht : m ++ rest = t at h'
    cases h' with
    | nil => exact absurd (List.append_eq_nil_iff.mp ht).1 hm
    | @cons k' m' rest' ps' hm' hp' h2 =>
      obtain ⟨rfl, rfl⟩ := hP hm hm' hp hp' ht
      rw [List.append_cancel_left_eq] at ht
      subst ht
      rw [ih h2]

/-- If every piece has a kind the tokens tile. -/
theorem tokensOf_tiles {ps : List (Option Nat × Str)} (hs : ∀ p ∈ ps, p.1.isSome) (pos : Nat) :
    TokTiles pos (tokensOf pos ps) (pos + blen (ps.flatMap (·.2))) := by
  induction ps generalizing pos with
  | nil => exact .nil _
  | cons x ps ih =>
    obtain ⟨k, m⟩ := x
    cases k with
    | none => exact absurd (hs _ List.mem_cons_self) (by simp)
    | some k =>
      simp only [tokensOf]
      refine .cons rfl (by simp) ?_
      have := ih (fun p hp => hs p (List.mem_cons_of_mem _ hp)) (pos + blen m)
      simpa [Nat.add_assoc] using this

theorem tokensOf_kl (ps : List (Option Nat × Str)) (pos : Nat) :
    (tokensOf pos ps).map Tok.kl = ps.filterMap (fun p => p.1.map (fun k => (k, blen p.2))) := by
  induction ps generalizing pos with
  | nil => rfl
  | cons x ps ih =>
    obtain ⟨k, m⟩ := x
    cases k <;> simp [tokensOf, ih, Tok.kl, Tok.length]

end Oaks
