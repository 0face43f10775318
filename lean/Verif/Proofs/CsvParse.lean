import Verif.Proofs.CsvLex

/-! What the CSV parser builds from a row of tokens. -/
namespace Oaks
open Spec CsvParser

/-- Bytes below the leaves of groups. -/
def weight (gs : List Group) : Nat := lenSum (gs.flatMap leavesG)

theorem weight_cons (g : Group) (gs : List Group) : weight (g :: gs) = lenSum (leavesG g) + weight gs := by
  simp [weight, lenSum_append]

def mkG (k : Nat) (cs : List Green) : Green := .node k (lenSum cs) cs

@[simp] theorem mkG_len (k : Nat) (cs : List Green) : (mkG k cs).len = lenSum cs := rfl

def headKind (gs : List Group) : Option Nat := gs.head?.map (·.1.1)

inductive FieldD : List Group → Green → List Group → Prop where
  | some {g gs} : g.1.1 = CsvLexer.field → FieldD (g :: gs) (mkG fieldNode (leavesG g)) gs
  | none {gs} : headKind gs ≠ .some CsvLexer.field → FieldD gs (mkG fieldNode []) gs

inductive TailD : List Group → List Green → List Group → Prop where
  | stop {gs} : headKind gs ≠ some CsvLexer.comma → TailD gs [] gs
  | more {g gs f rest cs rest'} : g.1.1 = CsvLexer.comma → FieldD gs f rest → TailD rest cs rest' →
      TailD (g :: gs) (leavesG g ++ f :: cs) rest'

inductive LineD : List Group → List Green → List Group → Prop where
  | some {g gs} : g.1.1 = CsvLexer.newline → LineD (g :: gs) (leavesG g) gs
  | none {gs} : headKind gs ≠ .some CsvLexer.newline → LineD gs [] gs

inductive RootD : List Group → List Green → List Group → Prop where
  | stop {gs} : gs = [] ∨ headKind gs = some CsvLexer.eof → RootD gs [] gs
  | row {gs f rest cs rest' nl rest'' ds end_} : gs ≠ [] → headKind gs ≠ some CsvLexer.eof → FieldD gs f rest →
      TailD rest cs rest' → LineD rest' nl rest'' → rest''.length < gs.length → RootD rest'' ds end_ →
      RootD gs (mkG record (f :: cs) :: (nl ++ ds)) end_

theorem FieldD.facts {gs rest : List Group} {f : Green} (h : FieldD gs f rest) :
    f.len + weight rest = weight gs ∧ (∃ a, gs = a ++ rest) ∧
      (∃ a, gs = a ++ rest ∧ leavesOf f = leavesOfList (a.flatMap leavesG)) := by
  cases h with
  | @some g gs h => exact ⟨by simp [weight_cons], ⟨[g], rfl⟩, [g], rfl, by simp [mkG, leavesOf]⟩
  | none h => exact ⟨by simp, ⟨[], rfl⟩, [], rfl, by simp [mkG, leavesOf]⟩

theorem TailD.facts {gs rest : List Group} {cs : List Green} (h : TailD gs cs rest) :
    lenSum cs + weight rest = weight gs ∧ (∃ a, gs = a ++ rest ∧ leavesOfList cs = leavesOfList (a.flatMap leavesG)) := by
  induction h with
  | stop _ => exact ⟨by simp, [], rfl, rfl⟩
  | @more g gs f rest cs rest' h hf ht ih =>
    obtain ⟨f1, _, a, rfl, f3⟩ := hf.facts
    obtain ⟨t1, b, rfl, t3⟩ := ih
    refine ⟨by simp only [weight_cons, lenSum_append, lenSum_cons]; omega, g :: (a ++ b), by simp, ?_⟩
    simp [leavesOfList_append, leavesOfList, f3, t3]

theorem LineD.facts {gs rest : List Group} {cs : List Green} (h : LineD gs cs rest) :
    lenSum cs + weight rest = weight gs ∧ (∃ a, gs = a ++ rest ∧ leavesOfList cs = leavesOfList (a.flatMap leavesG)) := by
  cases h with
  | @some g gs h => exact ⟨by simp [weight_cons], [g], rfl, by simp⟩
  | none h => exact ⟨by simp, [], rfl, rfl⟩

theorem RootD.facts {gs rest : List Group} {cs : List Green} (h : RootD gs cs rest) :
    lenSum cs + weight rest = weight gs ∧ (∃ a, gs = a ++ rest ∧ leavesOfList cs = leavesOfList (a.flatMap leavesG)) ∧
      (rest = [] ∨ headKind rest = some CsvLexer.eof) := by
  induction h with
  | stop h => exact ⟨by simp, ⟨[], rfl, rfl⟩, h⟩
  | @row gs f rest cs rest' nl rest'' ds e _ _ hf ht hn _ hr ih =>
    obtain ⟨f1, _, a, rfl, f3⟩ := hf.facts
    obtain ⟨t1, b, rfl, t3⟩ := ht.facts
    obtain ⟨n1, c, rfl, n3⟩ := hn.facts
    obtain ⟨r1, ⟨d, rfl, r3⟩, r4⟩ := ih
    refine ⟨by simp only [lenSum_append, lenSum_cons, mkG_len]; omega, ⟨a ++ b ++ c ++ d, by simp, ?_⟩, r4⟩
    simp [leavesOfList_append, leavesOfList, leavesOf, mkG, f3, t3, n3, r3]

/-- What is consumed has no end-of-file token. -/
def NoEof (gs rest : List Group) : Prop := ∃ a, gs = a ++ rest ∧ ∀ g ∈ a, g.1.1 ≠ CsvLexer.eof

theorem NoEof.refl (gs : List Group) : NoEof gs gs := ⟨[], rfl, by simp⟩
theorem NoEof.one {g : Group} {gs : List Group} {k : Nat} (h : g.1.1 = k) (hk : k ≠ CsvLexer.eof) : NoEof (g :: gs) gs :=
  ⟨[g], rfl, by simp [h, hk]⟩
theorem NoEof.trans {a b c : List Group} (h : NoEof a b) (h' : NoEof b c) : NoEof a c := by
  obtain ⟨x, rfl, hx⟩ := h
  obtain ⟨y, rfl, hy⟩ := h'
  refine ⟨x ++ y, by simp, fun g hg => ?_⟩
  rcases List.mem_append.mp hg with hg | hg
  · exact hx g hg
  · exact hy g hg

theorem FieldD.noEof {gs rest : List Group} {f : Green} (h : FieldD gs f rest) : NoEof gs rest := by
  cases h with
  | some h => exact .one h (by decide)
  | none h => exact .refl _
theorem LineD.noEof {gs rest : List Group} {cs : List Green} (h : LineD gs cs rest) : NoEof gs rest := by
  cases h with
  | some h => exact .one h (by decide)
  | none h => exact .refl _
theorem TailD.noEof {gs rest : List Group} {cs : List Green} (h : TailD gs cs rest) : NoEof gs rest := by
  induction h with
  | stop h => exact .refl _
  | more h hf _ ih => exact ((NoEof.one h (by decide)).trans hf.noEof).trans ih
theorem RootD.noEof {gs rest : List Group} {cs : List Green} (h : RootD gs cs rest) : NoEof gs rest := by
  induction h with
  | stop h => exact .refl _
  | row _ _ hf ht hl _ _ ih => exact ((hf.noEof.trans ht.noEof).trans hl.noEof).trans ih

theorem FieldD.exists (gs : List Group) : ∃ f rest, FieldD gs f rest := by
  by_cases h : headKind gs = Option.some CsvLexer.field
  · cases gs with
    | nil => simp [headKind] at h
    | cons g gs => exact ⟨_, _, .some (by simpa [headKind] using h)⟩
  · exact ⟨_, _, .none h⟩

theorem TailD.exists (n : Nat) (gs : List Group) (hn : gs.length ≤ n) : ∃ cs rest, TailD gs cs rest := by
  induction n generalizing gs with
  | zero =>
    obtain rfl : gs = [] := List.length_eq_zero_iff.mp (by omega)
    exact ⟨_, _, .stop (by simp [headKind])⟩
  | succ n ih =>
    by_cases h : headKind gs = some CsvLexer.comma
    · cases gs with
      | nil => simp [headKind] at h
      | cons g gs =>
        obtain ⟨f, rest, hf⟩ := FieldD.exists gs
        obtain ⟨a, ha⟩ := hf.facts.2.1
        obtain ⟨cs, rest', ht⟩ := ih rest (by
          have := congrArg List.length ha
          simp at this hn; omega)
        exact ⟨_, _, .more (by simpa [headKind] using h) hf ht⟩
    · exact ⟨_, _, .stop h⟩

theorem LineD.exists (gs : List Group) : ∃ f rest, LineD gs f rest := by
  by_cases h : headKind gs = Option.some CsvLexer.newline
  · cases gs with
    | nil => simp [headKind] at h
    | cons g gs => exact ⟨_, _, .some (by simpa [headKind] using h)⟩
  · exact ⟨_, _, .none h⟩

/-- The kinds the lexer produces, apart from blanks. -/
def CsvKind (k : Nat) : Prop := k = CsvLexer.newline ∨ k = CsvLexer.field ∨ k = CsvLexer.comma ∨ k = CsvLexer.eof

theorem RootD.exists (n : Nat) (gs : List Group) (hn : gs.length ≤ n) (hk : ∀ g ∈ gs, CsvKind g.1.1) :
    ∃ cs rest, RootD gs cs rest := by
  induction n generalizing gs with
  | zero => exact ⟨_, _, .stop (.inl (List.length_eq_zero_iff.mp (by omega)))⟩
  | succ n ih =>
    by_cases h : gs = [] ∨ headKind gs = some CsvLexer.eof
    · exact ⟨_, _, .stop h⟩
    · rw [not_or] at h
      obtain ⟨g, gs, rfl⟩ := List.exists_cons_of_ne_nil h.1
      obtain ⟨f, rest, hf⟩ := FieldD.exists (g :: gs)
      obtain ⟨cs, rest', ht⟩ := TailD.exists rest.length rest (Nat.le_refl _)
      obtain ⟨nl, rest'', hl⟩ := LineD.exists rest'
      have hlt : rest''.length < (g :: gs).length := by
        obtain ⟨_, b, hb, _⟩ := ht.facts
        obtain ⟨_, c, hc, _⟩ := hl.facts
        have hlb := congrArg List.length hb
        have hlc := congrArg List.length hc
        simp at hlb hlc
        cases hf with
        | some _ => simp; omega
        | none hne =>
          cases ht with
          | more _ hf' ht' =>
            obtain ⟨d, hd⟩ := hf'.facts.2.1
            obtain ⟨_, e, he, _⟩ := ht'.facts
            have h1 := congrArg List.length hd
            have h2 := congrArg List.length he
            simp at h1 h2
            simp; omega
          | stop hne' =>
            cases hl with
            | some _ => simp
            | none hne'' =>
              simp [headKind] at hne hne' hne'' h
              rcases hk g List.mem_cons_self with h' | h' | h' | h'
              · exact absurd h' hne''
              · exact absurd h' hne
              · exact absurd h' hne'
              · exact absurd h' h
      obtain ⟨a, ha⟩ := hf.facts.2.1
      obtain ⟨_, b, hb, _⟩ := ht.facts
      obtain ⟨_, c, hc, _⟩ := hl.facts
      obtain ⟨ds, e, hr⟩ := ih rest'' (by simp at hlt hn; omega) (by
        intro x hx
        apply hk
        rw [ha, hb, hc]
        simp [hx])
      exact ⟨_, _, .row h.1 h.2 hf ht hl hlt hr⟩

/-! ### The parser follows -/

section
variable {pre : List (Nat × Nat)} {gs : List Green} {errs : List PErr} {s : PState}

/-- Where the parser goes from `rest` to `rest'` pushing `cs`. -/
def Goes (pre : List (Nat × Nat)) (gs cs : List Green) (errs : List PErr) (rest' : List Group) (s' : PState) : Prop :=
  ∃ a, PAt (pre ++ a) (flat rest') (gs ++ cs) errs s'

theorem bumpIf_some {g : Group} {rest : List Group} (h : PAt pre (flat (g :: rest)) gs errs s) (hg : Grouped ign (g :: rest)) {k : Nat}
    (hk : g.1.1 = k) : ∃ s', bumpIf s k = .ok s' ∧ Goes pre gs (leavesG g) errs rest s' := by
  unfold bumpIf
  rw [h.atG]
  simp only [List.head?_cons, Option.map_some, hk, beq_self_eq_true, if_true]
  obtain ⟨s', h1, h2⟩ := h.bumpG hg
  exact ⟨s', h1, _, h2⟩

theorem bumpIf_none {rest : List Group} (h : PAt pre (flat rest) gs errs s) {k : Nat}
    (hk : headKind rest ≠ some k) : bumpIf s k = .ok s := by
  unfold bumpIf
  rw [h.atG]
  have : (rest.head?.map (·.1.1) == some k) = false := by simpa [headKind] using hk
  rw [this]; rfl

theorem parseField_at {g0 rest : List Group} {f : Green} (hd : FieldD g0 f rest) (h : PAt pre (flat g0) gs errs s)
    (hg : Grouped ign g0) (hw : weight g0 < 2 ^ 32) :
    ∃ s', parseField s = .ok s' ∧ Goes pre gs [f] errs rest s' := by
  unfold parseField
  cases hd with
  | @some g rest hk =>
    obtain ⟨s1, h1, a, h2⟩ := bumpIf_some h hg hk
    simp only [h1, run_bind_ok]
    obtain ⟨e, s2, g1, _, g3⟩ := h2.finish s.checkpoint (by simp [PState.checkpoint, h.sink_length]) fieldNode
      (by rw [weight_cons] at hw; omega)
    simp only [g1, run_bind_ok]
    exact ⟨s2, rfl, a, g3⟩
  | none hk =>
    rw [bumpIf_none h hk]
    simp only [run_bind_ok]
    have h' : PAt pre (flat g0) (gs ++ []) errs s := by simpa using h
    obtain ⟨e, s2, g1, _, g3⟩ := h'.finish s.checkpoint (by simp [PState.checkpoint, h.sink_length]) fieldNode (by simp)
    simp only [g1, run_bind_ok]
    exact ⟨s2, rfl, [], by simpa [mkG] using g3⟩

theorem Grouped.append {ign : Nat → Bool} {a b : List Group} (h : Grouped ign (a ++ b)) : Grouped ign b :=
  fun x hx => h x (List.mem_append_right _ hx)

theorem recordLoop_at {g0 rest : List Group} {cs : List Green} (hd : TailD g0 cs rest) (fuel : Nat) (hf : g0.length ≤ fuel)
    (h : PAt pre (flat g0) gs errs s) (hg : Grouped ign g0) (hw : weight g0 < 2 ^ 32) :
    ∃ s', recordLoop fuel s = .ok s' ∧ Goes pre gs cs errs rest s' := by
  induction hd generalizing pre gs s fuel with
  | @stop g0 hne =>
    unfold recordLoop
    rw [h.atG]
    have : (g0.head?.map (·.1.1) == some CsvLexer.comma) = false := by simpa [headKind] using hne
    rw [this]
    exact ⟨s, rfl, [], by simpa using h⟩
  | @more g g1 f rest cs rest' hk hfd htd ih =>
    cases fuel with
    | zero => simp at hf
    | succ fuel =>
      unfold recordLoop
      rw [h.atG]
      simp only [List.head?_cons, Option.map_some, hk, beq_self_eq_true, if_true]
      obtain ⟨s1, h1, h2⟩ := h.bumpG hg
      simp only [h1, run_bind_ok]
      have hw' := hw
      rw [weight_cons] at hw'
      obtain ⟨s2, h3, a, h4⟩ := parseField_at hfd h2 hg.tail (by omega)
      simp only [h3, run_bind_ok]
      have hfa := hfd.facts
      obtain ⟨b, hb⟩ := hfa.2.1
      obtain ⟨s3, h5, c, h6⟩ := ih fuel (by
        have := congrArg List.length hb
        simp at this hf; omega) h4 (by have := hg.tail; rw [hb] at this; exact this.append) (by omega)
      exact ⟨s3, h5, _, by simpa using h6⟩

theorem parseRecord_at {g0 rest rest' : List Group} {f : Green} {cs : List Green} (hf : FieldD g0 f rest)
    (ht : TailD rest cs rest') (h : PAt pre (flat g0) gs errs s) (hg : Grouped ign g0) (hw : weight g0 < 2 ^ 32) :
    ∃ s', parseRecord s = .ok s' ∧ Goes pre gs [mkG record (f :: cs)] errs rest' s' := by
  unfold parseRecord
  obtain ⟨s1, h1, a, h2⟩ := parseField_at hf h hg hw
  simp only [h1, run_bind_ok]
  have hfa := hf.facts
  obtain ⟨b, hb⟩ := hfa.2.1
  have hta := ht.facts
  obtain ⟨s2, h3, c, h4⟩ := recordLoop_at ht (s1.tokens.length - s1.index)
    (by rw [h2.left]; exact length_le_flat _) h2 (by rw [hb] at hg; exact hg.append) (by omega)
  simp only [h3, run_bind_ok]
  have h5 : PAt (pre ++ a ++ c) (flat rest') (gs ++ f :: cs) errs s2 := by simpa using h4
  obtain ⟨e, s3, g1, _, g3⟩ := h5.finish s.checkpoint (by simp [PState.checkpoint, h.sink_length]) record
    (by simp; omega)
  simp only [g1, run_bind_ok]
  exact ⟨s3, rfl, a ++ c, by rw [← List.append_assoc]; exact g3⟩

theorem rootLoop_at {g0 rest : List Group} {cs : List Green} (hd : RootD g0 cs rest) (fuel : Nat) (hf : g0.length ≤ fuel)
    (h : PAt pre (flat g0) gs errs s) (hg : Grouped ign g0) (hw : weight g0 < 2 ^ 32) :
    ∃ s', rootLoop fuel s = .ok s' ∧ Goes pre gs cs errs rest s' := by
  induction hd generalizing pre gs s fuel with
  | @stop g0 hst =>
    unfold rootLoop notAtEnd
    have : (decide (s.index < s.tokens.length) && !s.atKind CsvLexer.eof) = false := by
      rw [h.atG]
      rcases hst with rfl | hst
      · rw [h.length, h.index]; simp [flat]
      · rw [headKind] at hst; rw [hst]; simp
    rw [this]
    exact ⟨s, rfl, [], by simpa using h⟩
  | @row g0 f rest cs rest' nl rest'' ds e hne hneof hfd htd hld hlt hrd ih =>
    cases fuel with
    | zero => simp at hf; exact absurd hf hne
    | succ fuel =>
      unfold rootLoop notAtEnd
      have : (decide (s.index < s.tokens.length) && !s.atKind CsvLexer.eof) = true := by
        rw [h.atG, h.length, h.index]
        obtain ⟨x, y, rfl⟩ := List.exists_cons_of_ne_nil hne
        simp [headKind] at hneof
        simp [flat, hneof]
      rw [this]
      simp only [if_true]
      obtain ⟨s1, h1, a, h2⟩ := parseRecord_at hfd htd h hg hw
      simp only [h1, run_bind_ok]
      have hfa := hfd.facts
      have hta := htd.facts
      have hla := hld.facts
      obtain ⟨b1, hb1⟩ := hfa.2.1
      obtain ⟨b2, hb2, _⟩ := hta.2
      obtain ⟨b3, hb3, _⟩ := hla.2
      have hg' : Grouped ign rest' := by rw [hb1, hb2] at hg; exact hg.append.append
      have hline : ∃ s2, bumpIf s1 CsvLexer.newline = .ok s2 ∧ Goes pre gs (mkG record (f :: cs) :: nl) errs rest'' s2 := by
        cases hld with
        | some hk =>
          obtain ⟨s2, k1, c, k2⟩ := bumpIf_some h2 hg' hk
          exact ⟨s2, k1, a ++ c, by simpa using k2⟩
        | none hk => exact ⟨s1, bumpIf_none h2 hk, a, by simpa using h2⟩
      obtain ⟨s2, k1, c, k2⟩ := hline
      simp only [k1, run_bind_ok]
      obtain ⟨s3, j1, d, j2⟩ := ih fuel (by omega) k2 (by rw [hb3] at hg'; exact hg'.append) (by omega)
      exact ⟨s3, j1, c ++ d, by simpa using j2⟩

theorem parseRoot_at {g0 rest : List Group} {cs : List Green} (hd : RootD g0 cs rest)
    (h : PAt pre (flat g0) gs errs s) (hg : Grouped ign g0) (hw : weight g0 < 2 ^ 32) :
    ∃ s', parseRoot s = .ok (mkG sourceFile cs, s') ∧ s'.errors = errs := by
  unfold parseRoot
  obtain ⟨s1, h1, a, h2⟩ := rootLoop_at hd (s.tokens.length - s.index) (by rw [h.left]; exact length_le_flat _) h hg hw
  simp only [h1, run_bind_ok]
  have := hd.facts.1
  obtain ⟨e, s2, g1, g2, g3⟩ := h2.finish s.checkpoint (by simp [PState.checkpoint, h.sink_length]) sourceFile (by omega)
  simp only [g1, run_bind_ok]
  exact ⟨s2, by rw [g2]; rfl, g3.errors⟩

end

end Oaks
