import Verif.Proofs.Rules
import Verif.Proofs.Vfs

/-! # C37: rule sets -/

namespace Oaks.Props
open Oaks Oaks.Spec

/-- The rule set after the additions `rs`, failed ones leaving it as it is. -/
def addAll {R : Type} (prio : R → Nat) (conflicts : R → R → Bool) (rs : List R) : List R :=
  rs.foldl (fun s r => (addRule prio conflicts s r).getD s) []

/-- After any sequence of additions the set holds exactly the rules that clashed with none accepted
before them, by descending priority and in the order of addition among equals. -/
theorem C37_order {R : Type} (prio : R → Nat) (conflicts : R → R → Bool) (rs : List R) :
    ∃ acc, Accepts conflicts rs acc ∧ Ranked prio acc (addAll prio conflicts rs) := by
  refine snoc_induction (P := fun rs => ∃ acc, Accepts conflicts rs acc ∧ Ranked prio acc (addAll prio conflicts rs))
    ⟨[], .nil, by constructor <;> simp [addAll]⟩ ?_ rs
  rintro rs r ⟨acc, h1, h2⟩
  have e : addAll prio conflicts (rs ++ [r]) =
      (addRule prio conflicts (addAll prio conflicts rs) r).getD (addAll prio conflicts rs) := by
    simp [addAll]
  rw [e]
  cases h : addRule prio conflicts (addAll prio conflicts rs) r with
  | none =>
    obtain ⟨a, ha, hc⟩ := addRule_none.1 h
    exact ⟨acc, .refuse h1 ((h2.mem a).1 ha) hc, h2⟩
  | some rules =>
    rw [addRule_some h]
    refine ⟨acc ++ [r], .take h1 ?_, h2.snoc r⟩
    intro a ha hc
    rw [addRule_none.2 ⟨a, (h2.mem a).2 ha, hc⟩] at h
    cases h

/-- What is accepted, and so the whole set, is determined by the additions. -/
theorem C37_determined {R : Type} {prio : R → Nat} {conflicts : R → R → Bool} {rs acc acc' : List R}
    (h : Accepts conflicts rs acc) (h' : Accepts conflicts rs acc') :
    acc = acc' ∧ ∀ s s', Ranked prio acc s → Ranked prio acc' s' → s = s' := by
  have key : acc = acc' := by
    induction h generalizing acc' with
    | nil =>
      generalize hn : ([] : List R) = n at h'
      cases h' with
      | nil => rfl
      | take _ _ => simp at hn
      | refuse _ _ _ => simp at hn
    | @take rs acc r _ hf ih =>
      generalize hn : rs ++ [r] = n at h'
      cases h' with
      | nil => simp at hn
      | take g1 g2 =>
        obtain ⟨rfl, hr⟩ := List.append_inj' hn rfl
        cases hr
        rw [ih g1]
      | refuse g1 g2 g3 =>
        obtain ⟨rfl, hr⟩ := List.append_inj' hn rfl
        cases hr
        have := ih g1; subst this
        exact absurd g3 (hf _ g2)
    | @refuse rs acc r a _ ha hc ih =>
      generalize hn : rs ++ [r] = n at h'
      cases h' with
      | nil => simp at hn
      | take g1 g2 =>
        obtain ⟨rfl, hr⟩ := List.append_inj' hn rfl
        cases hr
        have := ih g1; subst this
        exact absurd hc (g2 _ ha)
      | refuse g1 g2 g3 =>
        obtain ⟨rfl, hr⟩ := List.append_inj' hn rfl
        exact ih g1
  refine ⟨key, ?_⟩
  subst key
  intro s s' h1 h2
  refine sorted_ext (rulesLe_totalPre prio) (h1.descending.imp ?_) (h2.descending.imp ?_) ?_
  · intro a b h; simpa [rulesLe] using h
  · intro a b h; simpa [rulesLe] using h
  · intro a; rw [sameKey_rulesLe, sameKey_rulesLe, h1.equals, h2.equals]

/-- `add_rule` fails exactly for a rule that clashes with one in the set, in either direction. -/
theorem C37_refuses {R : Type} (prio : R → Nat) (conflicts : R → R → Bool) (rs : List R) (r : R) :
    addRule prio conflicts (addAll prio conflicts rs) r = none ↔
      ∃ a ∈ addAll prio conflicts rs, Clash conflicts r a :=
  addRule_none

/-- No two rules in a set clash. -/
theorem C37_no_clash {R : Type} (prio : R → Nat) (conflicts : R → R → Bool) (rs : List R) :
    (addAll prio conflicts rs).Pairwise fun a b => ¬ Clash conflicts a b := by
  have sym : ∀ {a b : R}, ¬ Clash conflicts a b → ¬ Clash conflicts b a :=
    fun h h' => h (Or.symm h')
  refine snoc_induction (P := fun rs => (addAll prio conflicts rs).Pairwise fun a b => ¬ Clash conflicts a b)
    (by simp [addAll]) ?_ rs
  intro rs r ih
  have e : addAll prio conflicts (rs ++ [r]) =
      (addRule prio conflicts (addAll prio conflicts rs) r).getD (addAll prio conflicts rs) := by
    simp [addAll]
  rw [e]
  cases h : addRule prio conflicts (addAll prio conflicts rs) r with
  | none => exact ih
  | some rules =>
    rw [addRule_some h, Option.getD_some]
    refine ((sortBy_perm (rulesLe prio) _).pairwise_iff (fun {a b} => sym)).2 ?_
    rw [List.pairwise_append]
    refine ⟨ih, by simp, ?_⟩
    intro a ha b hb
    rw [List.mem_singleton] at hb
    subst hb
    intro hc
    rw [addRule_none.2 ⟨a, ha, Or.symm hc⟩] at h
    cases h

/-- `add_rules` adds rules in order up to the first that clashes; the ones before it stay, and it
succeeds exactly when all were added. -/
theorem C37_add_rules {R : Type} (prio : R → Nat) (conflicts : R → R → Bool) (rs new : List R) :
    ∃ done left, new = done ++ left ∧
      addRules prio conflicts (addAll prio conflicts rs) new = (addAll prio conflicts (rs ++ done), left.isEmpty) ∧
      (∀ a r b, done = a ++ r :: b → ∀ e ∈ addAll prio conflicts (rs ++ a), ¬ Clash conflicts r e) ∧
      (∀ r b, left = r :: b → ∃ e ∈ addAll prio conflicts (rs ++ done), Clash conflicts r e) := by
  induction new generalizing rs with
  | nil => exact ⟨[], [], rfl, by simp [addRules], by simp, by simp⟩
  | cons r new ih =>
    have e : addAll prio conflicts (rs ++ [r]) =
        (addRule prio conflicts (addAll prio conflicts rs) r).getD (addAll prio conflicts rs) := by
      simp [addAll]
    cases h : addRule prio conflicts (addAll prio conflicts rs) r with
    | none =>
      refine ⟨[], r :: new, rfl, by simp [addRules, h], by simp, ?_⟩
      intro q b hq
      cases hq
      simpa using addRule_none.1 h
    | some rules =>
      rw [h, Option.getD_some] at e
      obtain ⟨done, left, h1, h2, h3, h4⟩ := ih (rs ++ [r])
      refine ⟨r :: done, left, by rw [h1]; rfl, ?_, ?_, by simpa using h4⟩
      · simp only [addRules, h]
        rw [← e, h2]; simp
      · intro a q b hd x hx hc
        cases a with
        | nil =>
          cases hd
          rw [addRule_none.2 ⟨x, by simpa using hx, hc⟩] at h
          cases h
        | cons y a =>
          cases hd
          exact h3 a q b rfl x (by simpa using hx) hc

/-- The first applicable rule that does not decline decides, for a set built by any additions; when
all applicable rules decline, or none applies, there is no result. -/
theorem C37_first_decides {R D E : Type} (applies : R → Bool) (apply : R → Except E (Option D)) (rules : List R) :
    (applyRules applies apply rules = .ok none ↔ ∀ r ∈ rules, applies r = true → apply r = .ok none) ∧
    ∀ out, out ≠ .ok none → (applyRules applies apply rules = out ↔ Decides applies apply rules out) := by
  have excl : ∀ out, out ≠ .ok none → Decides applies apply rules out →
      applyRules applies apply rules = out := by
    rintro out hne ⟨b, r, a, rfl, h1, h2, h3⟩
    have hl : ∀ b : List R, (∀ q ∈ b, applies q = true → apply q = .ok none) →
        applyRules applies apply (b ++ r :: a) = out := by
      intro b
      induction b with
      | nil =>
        intro _
        simp only [applyRules, applicableRules, List.nil_append, List.filter_cons, h1, if_true, applyLoop]
        cases ho : apply r with
        | error e => rw [← h2, ho]
        | ok o =>
          cases o with
          | none => rw [ho] at h2; exact absurd h2.symm hne
          | some d => rw [← h2, ho]
      | cons q b ih =>
        intro hb
        have := ih fun x hx => hb x (List.mem_cons_of_mem _ hx)
        by_cases hq : applies q = true
        · have hn := hb q (List.mem_cons_self ..) hq
          simpa [applyRules, applicableRules, List.filter_cons, hq, applyLoop, hn] using this
        · simpa [applyRules, applicableRules, List.filter_cons, hq] using this
    exact hl b h3
  rcases applyLoop_spec apply applies rules with ⟨h1, h2⟩ | ⟨h1, h2⟩
  · refine ⟨by rw [h2]; simpa using h1, ?_⟩
    intro out hne
    rw [h2]
    constructor
    · intro h; exact absurd h.symm hne
    · rintro ⟨b, r, a, rfl, g1, g2, g3⟩
      rw [← g2]; exact (h1 r (by simp) g1).symm
  · refine ⟨⟨fun h => absurd h h1, ?_⟩, ?_⟩
    · intro h
      obtain ⟨b, r, a, he, g1, g2, g3⟩ := h2
      rw [← g2]
      exact h r (by rw [he]; simp) g1
    · intro out hne
      exact ⟨fun h => h ▸ h2, excl out hne⟩

/-- Non-trivial case: rules are (priority, name); 5 clashes with 6 when asked the other way round. -/
def demoConflicts (a b : Nat × Nat) : Bool := a.2 == 5 && b.2 == 6

example : addAll Prod.fst demoConflicts [(1, 5), (2, 7), (3, 6), (1, 8), (2, 9)] =
    [(2, 7), (2, 9), (1, 5), (1, 8)] := by decide

example : addRules Prod.fst demoConflicts [] [(1, 5), (2, 7), (3, 6), (1, 8)] = ([(2, 7), (1, 5)], false) := by
  decide

example : applyRules (E := Nat) (fun r : Nat × Nat => r.2 != 7) (fun r => .ok (if r.1 = 2 then none else some r.2))
    [(2, 7), (2, 9), (1, 5), (1, 8)] = .ok (some 5) := rfl

end Oaks.Props
