import Verif.Model.Rules
import Verif.Spec.Rules

/-! Rule sets keep their order. -/

namespace Oaks
open Spec

theorem rulesLe_totalPre {R : Type} (prio : R → Nat) : TotalPre (rulesLe prio) :=
  ⟨fun a b => by simp only [rulesLe, decide_eq_true_eq]; omega,
   fun a b c h1 h2 => by simp only [rulesLe, decide_eq_true_eq] at *; omega⟩

theorem sameKey_rulesLe {R : Type} (prio : R → Nat) (a : R) (l : List R) :
    sameKey (rulesLe prio) a l = l.filter fun r => prio r == prio a := by
  unfold sameKey
  congr 1
  funext y
  simp only [rulesLe]
  by_cases h : prio y = prio a
  · simp [h]
  · by_cases h2 : prio y ≤ prio a
    · have : ¬ prio a ≤ prio y := by omega
      simp [h, this]
    · simp [h, h2]

theorem sortBy_ranked {R : Type} (prio : R → Nat) (l : List R) : Ranked prio l (sortBy (rulesLe prio) l) := by
  constructor
  · refine (sortBy_sorted (rulesLe_totalPre prio) l).imp ?_
    intro a b h; simpa [rulesLe] using h
  · intro n
    by_cases h : ∃ a ∈ l, prio a = n
    · obtain ⟨a, _, rfl⟩ := h
      rw [← sameKey_rulesLe, ← sameKey_rulesLe]
      exact sortBy_stable (rulesLe_totalPre prio) a l
    · have e : ∀ k : List R, (∀ x, x ∈ k → x ∈ l) → k.filter (fun r => prio r == n) = [] := by
        intro k hk
        rw [List.filter_eq_nil_iff]
        intro x hx hp
        exact h ⟨x, hk x hx, by simpa using hp⟩
      rw [e _ (fun x => mem_sortBy.1), e l (fun x hx => hx)]

theorem Spec.Ranked.mem {R : Type} {prio : R → Nat} {acc rules : List R} (h : Ranked prio acc rules) (a : R) :
    a ∈ rules ↔ a ∈ acc := by
  have : ∀ l : List R, a ∈ l ↔ a ∈ l.filter (fun r => prio r == prio a) := by intro l; simp
  rw [this rules, this acc, h.equals]

theorem Spec.Ranked.snoc {R : Type} {prio : R → Nat} {acc rules : List R} (h : Ranked prio acc rules) (r : R) :
    Ranked prio (acc ++ [r]) (sortBy (rulesLe prio) (rules ++ [r])) := by
  have := sortBy_ranked prio (rules ++ [r])
  refine ⟨this.descending, fun n => ?_⟩
  rw [this.equals, List.filter_append, List.filter_append, h.equals]

theorem addRule_none {R : Type} {prio : R → Nat} {conflicts : R → R → Bool} {rules : List R} {r : R} :
    addRule prio conflicts rules r = none ↔ ∃ a ∈ rules, Clash conflicts r a := by
  unfold addRule Clash
  split
  · next h => simpa using h
  · next h => simp at h ⊢; exact h

theorem addRule_some {R : Type} {prio : R → Nat} {conflicts : R → R → Bool} {rules rules' : List R} {r : R}
    (h : addRule prio conflicts rules r = some rules') : rules' = sortBy (rulesLe prio) (rules ++ [r]) := by
  unfold addRule at h
  split at h
  · cases h
  · cases h; rfl

theorem applyLoop_spec {R D E : Type} (apply : R → Except E (Option D)) (applies : R → Bool) (rules : List R) :
    (∀ r ∈ rules, applies r = true → apply r = .ok none) ∧ applyRules applies apply rules = .ok none ∨
    applyRules applies apply rules ≠ .ok none ∧
      Decides applies apply rules (applyRules applies apply rules) := by
  induction rules with
  | nil => left; exact ⟨by simp, rfl⟩
  | cons r rules ih =>
    by_cases hr : applies r = true
    · cases ha : apply r with
      | error e =>
        right
        have : applyRules applies apply (r :: rules) = .error e := by
          simp [applyRules, applicableRules, List.filter_cons, hr, applyLoop, ha]
        rw [this]
        exact ⟨by simp, [], r, rules, rfl, hr, ha, by simp⟩
      | ok o =>
        cases o with
        | some d =>
          right
          have : applyRules applies apply (r :: rules) = .ok (some d) := by
            simp [applyRules, applicableRules, List.filter_cons, hr, applyLoop, ha]
          rw [this]
          exact ⟨by simp, [], r, rules, rfl, hr, ha, by simp⟩
        | none =>
          have : applyRules applies apply (r :: rules) = applyRules applies apply rules := by
            simp [applyRules, applicableRules, List.filter_cons, hr, applyLoop, ha]
          rw [this]
          rcases ih with ⟨h1, h2⟩ | ⟨h1, b, q, a, rfl, h3, h4, h5⟩
          · left
            refine ⟨?_, h2⟩
            intro x hx hax
            rcases List.mem_cons.1 hx with rfl | hx
            · exact ha
            · exact h1 x hx hax
          · right
            refine ⟨h1, r :: b, q, a, rfl, h3, h4, ?_⟩
            intro x hx hax
            rcases List.mem_cons.1 hx with rfl | hx
            · exact ha
            · exact h5 x hx hax
    · have : applyRules applies apply (r :: rules) = applyRules applies apply rules := by
        simp [applyRules, applicableRules, List.filter_cons, hr]
      rw [this]
      rcases ih with ⟨h1, h2⟩ | ⟨h1, b, q, a, rfl, h3, h4, h5⟩
      · left
        refine ⟨?_, h2⟩
        intro x hx hax
        rcases List.mem_cons.1 hx with rfl | hx
        · exact absurd hax hr
        · exact h1 x hx hax
      · right
        refine ⟨h1, r :: b, q, a, rfl, h3, h4, ?_⟩
        intro x hx hax
        rcases List.mem_cons.1 hx with rfl | hx
        · exact absurd hax hr
        · exact h5 x hx hax

end Oaks
