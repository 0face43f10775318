/-
What a sequence of rule additions accepts, and how a rule set stands.
-/
namespace Oaks.Spec

/-- Two rules conflict when either says so. -/
def Clash {R : Type} (conflicts : R → R → Bool) (a b : R) : Prop := conflicts a b = true ∨ conflicts b a = true

/-- `acc` are the rules accepted out of the additions `rs`, in the order of addition: each rule is
accepted exactly when it clashes with none accepted before. -/
inductive Accepts {R : Type} (conflicts : R → R → Bool) : List R → List R → Prop where
  | nil : Accepts conflicts [] []
  | take {rs acc r} : Accepts conflicts rs acc → (∀ a ∈ acc, ¬ Clash conflicts r a) →
      Accepts conflicts (rs ++ [r]) (acc ++ [r])
  | refuse {rs acc r a} : Accepts conflicts rs acc → a ∈ acc → Clash conflicts r a →
      Accepts conflicts (rs ++ [r]) acc

/-- `rules` holds exactly `acc`, by descending priority and in the order of `acc` among equals. -/
structure Ranked {R : Type} (prio : R → Nat) (acc rules : List R) : Prop where
  descending : rules.Pairwise fun a b => prio b ≤ prio a
  equals : ∀ n, rules.filter (fun r => prio r == n) = acc.filter (fun r => prio r == n)

/-- `r` decides: it applies, and every applicable rule before it declined. -/
def Decides {R D E : Type} (applies : R → Bool) (apply : R → Except E (Option D)) (rules : List R)
    (out : Except E (Option D)) : Prop :=
  ∃ before r after, rules = before ++ r :: after ∧ applies r = true ∧ apply r = out ∧
    ∀ q ∈ before, applies q = true → apply q = .ok none

end Oaks.Spec
