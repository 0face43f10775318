import Verif.Base.Sort

/-
Model of `projects/oak-pretty-print/src/rules/mod.rs`: rule sets. A rule is a trait object, so rules
are an arbitrary type `R` with the answers of its methods given as functions.
-/
namespace Oaks

/-- The order of `sort_by(|a, b| b.priority().cmp(&a.priority()))` (rules/mod.rs:70). -/
def rulesLe {R : Type} (prio : R → Nat) (a b : R) : Bool := decide (prio b ≤ prio a)

/-- `RuleSet::add_rule` (rules/mod.rs:59-73); an error leaves the set as it was. The error text is not
modelled. -/
def addRule {R : Type} (prio : R → Nat) (conflicts : R → R → Bool) (rules : List R) (r : R) :
    Option (List R) :=
  if rules.any fun e => conflicts r e || conflicts e r then none
  else some (sortBy (rulesLe prio) (rules ++ [r]))

/-- `RuleSet::add_rules` (rules/mod.rs:76-81): the set afterwards, and whether the call succeeded. -/
def addRules {R : Type} (prio : R → Nat) (conflicts : R → R → Bool) : List R → List R → List R × Bool
  | rules, [] => (rules, true)
  | rules, r :: rs =>
    match addRule prio conflicts rules r with
    | none => (rules, false)
    | some rules => addRules prio conflicts rules rs

/-- `applicable_rules_for_node` (rules/mod.rs:84-86) and `applicable_rules_for_token` (89-91). -/
def applicableRules {R : Type} (applies : R → Bool) (rules : List R) : List R := rules.filter applies

/-- The loop of `apply_node_rules` (rules/mod.rs:95-100) and `apply_token_rules` (105-110). -/
def applyLoop {R D E : Type} (apply : R → Except E (Option D)) : List R → Except E (Option D)
  | [] => .ok none
  | r :: rs =>
    match apply r with
    | .error e => .error e
    | .ok (some d) => .ok (some d)
    | .ok none => applyLoop apply rs

/-- `apply_node_rules` (rules/mod.rs:94-101) and `apply_token_rules` (104-111). -/
def applyRules {R D E : Type} (applies : R → Bool) (apply : R → Except E (Option D)) (rules : List R) :
    Except E (Option D) :=
  applyLoop apply (applicableRules applies rules)

end Oaks
