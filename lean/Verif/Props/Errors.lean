import Verif.Proofs.Errors

/- C80: what an error says. -/
namespace Oaks.Props
open Oaks Spec OakErr

/-- Errors that print the same are the same error: the same kind, the same message, the same file, the same place. So the list of printed
errors, which is what the testers compare, tells the list of errors. -/
theorem C80_text_partial (path : Str → Str) (hp : ∀ p q, path p = path q → p = q) :
    (∀ e e' : OakErr, ¬ IsTestFailure e → e.display path = e'.display path → Tells e e') ∧
      ∀ es es' : List OakErr, (∀ e ∈ es, ¬ IsTestFailure e) → es.map (display path) = es'.map (display path) → List.Forall₂ Tells es es' := by
  refine ⟨fun e e' ht h => display_tells hp ht h, ?_⟩
  intro es
  induction es with
  | nil =>
    intro es' _ h
    cases es' with
    | nil => exact .nil
    | cons e' es' => simp at h
  | cons e es ih =>
    intro es' ht h
    cases es' with
    | nil => simp at h
    | cons e' es' =>
      simp only [List.map_cons, List.cons.injEq] at h
      exact .cons (display_tells hp (ht e (by simp)) h.1) (ih es' (fun x hx => ht x (by simp [hx])) h.2)

/-- Two failed tests may print the same although they differ. -/
theorem C80_text_test_failure (path : Str → Str) (p : Str) : ∃ e e' : OakErr, e ≠ e' ∧ e.display path = e'.display path :=
  ⟨testFailure p "a".toList "b, found c".toList, testFailure p "a, found b".toList "c".toList, by
    intro h; injection h with _ h; revert h; decide, by
    show _ ++ (_ ++ path p ++ _ ++ "a".toList ++ ", found ".toList ++ "b, found c".toList) =
      _ ++ (_ ++ path p ++ _ ++ "a, found b".toList ++ ", found ".toList ++ "c".toList)
    simp only [List.append_assoc]
    rfl⟩

/-- An error with room for a source, other than an unexpected end of file, gets the source, and nothing else changes. -/
theorem C80_source_partial (e : OakErr) (i : Nat) (he : ∀ o s, e ≠ unexpectedEof o s) :
    sourceOf (e.withSourceId i) = (sourceOf e).map (fun _ => some i) ∧ SameButSource e (e.withSourceId i) ∧
      offsetOf (e.withSourceId i) = offsetOf e := by
  cases e
  case unexpectedEof o s => exact absurd rfl (he o s)
  all_goals exact ⟨rfl, by simp [withSourceId, SameButSource], rfl⟩

/-- The last source that is attached is the one that stays. -/
theorem C80_source_last (e : OakErr) (i j : Nat) : (e.withSourceId i).withSourceId j = e.withSourceId j := by
  cases e <;> rfl

/-- An unexpected end of file never gets a source, though it has room for it. -/
theorem C80_source_eof (o : Nat) (s : Option Nat) (i : Nat) :
    (unexpectedEof o s).withSourceId i = unexpectedEof o s ∧ sourceOf ((unexpectedEof o none).withSourceId i) = some none := ⟨rfl, rfl⟩

/-- A copy of an error prints the same and is about the same place and file; it is the same error unless it holds a code of the operating
system, which a copy never has. -/
theorem C80_copy_partial (path : Str → Str) (e : OakErr) :
    e.clone.display path = e.display path ∧ e.clone.key = e.key ∧ sourceOf e.clone = sourceOf e ∧ offsetOf e.clone = offsetOf e ∧
      Tells e e.clone ∧ (e.clone = e ↔ ∀ x s, e = io x s → x.os = none) := by
  cases e
  case io x s =>
    refine ⟨rfl, rfl, rfl, rfl, ⟨rfl, rfl⟩, ?_⟩
    cases x with
    | mk k t os =>
      constructor
      · intro h y s' hy
        injection h with h1 h2
        injection hy with h3 h4
        subst h3
        injection h1 with _ _ h5
        exact h5.symm
      · intro h
        have := h _ _ rfl
        subst this; rfl
  all_goals
    refine ⟨rfl, rfl, rfl, rfl, rfl, ?_, fun _ => rfl⟩
    intro _ _ _ h
    cases h

/-- The code of the operating system is lost in a copy. -/
theorem C80_copy_code : ∃ e : OakErr, e.clone ≠ e ∧ e.clone.key = e.key :=
  ⟨io ⟨2, "no such file".toList, some 2⟩ none, by decide, rfl⟩

/-- Every text begins with the key of the kind, and no key is the beginning of the text of an error of another kind. -/
theorem C80_key (path : Str → Str) (e e' : OakErr) : e.key <+: e.display path ∧ (e.key <+: e'.display path → e.key = e'.key) :=
  ⟨⟨_, rfl⟩, key_of_prefix⟩

/-- A concrete case. -/
example : (syntaxError "Unexpected token".toList 5 none).display id = "error.syntaxUnexpected token: (at None:5)".toList ∧
    ((syntaxError "Unexpected token".toList 5 none).withSourceId 12).display id = "error.syntaxUnexpected token: (at Some(12):5)".toList := by
  decide +kernel

example : ¬ Tells (unexpectedCharacter '$' 0 none) (unexpectedCharacter '$' 1 none) := by simp [Tells]

end Oaks.Props
