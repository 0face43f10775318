import Verif.Proofs.ProgBare

/-! More turns change nothing, also when a run ends with a panic. -/
namespace Oaks
namespace Prog

/-- What does not run out of turns is the same with more of them. -/
def Still {α : Type} (a b : Run α) : Prop := a ≠ .error .spin → b = a

theorem turns_still {c body c' body' : Loc → PState → Run (Out × Loc × PState)} (hc : ∀ l s, Still (c l s) (c' l s))
    (hb : ∀ l s, Still (body l s) (body' l s)) (fuel fuel' : Nat) (hf : fuel ≤ fuel') (l : Loc) (s : PState) :
    Still (turns c body fuel l s) (turns c' body' fuel' l s) := by
  induction fuel generalizing fuel' l s with
  | zero => intro h; exact absurd rfl h
  | succ fuel ih =>
    intro h
    obtain ⟨fuel', rfl⟩ : ∃ n, fuel' = n + 1 := ⟨fuel' - 1, by omega⟩
    rw [turns] at h ⊢
    rw [turns]
    cases h1 : c l s with
    | error e =>
      have he : e ≠ .spin := by rintro rfl; rw [h1] at h; exact h rfl
      have := hc l s (by rw [h1]; simpa using he)
      rw [this, h1]
    | ok r1 =>
      obtain ⟨o1, l1, s1⟩ := r1
      have := hc l s (by rw [h1]; simp)
      rw [this, h1]
      rw [h1] at h
      cases o1 with
      | val v =>
        cases v with
        | false => rfl
        | true =>
          simp only at h ⊢
          cases h2 : body l1 s1 with
          | error e =>
            have he : e ≠ .spin := by rintro rfl; rw [h2] at h; exact h rfl
            have := hb l1 s1 (by rw [h2]; simpa using he)
            rw [this, h2]
          | ok r2 =>
            obtain ⟨o2, l2, s2⟩ := r2
            have := hb l1 s1 (by rw [h2]; simp)
            rw [this, h2]
            rw [h2] at h
            cases o2 with
            | val b => exact ih _ (by omega) _ _ h
            | cont => exact ih _ (by omega) _ _ h
            | _ => rfl
      | _ => rfl

theorem exec_still {ign : Nat → Bool} {src : Source} {slack slack' : Nat} {calls calls' : Nat → PState → Run (Out × PState)}
    (hs : slack ≤ slack') (hcalls : ∀ f s, Still (calls f s) (calls' f s)) (p : Prog) :
    ∀ l s, Still (exec ign src slack calls p l s) (exec ign src slack' calls' p l s) := by
  induction p with
  | within k p ih =>
    intro l s h
    rw [exec] at h ⊢
    rw [exec]
    cases h1 : exec ign src slack calls p { l with cp := s.checkpoint } s with
    | error e => rw [h1] at h; rw [ih _ _ (by rw [h1]; simpa using h), h1]
    | ok r1 => rw [ih _ _ (by rw [h1]; simp), h1]
  | mark p ih =>
    intro l s h
    rw [exec] at h ⊢
    rw [exec]
    cases h1 : exec ign src slack calls p { l with cp := s.checkpoint } s with
    | error e => rw [h1] at h; rw [ih _ _ (by rw [h1]; simpa using h), h1]
    | ok r1 => rw [ih _ _ (by rw [h1]; simp), h1]
  | seq a b iha ihb =>
    intro l s h
    rw [exec] at h ⊢
    rw [exec]
    cases h1 : exec ign src slack calls a l s with
    | error e => rw [h1] at h; rw [iha _ _ (by rw [h1]; simpa using h), h1]
    | ok r1 =>
      obtain ⟨o, l1, s1⟩ := r1
      rw [h1] at h
      rw [iha _ _ (by rw [h1]; simp), h1]
      cases o with
      | val v => exact ihb _ _ h
      | _ => rfl
  | ite c a b ihc iha ihb =>
    intro l s h
    rw [exec] at h ⊢
    rw [exec]
    cases h1 : exec ign src slack calls c l s with
    | error e => rw [h1] at h; rw [ihc _ _ (by rw [h1]; simpa using h), h1]
    | ok r1 =>
      obtain ⟨o, l1, s1⟩ := r1
      rw [h1] at h
      rw [ihc _ _ (by rw [h1]; simp), h1]
      cases o with
      | val v =>
        cases v
        · exact ihb _ _ h
        · exact iha _ _ h
      | _ => rfl
  | loop c b ihc ihb =>
    intro l s
    rw [exec, exec]
    exact turns_still ihc ihb _ _ (by omega) _ _
  | catch_ p ih =>
    intro l s h
    rw [exec] at h ⊢
    rw [exec]
    cases h1 : exec ign src slack calls p l s with
    | error e => rw [h1] at h; rw [ih _ _ (by rw [h1]; simpa using h), h1]
    | ok r1 => rw [ih _ _ (by rw [h1]; simp), h1]
  | call f =>
    intro l s h
    rw [exec] at h ⊢
    rw [exec]
    cases h1 : calls f s with
    | error e => rw [h1] at h; rw [hcalls _ _ (by rw [h1]; simpa using h), h1]
    | ok r1 => rw [hcalls _ _ (by rw [h1]; simp), h1]
  | _ => intro l s h; rfl

theorem calls_still {ign : Nat → Bool} {src : Source} {slack slack' : Nat} {procs : List Prog} (hs : slack ≤ slack') (depth depth' : Nat)
    (hd : depth ≤ depth') : ∀ f s, Still (calls ign src slack procs depth f s) (calls ign src slack' procs depth' f s) := by
  induction depth generalizing depth' with
  | zero => intro f s h; exact absurd rfl h
  | succ depth ih =>
    intro f s h
    obtain ⟨depth', rfl⟩ : ∃ n, depth' = n + 1 := ⟨depth' - 1, by omega⟩
    rw [calls] at h ⊢
    rw [calls]
    cases hp : procs[f]? with
    | none => rfl
    | some p =>
      rw [hp] at h
      simp only at h ⊢
      cases h1 : exec ign src slack (calls ign src slack procs depth) p ⟨s.checkpoint, fun _ => 0⟩ s with
      | error e => rw [h1] at h; rw [exec_still hs (ih depth' (by omega)) p _ _ (by rw [h1]; simpa using h), h1]
      | ok r1 => rw [exec_still hs (ih depth' (by omega)) p _ _ (by rw [h1]; simp), h1]

end Prog

namespace HandParser
open Prog

/-- With more turns and a greater depth the result is the same. -/
theorem parse_still {h : HandParser} {slack slack' : Nat} (hs : slack ≤ slack') {src : Source} {toks : List Tok}
    (hr : h.parse slack src toks ≠ .error .spin) : h.parse slack' src toks = h.parse slack src toks := by
  unfold parse at hr ⊢
  cases h0 : PState.new (fun k => h.ign.contains k) toks src.length with
  | error e => rfl
  | ok s =>
    rw [h0, run_bind_ok] at hr
    rw [run_bind_ok, run_bind_ok]
    cases h1 : h.main.exec (fun k => h.ign.contains k) src slack (Prog.calls (fun k => h.ign.contains k) src slack h.procs
        (slack + ((toks.length + 1) * (h.procs.length + 1) + 1))) ⟨h.begins s, fun _ => 0⟩ s with
    | error e =>
      rw [h1] at hr
      have he : e ≠ .spin := by rintro rfl; exact hr rfl
      rw [exec_still hs (calls_still hs _ _ (Nat.add_le_add_right hs _)) h.main _ _ (by rw [h1]; simpa using he), h1]
    | ok r1 => rw [exec_still hs (calls_still hs _ _ (Nat.add_le_add_right hs _)) h.main _ _ (by rw [h1]; simp), h1]

end HandParser
end Oaks
