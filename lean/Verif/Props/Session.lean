import Verif.Model.Session
import Mathlib.Data.List.Induction

/-! # C27: parse sessions -/
namespace Oaks.Props
open Oaks

/-- After a history of parses, where the root is: in the active arena if the last parse succeeded, in the
old arena if the last one failed and the one before succeeded. -/
theorem parses_snoc (s : Session) (bs : List Bool) (b : Bool) :
    s.parses (bs ++ [b]) = ((s.parses bs).parse b).2 := by
  induction bs generalizing s with
  | nil => rfl
  | cons c bs ih => exact ih _

theorem no_root_yet (bs : List Bool) (h : true ∉ bs) : (Session.new.parses bs).lastRoot = none := by
  induction bs using List.reverseRecOn with
  | nil => rfl
  | append_singleton bs b ih =>
    rw [parses_snoc]
    simp at h
    have hb : b = false := by cases b <;> simp_all
    subst hb
    exact ih h.1

/-- The tree offered for reuse at the start of a parse lies in an arena the session still owns, and so
does the last root, as long as no earlier parse failed after one had succeeded. Missing for the full
property: a failed parse between two others (see `C27_dangling`). -/
theorem C27_owned_partial (bs : List Bool) (hbs : ¬ ∃ a b, bs = a ++ true :: b ∧ false ∈ b) (b : Bool) :
    let s := Session.new.parses bs
    (∀ r, (s.parse b).1 = some r → s.prepare.owns r) ∧
      (∀ r, (s.parse b).2.lastRoot = some r → (s.parse b).2.owns r) ∧
      (∀ r, s.lastRoot = some r → s.owns r) := by
  intro s
  have hs : ∀ r, s.lastRoot = some r → s.active = r := by
    intro r hr
    rcases List.eq_nil_or_concat bs with rfl | ⟨cs, c, hc⟩
    · simp [s, Session.parses, Session.new] at hr
    · have hc' : bs = cs ++ [c] := by simpa using hc
      have hsn : s = ((Session.new.parses cs).parse c).2 := by
        show Session.new.parses bs = _
        rw [hc', parses_snoc]
      cases c with
      | true =>
        rw [hsn] at hr ⊢
        simp [Session.parse, Session.commit] at hr ⊢
        exact hr
      | false =>
        exfalso
        have hno : true ∉ cs := by
          intro hm
          obtain ⟨x, y, hxy⟩ := List.append_of_mem hm
          exact hbs ⟨x, y ++ [false], by rw [hc', hxy]; simp, by simp⟩
        have := no_root_yet bs (by rw [hc']; simp [hno])
        rw [show s.lastRoot = none from this] at hr
        simp at hr
  refine ⟨?_, ?_, fun r hr => .inl (hs r hr)⟩
  · intro r hr
    right
    simp only [Session.parse, Session.oldTree, Session.prepare] at hr ⊢
    cases hl : s.lastRoot with
    | none => rw [hl] at hr; simp at hr
    | some q =>
      rw [hl] at hr; simp at hr; subst hr
      rw [hs q hl]
  · intro r hr
    cases b with
    | true => left; simpa [Session.parse, Session.commit] using hr
    | false =>
      right
      simp only [Session.parse, Session.prepare] at hr ⊢
      rw [hs r (by simpa using hr)]; rfl

/-- The root returned by the last successful parse stays readable through `last_root` until the second
failure after it. -/
theorem C27_last_root_after_one_failure (bs : List Bool) :
    let s := Session.new.parses (bs ++ [true, false])
    ∃ r, s.lastRoot = some r ∧ s.owns r := by
  intro s
  have : s = (((Session.new.parses bs).parse true).2.parse false).2 := by
    show Session.new.parses _ = _
    rw [show bs ++ [true, false] = (bs ++ [true]) ++ [false] by simp, parses_snoc, parses_snoc]
  rw [this]
  exact ⟨_, rfl, .inr rfl⟩

/-- The full property fails, in every history: whenever a successful parse is followed by a failed one,
the next parse is offered a tree whose arena has been dropped. -/
theorem C27_dangling (bs : List Bool) (b : Bool) :
    let s := Session.new.parses (bs ++ [true, false])
    ∃ r, (s.parse b).1 = some r ∧ ¬ s.prepare.owns r := by
  intro s
  have : s = (((Session.new.parses bs).parse true).2.parse false).2 := by
    show Session.new.parses _ = _
    rw [show bs ++ [true, false] = (bs ++ [true]) ++ [false] by simp, parses_snoc, parses_snoc]
  rw [this]
  refine ⟨(Session.new.parses bs).next, rfl, ?_⟩
  simp [Session.owns, Session.prepare, Session.parse, Session.commit]
  omega

/-- Non-vacuity: a history allowed by `C27_owned_partial` in which a tree is offered. -/
example : ((Session.new.parses [false, true, true]).parse true).1 = some 3 := by decide

end Oaks.Props
