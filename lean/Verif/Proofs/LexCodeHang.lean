import Verif.Model.HandLex.Msil
import Verif.Model.HandLex.Nix
import Verif.Proofs.LexCode

/-! Lexers that stop moving inside a character. -/
namespace Oaks.HandLex
open Lc

deriving instance DecidableEq for Oaks.Lex

/-- The body of the loop of `run`. -/
def inner : Code → Code
  | .scope _ (.seq _ (.loop _ _ _ p)) => p
  | .scope _ (.loop _ _ _ p) => p
  | p => p

abbrev cutText : Str := "\"\\é".toList

/-- After the string: inside the last character. -/
def cutLex : Lex := ⟨⟨3, ⟨0, cutText⟩⟩, [⟨0, 0, 3⟩]⟩
def cutStart : Lex := ⟨⟨0, ⟨0, cutText⟩⟩, []⟩

theorem cut_peek : cutLex.peek (strSource cutText) = .ok (cutLex, none) := by decide +kernel
theorem cut_more : cutLex.notAtEnd (strSource cutText) = true := by decide +kernel

/-- What a program does where no character can be read, with the values of registers that are known: the values
after it and the outcome. -/
def stuck (pos : Nat) : Code → List (Nat × Nat) → Option (List (Nat × Nat) × Out)
  | .val b, k => some (k, .val b)
  | .more, k => some (k, .val true)
  | .look q, k => some ((q, code none) :: k, .val true)
  | .put q n, k => some ((q, n) :: k, .val true)
  | .mark q, k => some ((q, pos) :: k, .val true)
  | .chr q _, k =>
    match k.lookup q with
    | some v => if v = code none then some (k, .val false) else none
    | none => none
  | .moved q, k => (k.lookup q).map fun v => (k, .val (decide (v < pos)))
  | .guard q, k =>
    match k.lookup q with
    | some v => if v = pos then none else some (k, .val true)
    | none => none
  | .seq p q, k =>
    match stuck pos p k with
    | some (k, .val _) => stuck pos q k
    | x => x
  | .ite c p q, k =>
    match stuck pos c k with
    | some (k, .val true) => stuck pos p k
    | some (k, .val false) => stuck pos q k
    | x => x
  | .loop g _ c _, k =>
    match stuck pos c ((g, pos) :: k) with
    | some (k, .val false) => some (k, .val true)
    | _ => none
  | .ret b, k => some (k, .ret b)
  | .cont, k => some (k, .cont)
  | .scope _ p, k =>
    match stuck pos p k with
    | some (k, .val b) => some (k, .val b)
    | some (k, .ret b) => some (k, .val b)
    | _ => none
  | _, _ => none

/-- The registers have the known values. -/
def Agree (k : List (Nat × Nat)) (g : Nat → Nat) : Prop := ∀ q v, k.lookup q = some v → g q = v

theorem Agree.set {k : List (Nat × Nat)} {st : LSt} (h : Agree k st.regs) (q n : Nat) : Agree ((q, n) :: k) (st.set q n).regs := by
  intro i v hi
  rw [List.lookup_cons] at hi
  by_cases hq : i = q
  · subst hq
    simp at hi
    simp [LSt.set, hi]
  · have hb : (i == q) = false := by simp [hq]
    rw [hb] at hi
    simp [LSt.set, hq, h i v hi]

theorem stuck_sound {src : Source} {lex : Lex} (hp : lex.peek src = .ok (lex, none)) (hm : lex.notAtEnd src = true)
    (hg : ∀ v, v ≠ lex.pos → lex.advanceIfDeadLock src v = .ok lex) (u : Uni) (ω : Nat → Nat) (p : Code) :
    ∀ (k k' : List (Nat × Nat)) (o : Out) (g : Nat → Nat) (n : Nat), stuck lex.pos p k = some (k', o) → Agree k g →
      ∃ g', exec src u ω p ⟨lex, g, n⟩ = .ok (⟨lex, g', n⟩, o) ∧ Agree k' g' := by
  induction p with
  | val b => intro k k' o g n h ha; cases h; exact ⟨g, rfl, ha⟩
  | more => intro k k' o g n h ha; cases h; exact ⟨g, by simp only [exec, hm]; rfl, ha⟩
  | look q => intro k k' o g n h ha; cases h; exact ⟨_, by simp only [exec, hp, run_bind_ok]; rfl, Agree.set (st := ⟨lex, g, n⟩) ha q _⟩
  | put q m => intro k k' o g n h ha; cases h; exact ⟨_, rfl, Agree.set (st := ⟨lex, g, n⟩) ha q m⟩
  | mark q => intro k k' o g n h ha; cases h; exact ⟨_, rfl, Agree.set (st := ⟨lex, g, n⟩) ha q _⟩
  | chr q x =>
    intro k k' o g n h ha
    simp only [stuck] at h
    split at h
    · rename_i v hv
      split at h
      · rename_i hn
        cases h
        exact ⟨g, by simp only [exec]; rw [ha q v hv, hn, uncode_code]; rfl, ha⟩
      · cases h
    · cases h
  | moved q =>
    intro k k' o g n h ha
    obtain ⟨v, hv, h⟩ := Option.map_eq_some_iff.mp h
    cases h
    have := ha q v hv
    subst this
    exact ⟨g, rfl, ha⟩
  | guard q =>
    intro k k' o g n h ha
    simp only [stuck] at h
    split at h
    · rename_i v hv
      split at h
      · cases h
      · rename_i hn
        cases h
        exact ⟨g, by simp only [exec]; rw [ha q v hv, hg v hn]; rfl, ha⟩
    · cases h
  | seq p q hp hq =>
    intro k k' o g n h ha
    simp only [stuck] at h
    split at h
    · rename_i k1 b h1
      obtain ⟨g1, e1, a1⟩ := hp _ _ _ g n h1 ha
      obtain ⟨g2, e2, a2⟩ := hq _ _ _ g1 n h a1
      exact ⟨g2, by simp only [exec, e1, run_bind_ok, e2], a2⟩
    · rename_i hne
      obtain ⟨g1, e1, a1⟩ := hp _ _ _ g n h ha
      refine ⟨g1, ?_, a1⟩
      simp only [exec, e1, run_bind_ok]
      cases o with
      | val b => exact absurd h (hne _ _)
      | brk => rfl
      | cont => rfl
      | ret b => rfl
  | ite c p q hc hp hq =>
    intro k k' o g n h ha
    simp only [stuck] at h
    split at h
    · rename_i k1 h1
      obtain ⟨g1, e1, a1⟩ := hc _ _ _ g n h1 ha
      obtain ⟨g2, e2, a2⟩ := hp _ _ _ g1 n h a1
      exact ⟨g2, by simp only [exec, e1, run_bind_ok, e2], a2⟩
    · rename_i k1 h1
      obtain ⟨g1, e1, a1⟩ := hc _ _ _ g n h1 ha
      obtain ⟨g2, e2, a2⟩ := hq _ _ _ g1 n h a1
      exact ⟨g2, by simp only [exec, e1, run_bind_ok, e2], a2⟩
    · rename_i ht hf
      obtain ⟨g1, e1, a1⟩ := hc _ _ _ g n h ha
      refine ⟨g1, ?_, a1⟩
      simp only [exec, e1, run_bind_ok]
      cases o with
      | val b => cases b with
        | true => exact absurd h (ht _)
        | false => exact absurd h (hf _)
      | brk => rfl
      | cont => rfl
      | ret b => rfl
  | loop g0 peel c p hc hp =>
    intro k k' o g n h ha
    simp only [stuck] at h
    split at h
    · rename_i k1 h1
      cases h
      obtain ⟨g1, e1, a1⟩ := hc _ _ _ _ n h1 (Agree.set (st := ⟨lex, g, n⟩) ha g0 lex.pos)
      refine ⟨g1, ?_, a1⟩
      simp only [exec, turns]
      rw [show (LSt.set ⟨lex, g, n⟩ g0 lex.pos) = ⟨lex, (LSt.set ⟨lex, g, n⟩ g0 lex.pos).regs, n⟩ from rfl, e1]
      rfl
    · cases h
  | ret b => intro k k' o g n h ha; cases h; exact ⟨g, rfl, ha⟩
  | cont => intro k k' o g n h ha; cases h; exact ⟨g, rfl, ha⟩
  | scope lo p hp =>
    intro k k' o g n h ha
    simp only [stuck] at h
    split at h
    · rename_i h1
      cases h
      obtain ⟨g1, e1, a1⟩ := hp _ _ _ g n h1 ha
      exact ⟨g1, by simp only [exec, e1, run_bind_ok]; rfl, a1⟩
    · rename_i h1
      cases h
      obtain ⟨g1, e1, a1⟩ := hp _ _ _ g n h1 ha
      exact ⟨g1, by simp only [exec, e1, run_bind_ok]; rfl, a1⟩
    · cases h
  | _ => intro k k' o g n h ha; cases h

theorem turns_stuck {src : Source} {lex : Lex} (hp : lex.peek src = .ok (lex, none)) (hm : lex.notAtEnd src = true)
    (hg : ∀ v, v ≠ lex.pos → lex.advanceIfDeadLock src v = .ok lex) (u : Uni) (ω : Nat → Nat) {body : Code} {G : Nat}
    {k k' : List (Nat × Nat)} {b : Bool} (hs : stuck lex.pos body ((G, lex.pos) :: k) = some (k', .val b))
    (hk : ∀ x ∈ k, k.lookup x.1 = some x.2 → k'.lookup x.1 = some x.2) (n : Nat) (g : Nat → Nat) (m : Nat) (ha : Agree k g) :
    turns (exec src u ω .more) (exec src u ω body) G n ⟨lex, g, m⟩ = .error .spin := by
  induction n generalizing g with
  | zero => rfl
  | succ n ih =>
    obtain ⟨g', e, a⟩ := stuck_sound hp hm hg u ω body _ _ _ _ m hs (Agree.set (st := ⟨lex, g, m⟩) ha G lex.pos)
    have a' : Agree k g' := by
      intro q v hq
      have hmem := lookup_mem hq
      exact a q v (hk (q, v) hmem hq)
    simp only [turns]
    rw [show (LSt.set ⟨lex, g, m⟩ G lex.pos) = ⟨lex, (LSt.set ⟨lex, g, m⟩ G lex.pos).regs, m⟩ from rfl]
    simp only [exec, hm, run_bind_ok, pure, Except.pure]
    rw [e]
    simp only [run_bind_ok]
    exact ih g' a'

def seen (x : Run (LSt × Out)) : Run (Lex × Nat × Nat × Out) := x.map fun (st, o) => (st.lex, st.regs 0, st.asked, o)

theorem seen_ok {x : Run (LSt × Out)} {lex : Lex} {a k : Nat} {o : Out} (h : seen x = .ok (lex, a, k, o)) :
    ∃ g, x = .ok (⟨lex, g, k⟩, o) ∧ g 0 = a := by
  cases x with
  | error e => cases h
  | ok y =>
    obtain ⟨⟨lex', g, k'⟩, o'⟩ := y
    simp only [seen, Except.map, Except.ok.injEq, Prod.mk.injEq] at h
    obtain ⟨rfl, h2, rfl, rfl⟩ := h
    exact ⟨g, rfl, h2⟩

theorem cut_dead (v : Nat) (h : v ≠ cutLex.pos) : cutLex.advanceIfDeadLock (strSource cutText) v = .ok cutLex := by
  unfold Lex.advanceIfDeadLock
  rw [if_neg (fun e => h e.symm)]
  rfl

theorem start_new : Lex.new (strSource cutText) = .ok cutStart := by decide +kernel
theorem start_more : cutStart.notAtEnd (strSource cutText) = true := by decide +kernel

/-- A lexer whose first turn ends inside the character and whose later turns do nothing has no end. -/
theorem endless {u : Uni} {ω : Nat → Nat} {body : Code} {G : Nat} {k k' : List (Nat × Nat)} {b : Bool} (hk0 : k = [(0, 0)] ∨ k = [])
    (h1 : seen (exec (strSource cutText) u ω body ⟨cutStart, fun q => if q = G then cutStart.pos else 0, 0⟩) = .ok (cutLex, 0, 0, .cont))
    (hs : stuck cutLex.pos body ((G, cutLex.pos) :: k) = some (k', .val b)) (hk : ∀ x ∈ k, k.lookup x.1 = some x.2 → k'.lookup x.1 = some x.2)
    (n : Nat) {lex : Lex} (hl : Lex.new (strSource cutText) = .ok lex) :
    turns (exec (strSource cutText) u ω .more) (exec (strSource cutText) u ω body) G n ⟨lex, fun _ => 0, 0⟩ = .error .spin := by
  rw [start_new] at hl
  cases hl
  cases n with
  | zero => rfl
  | succ n =>
    obtain ⟨g, e, a⟩ := seen_ok h1
    have ha : Agree k g := by
      rcases hk0 with rfl | rfl
      · intro q v hq
        simp only [List.lookup_cons, List.lookup_nil] at hq
        split at hq
        · rename_i h; simp at h; cases hq; rw [h, a]
        · cases hq
      · intro q v hq; cases hq
    simp only [turns, LSt.set]
    simp only [exec, start_more, run_bind_ok, pure, Except.pure]
    rw [e]
    simp only [run_bind_ok]
    exact turns_stuck cut_peek cut_more cut_dead u ω hs hk n g 0 ha

end Oaks.HandLex
