import Verif.Proofs.LexSweep

/-! Every word of a form becomes one token. -/
namespace Oaks.Lc
open Spec

/-- One turn of the loop makes one token of every word of the form that has one of the blanks after it. -/
def _root_.Oaks.Spec.Form.one (f : Form) (m : Parts) (whole : Bool) (ds : Chars) : Bool :=
  match sweep whole m.c { f with post := f.post ++ [ds] } ⟨.pre 0, [(m.g, some (.pos (.pre 0)))], []⟩ with
  | some (a, .val true) =>
    match sweep whole m.p { f with post := f.post ++ [ds] } a with
    | some (a, .val _) => decide (a.pt = .post f.post.length) && decide (a.toks = [(.pre 0, .post f.post.length)])
    | some (a, .cont) => decide (a.pt = .post f.post.length) && decide (a.toks = [(.pre 0, .post f.post.length)])
    | _ => false
  | _ => false

theorem fits_append {x y : List Chars} {a b : Str} (h1 : Suits x a) (h2 : Suits y b) : Suits (x ++ y) (a ++ b) := by
  induction x generalizing a with
  | nil => cases a with
    | nil => exact h2
    | cons _ _ => cases h1
  | cons s x ih => cases a with
    | nil => cases h1
    | cons c a => exact ⟨h1.1, ih h1.2⟩

theorem one_right {f : Form} {m : Parts} {whole : Bool} {ds : Chars} (h : f.one m whole ds = true) {d : Char} (hd : inR ds d) {w : Str} (hw : f.Has w) (hne : w ≠ []) :
    m.cutTo whole w.length (w ++ [d]) false w.length = some [(0, w.length)] := by
  obtain ⟨a, x, b, rfl, h1, h2, h3⟩ := hw
  have hpos : 0 < (a ++ x ++ b).length := List.length_pos_of_ne_nil hne
  have hfit : Fit { f with post := f.post ++ [ds] } (a ++ x ++ b ++ [d]) 0 x.length :=
    ⟨[], a, x, b ++ [d], [], by simp, rfl, h1, h2, rfl, fits_append h3 ⟨hd, trivial⟩⟩
  have hrel : Rel { f with post := f.post ++ [ds] } 0 x.length (fun _ => 0) []
      ⟨.pre 0, [(m.g, some (.pos (.pre 0)))], []⟩ ⟨0, [(m.g, some (.pos 0))], []⟩ := by
    have h0 : Rel { f with post := f.post ++ [ds] } 0 x.length (fun _ => 0) [] ⟨.pre 0, [], []⟩ ⟨0, [], []⟩ :=
      ⟨rfl, fun q => trivial, rfl⟩
    exact h0.set m.g (v := some (.pos (.pre 0))) (w := some (.pos 0)) rfl
  have hlen : f.pre.length + x.length + f.post.length = (a ++ x ++ b).length := by
    have g1 := fits_length h1
    have g3 := fits_length h3
    simp only [List.length_append]
    omega
  have key : ∀ (s : Sw) (t : Tr), Rel { f with post := f.post ++ [ds] } 0 x.length (fun _ => 0) [] s t →
      (decide (s.pt = .post f.post.length) && decide (s.toks = [(.pre 0, .post f.post.length)])) = true →
      t.i = (a ++ x ++ b).length ∧ t.toks = [(0, (a ++ x ++ b).length)] := by
    intro s t hr hs
    simp only [Bool.and_eq_true, decide_eq_true_eq] at hs
    have e1 := hr.i
    have e2 := hr.toks
    rw [hs.1] at e1
    rw [hs.2] at e2
    simp only [Form.at] at e1 e2
    refine ⟨by rw [e1, ← hlen]; omega, ?_⟩
    rw [e2]
    simp only [List.nil_append, List.map_cons, List.map_nil, Form.at, ← hlen]
    simp
  have hturn : ∃ t, m.turn (a ++ x ++ b ++ [d]) false whole = some t ∧ t.i = (a ++ x ++ b).length ∧ t.toks = [(0, (a ++ x ++ b).length)] := by
    unfold Form.one at h
    unfold Parts.turn
    split at h
    · rename_i s1 hs1
      obtain ⟨t1, e1, r1⟩ := sweep_right whole m.c hfit hrel hs1
      simp only [e1]
      split at h
      · rename_i s2 v hs2
        obtain ⟨t2, e2, r2⟩ := sweep_right whole m.p hfit r1 hs2
        simp only [e2]
        exact ⟨t2, rfl, key _ _ r2 h⟩
      · rename_i s2 hs2
        obtain ⟨t2, e2, r2⟩ := sweep_right whole m.p hfit r1 hs2
        simp only [e2]
        exact ⟨t2, rfl, key _ _ r2 h⟩
      · cases h
    · cases h
  obtain ⟨t, e, hi, ht⟩ := hturn
  obtain ⟨n, hn⟩ : ∃ n, (a ++ x ++ b).length = n + 1 := ⟨_, (Nat.sub_add_cancel hpos).symm⟩
  rw [show m.cutTo whole (a ++ x ++ b).length = m.cutTo whole (n + 1) by rw [hn], Parts.cutTo, e]
  simp only [hi, ht]
  rw [if_neg (by omega), if_pos trivial]

/-- One turn of the loop makes one token of the blank that has a character of the set after it. -/
def Parts.blank (m : Parts) (whole : Bool) (d : Char) (s : Chars) : Bool :=
  match sweep whole m.c ⟨[[(d.toNat, d.toNat)], s], [], []⟩ ⟨.pre 0, [(m.g, some (.pos (.pre 0)))], []⟩ with
  | some (a, .val true) =>
    match sweep whole m.p ⟨[[(d.toNat, d.toNat)], s], [], []⟩ a with
    | some (a, .val _) => decide (a.pt = .pre 1) && decide (a.toks = [(.pre 0, .pre 1)])
    | some (a, .cont) => decide (a.pt = .pre 1) && decide (a.toks = [(.pre 0, .pre 1)])
    | _ => false
  | _ => false

theorem blank_right {m : Parts} {whole : Bool} {d c : Char} {s : Chars} (h : m.blank whole d s = true) (hc : inR s c) :
    m.cutTo whole 1 [d, c] false 1 = some [(0, 1)] := by
  have hfit : Fit ⟨[[(d.toNat, d.toNat)], s], [], []⟩ [d, c] 0 0 :=
    ⟨[], [d, c], [], [], [], by simp, rfl, ⟨⟨_, List.mem_singleton_self _, Nat.le_refl _, Nat.le_refl _⟩, hc, trivial⟩, by simp, rfl, trivial⟩
  have hrel : Rel ⟨[[(d.toNat, d.toNat)], s], [], []⟩ 0 0 (fun _ => 0) [] ⟨.pre 0, [(m.g, some (.pos (.pre 0)))], []⟩ ⟨0, [(m.g, some (.pos 0))], []⟩ := by
    have h0 : Rel ⟨[[(d.toNat, d.toNat)], s], [], []⟩ 0 0 (fun _ => 0) [] ⟨.pre 0, [], []⟩ ⟨0, [], []⟩ := ⟨rfl, fun q => trivial, rfl⟩
    exact h0.set m.g (v := some (.pos (.pre 0))) (w := some (.pos 0)) rfl
  have key : ∀ (a : Sw) (t : Tr), Rel ⟨[[(d.toNat, d.toNat)], s], [], []⟩ 0 0 (fun _ => 0) [] a t →
      (decide (a.pt = .pre 1) && decide (a.toks = [(.pre 0, .pre 1)])) = true → t.i = 1 ∧ t.toks = [(0, 1)] := by
    intro a t hr hs
    simp only [Bool.and_eq_true, decide_eq_true_eq] at hs
    have e1 := hr.i
    have e2 := hr.toks
    rw [hs.1] at e1
    rw [hs.2] at e2
    exact ⟨e1, e2⟩
  have hturn : ∃ t, m.turn [d, c] false whole = some t ∧ t.i = 1 ∧ t.toks = [(0, 1)] := by
    unfold Parts.blank at h
    unfold Parts.turn
    split at h
    · rename_i s1 hs1
      obtain ⟨t1, e1, r1⟩ := sweep_right whole m.c hfit hrel hs1
      simp only [e1]
      split at h
      · rename_i s2 v hs2
        obtain ⟨t2, e2, r2⟩ := sweep_right whole m.p hfit r1 hs2
        simp only [e2]
        exact ⟨t2, rfl, key _ _ r2 h⟩
      · rename_i s2 hs2
        obtain ⟨t2, e2, r2⟩ := sweep_right whole m.p hfit r1 hs2
        simp only [e2]
        exact ⟨t2, rfl, key _ _ r2 h⟩
      · cases h
    · cases h
  obtain ⟨t, e, hi, ht⟩ := hturn
  rw [Parts.cutTo, e]
  simp only [hi, ht]
  rw [if_neg (by omega), if_pos trivial]

end Oaks.Lc
