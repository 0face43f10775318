import Verif.Proofs.LexCodeSteps

/-! The analysis is right: a lexer that passes ends on every text, with tokens as asked. -/
namespace Oaks.Lc
open Spec

/-- What the analysis says of one way to end. -/
def Outs.pick (o : Outs) : Out → Option Abs
  | .val true => o.t
  | .val false => o.f
  | .brk => o.b
  | .cont => o.c
  | .ret true => o.x
  | .ret false => o.y

section
variable {u : Uni} {src : Source} {t : Str} {m : Mode} {ω : Nat → Nat}

/-- A description that holds of the state. -/
def Holds (u : Uni) (src : Source) (t : Str) (m : Mode) (x : Option Abs) (st : LSt) : Prop :=
  ∃ a l r toks, x = some a ∧ Ok u src t m a st l r toks

theorem Holds.left {x y : Option Abs} {st : LSt} (h : Holds u src t m x st) : Holds u src t m (joinO x y) st := by
  obtain ⟨a, l, r, toks, h1, h2⟩ := h
  obtain ⟨b, h3, h4⟩ := joinO_left (y := y) ⟨a, h1, h2⟩
  exact ⟨b, l, r, toks, h3, h4⟩

theorem Holds.right {x y : Option Abs} {st : LSt} (h : Holds u src t m y st) : Holds u src t m (joinO x y) st := by
  obtain ⟨a, l, r, toks, h1, h2⟩ := h
  obtain ⟨b, h3, h4⟩ := joinO_right (x := x) ⟨a, h1, h2⟩
  exact ⟨b, l, r, toks, h3, h4⟩

theorem Holds.map {x : Option Abs} {st : LSt} {f : Abs → Abs} (hf : ∀ a l r toks, Ok u src t m a st l r toks → Ok u src t m (f a) st l r toks)
    (h : Holds u src t m x st) : Holds u src t m (x.map f) st := by
  obtain ⟨a, l, r, toks, rfl, h2⟩ := h
  exact ⟨f a, l, r, toks, rfl, hf _ _ _ _ h2⟩

theorem pick_left {p q : Outs} {o : Out} {st : LSt} (h : Holds u src t m (p.pick o) st) : Holds u src t m ((p.join q).pick o) st := by
  cases o with
  | val b => cases b <;> exact h.left
  | brk => exact h.left
  | cont => exact h.left
  | ret b => cases b <;> exact h.left

theorem pick_right {p q : Outs} {o : Out} {st : LSt} (h : Holds u src t m (q.pick o) st) : Holds u src t m ((p.join q).pick o) st := by
  cases o with
  | val b => cases b <;> exact h.right
  | brk => exact h.right
  | cont => exact h.right
  | ret b => cases b <;> exact h.right

/-- A program does what its analysis says. -/
def Right (u : Uni) (src : Source) (t : Str) (m : Mode) (wr : Nat → Bool) (ex : LSt → Run (LSt × Out)) (ch : Abs → Option Outs) : Prop :=
  ∀ a o st l r toks, ch a = some o → Ok u src t m a st l r toks →
    ∃ st' out, ex st = .ok (st', out) ∧ Holds u src t m (o.pick out) st' ∧ ∀ q, wr q = false → st'.regs q = st.regs q

theorem turn_right {wc wp : Nat → Bool} {ec ep : LSt → Run (LSt × Out)} {cc cp : Abs → Option Outs}
    (hc : Right u src t m wc ec cc) (hp : Right u src t m wp ep cp) {g : Nat} (gc : wc g = false) (gp : wp g = false)
    {a : Abs} {back : Option Abs} {o : Outs} (ht : turnAbs cc cp g a = some (back, o)) {st : LSt} {l r : Str} {toks : List Tok}
    (h : Ok u src t m a st l r toks) :
    (∃ st' out, (∀ n, turns ec ep g (n + 1) st = .ok (st', out)) ∧ Holds u src t m (o.pick out) st' ∧
      ∀ q, q ≠ g → wc q = false → wp q = false → st'.regs q = st.regs q) ∨
    (∃ st', (∀ n, turns ec ep g (n + 1) st = turns ec ep g n st') ∧ Holds u src t m back st' ∧ st.lex.pos < st'.lex.pos ∧
      ∀ q, q ≠ g → wc q = false → wp q = false → st'.regs q = st.regs q) := by
  unfold turnAbs at ht
  split at ht
  · cases ht
  rename_i c hcc
  split at ht
  · cases ht
  rename_i hbc
  split at ht
  · cases ht
  rename_i b hbb
  simp only [] at ht
  split at ht
  · rename_i hprog
    cases ht
    have hm := h.mark g
    have hm0 : ∀ q, q ≠ g → (st.set g st.lex.pos).regs q = st.regs q := fun q hq => by simp [LSt.set, hq]
    obtain ⟨st1, o1, e1, e2, e3⟩ := hc _ _ _ _ _ _ hcc hm
    have fg : ∀ {x : Option Abs} {st : LSt}, Holds u src t m x st → Holds u src t m (x.map (·.forget g)) st :=
      fun h => h.map (fun a l r toks h => h.drop g)
    cases o1 with
    | brk =>
      obtain ⟨a', _, _, _, hx, _⟩ := e2
      simp only [Outs.pick] at hx
      simp [hx] at hbc
    | cont =>
      obtain ⟨a', _, _, _, hx, _⟩ := e2
      simp only [Outs.pick] at hx
      simp [hx] at hbc
    | ret v =>
      left
      refine ⟨st1, .ret v, fun n => by simp only [turns, e1, run_bind_ok]; rfl, ?_, fun q hq hw _ => by rw [e3 q hw, hm0 q hq]⟩
      cases v with
      | true => exact fg (Holds.left e2)
      | false => exact fg (Holds.left e2)
    | val v =>
      cases v with
      | false =>
        left
        exact ⟨st1, .val true, fun n => by simp only [turns, e1, run_bind_ok]; rfl, fg (Holds.left e2),
          fun q hq hw _ => by rw [e3 q hw, hm0 q hq]⟩
      | true =>
        obtain ⟨a1, l1, r1, toks1, hx, h1⟩ := e2
        simp only [Outs.pick] at hx
        rw [hx] at hbb
        obtain ⟨st2, o2, f1, f2, f3⟩ := hp _ _ _ _ _ _ hbb h1
        have hfr : ∀ q, q ≠ g → wc q = false → wp q = false → st2.regs q = st.regs q :=
          fun q hq h1 h2 => by rw [f3 q h2, e3 q h1, hm0 q hq]
        have hg : st2.regs g = st.lex.pos := by rw [f3 g gp, e3 g gc, set_same]
        have more : Holds u src t m (joinO (joinO b.t b.f) b.c) st2 → st.lex.pos < st2.lex.pos := by
          intro hB
          obtain ⟨a2, l2, r2, toks2, hx2, h2⟩ := hB
          rw [hx2] at hprog
          have := h2.pos.lt g hprog
          rw [hg] at this
          rw [h2.lex.pos]; exact this
        cases o2 with
        | brk =>
          left
          exact ⟨st2, .val true, fun n => by simp only [turns, e1, f1, run_bind_ok]; rfl, fg (Holds.right f2), hfr⟩
        | ret v =>
          left
          refine ⟨st2, .ret v, fun n => by simp only [turns, e1, f1, run_bind_ok]; rfl, ?_, hfr⟩
          cases v with
          | true => exact fg (Holds.right f2)
          | false => exact fg (Holds.right f2)
        | cont =>
          right
          have hB : Holds u src t m (joinO (joinO b.t b.f) b.c) st2 := Holds.right f2
          exact ⟨st2, fun n => by simp only [turns, e1, f1, run_bind_ok], fg hB, more hB, hfr⟩
        | val v =>
          right
          have hB : Holds u src t m (joinO (joinO b.t b.f) b.c) st2 := by
            cases v with
            | true => exact Holds.left (Holds.left f2)
            | false => exact Holds.left (Holds.right f2)
          exact ⟨st2, fun n => by simp only [turns, e1, f1, run_bind_ok], fg hB, more hB, hfr⟩
  · cases ht

theorem fix_right {turn : Abs → Option (Option Abs × Outs)} {k : Nat} {a : Abs} {o : Outs} (hf : fixAbs turn k a = some o)
    {st : LSt} {l r : Str} {toks : List Tok} (h : Ok u src t m a st l r toks) :
    ∃ inv back, turn inv = some (back, o) ∧ Ok u src t m inv st l r toks ∧
      ∀ st', Holds u src t m back st' → Holds u src t m (some inv) st' := by
  induction k generalizing a with
  | zero => cases hf
  | succ k ih =>
    unfold fixAbs at hf
    split at hf
    · cases hf
    · rename_i o' ht
      cases hf
      exact ⟨a, none, ht, h, fun st' ⟨_, _, _, _, hx, _⟩ => by cases hx⟩
    · rename_i b o' ht
      simp only [] at hf
      split at hf
      · rename_i he
        cases hf
        refine ⟨a, some b, ht, h, fun st' hb => ?_⟩
        have := Holds.right (x := some a) hb
        simp only [joinO] at this
        rwa [he] at this
      · exact ih hf h.left

theorem loop_right (hs : Supplied src t) {wc wp : Nat → Bool} {ec ep : LSt → Run (LSt × Out)} {cc cp : Abs → Option Outs}
    (hc : Right u src t m wc ec cc) (hp : Right u src t m wp ep cp) {g : Nat} (gc : wc g = false) (gp : wp g = false)
    {a : Abs} {o : Outs} (hf : fixAbs (turnAbs cc cp g) 30 a = some o) {st : LSt} {l r : Str} {toks : List Tok}
    (h : Ok u src t m a st l r toks) (n : Nat) (hn : src.length < st.lex.pos + n) :
    ∃ st' out, turns ec ep g n st = .ok (st', out) ∧ Holds u src t m (o.pick out) st' ∧
      ∀ q, q ≠ g → wc q = false → wp q = false → st'.regs q = st.regs q := by
  obtain ⟨inv, back, ht, hi, hback⟩ := fix_right hf h
  clear hf h
  induction n generalizing st l r toks with
  | zero =>
    have := hi.lex.len hs
    rw [hi.lex.pos] at hn
    omega
  | succ n ih =>
    rcases turn_right hc hp gc gp ht hi with ⟨st', out, h1, h2, h3⟩ | ⟨st', h1, h2, h3, h4⟩
    · exact ⟨st', out, h1 n, h2, h3⟩
    · obtain ⟨_, l', r', toks', hx, h5⟩ := hback st' h2
      cases hx
      obtain ⟨st2, out, g1, g2, g3⟩ := ih (by omega) h5
      exact ⟨st2, out, by rw [h1 n, g1], g2, fun q a b c => by rw [g3 q a b c, h4 q a b c]⟩

theorem comment_shape {cfg : CommentCfg} {pos : Nat} {r m : Str} {b : Bool} {new : List Tok} (h : CommentOutcome cfg 0 0 pos r m b new) :
    (b = true ∧ m ≠ [] ∧ new = [⟨0, pos, pos + blen m⟩]) ∨ (b = false ∧ m = [] ∧ new = []) := by
  cases h with
  | line h1 h2 =>
    obtain ⟨body, rest, _, rfl, _⟩ := h2
    exact .inl ⟨rfl, by simp [h1], rfl⟩
  | block _ h1 _ _ h2 =>
    obtain ⟨after, h3, ⟨body, rest, _, rfl, _⟩ | ⟨_, rfl⟩⟩ := h2
    · exact .inl ⟨rfl, by simp [h1], rfl⟩
    · exact .inl ⟨rfl, by rw [h3]; simp [h1], rfl⟩
  | nested _ h1 _ _ h2 =>
    obtain ⟨after, ps, h3, _, ⟨inside, rest, _, rfl, _⟩ | ⟨_, rfl⟩⟩ := h2
    · exact .inl ⟨rfl, by simp [h1], rfl⟩
    · exact .inl ⟨rfl, by rw [h3]; simp [h1], rfl⟩
  | unclosable _ h1 h2 _ =>
    obtain ⟨x, rfl⟩ := h2
    exact .inl ⟨rfl, by simp [h1], rfl⟩
  | absent => exact .inr ⟨rfl, rfl, rfl⟩

theorem check_right (hs : Supplied src t) (p : Code) : Right u src t m (fun q => p.writes q) (exec src u ω p) (check m p) := by
  have frame : ∀ (st : LSt) (q n i : Nat), (q == i) = false → (st.set q n).regs i = st.regs i := by
    intro st q n i hi
    have : i ≠ q := fun h => by simp [h] at hi
    simp [LSt.set, this]
  induction p with
  | val b =>
    intro a o st l r toks ho h
    cases b <;> (cases ho; exact ⟨st, _, rfl, ⟨a, l, r, toks, rfl, h⟩, fun _ _ => rfl⟩)
  | any =>
    intro a o st l r toks ho h
    cases ho
    refine ⟨_, _, rfl, ⟨a, l, r, toks, ?_, h.asked _⟩, fun _ _ => rfl⟩
    cases (ω st.asked != 0) <;> rfl
  | ask q f =>
    intro a o st l r toks ho h
    cases ho
    refine ⟨_, _, rfl, ⟨a, l, r, toks, ?_, h⟩, fun _ _ => rfl⟩
    cases f (st.regs q) <;> rfl
  | more =>
    intro a o st l r toks ho h
    cases ho
    refine ⟨st, _, rfl, ?_, fun _ _ => rfl⟩
    rw [h.lex.notAtEnd hs]
    cases r with
    | nil =>
      obtain ⟨b, h1, h2⟩ := h.refine (k := 0) (x := 1) (by rw [show ahead u [] 0 = 0 from rfl, tb_one]; rfl)
      exact ⟨b, l, [], toks, h1, h2⟩
    | cons c r =>
      obtain ⟨b, h1, h2⟩ := h.refine (k := 0) (x := minus top 1) (by
        rw [tb_minus, show top.testBit (ahead u (c :: r) 0) = true from top_atom _, tb_one]
        have : ahead u (c :: r) 0 ≠ 0 := fun h => by have := ahead_zero.mp h; simp at this
        simp; omega)
      exact ⟨b, l, c :: r, toks, h1, h2⟩
  | look q =>
    intro a o st l r toks ho h
    cases ho
    obtain ⟨lex, e1, e2⟩ := peek_at hs h.lex
    refine ⟨{ st with lex := lex }.set q (code r.head?), .val true, by simp only [exec, e1, run_bind_ok]; rfl, ⟨_, l, r, toks, rfl, ?_⟩, fun i hi => frame _ _ _ _ hi⟩
    have h1 := (h.move e2).forget q (code r.head?)
    refine ⟨h1.lex, h1.pos, h1.here, h1.regs, ?_, h1.flags, h1.toks⟩
    intro x hx
    rcases List.mem_cons.mp hx with rfl | hx
    · exact ⟨r.head?, set_same _ _ _, top_atom _, by rintro i hi; cases hi; exact List.head?_eq_getElem?⟩
    · exact h1.chars x hx
  | lookN q n =>
    intro a o st l r toks ho h
    simp only [check] at ho
    split at ho
    · cases ho
    rename_i k hk
    cases ho
    obtain ⟨s, r', e1, e2, e3, e4⟩ := prefix_sound hk (h.forget q 0).pos.nxt
    subst e1
    have e5 := peekAfter_at hs h.lex
    rw [e3] at e5
    refine ⟨_, _, by simp only [exec, e5, run_bind_ok]; rfl, ⟨_, l, s ++ r', toks, rfl, ?_⟩, fun i hi => frame _ _ _ _ hi⟩
    have h1 := h.forget q (code r'.head?)
    refine ⟨h1.lex, h1.pos, h1.here, h1.regs, ?_, h1.flags, h1.toks⟩
    intro x hx
    rcases List.mem_cons.mp hx with rfl | hx
    · refine ⟨r'.head?, set_same _ _ _, top_atom _, ?_⟩
      rintro i hi
      cases hi
      rw [← e2, List.getElem?_append_right (Nat.le_refl _), Nat.sub_self, List.head?_eq_getElem?]
    · exact h1.chars x hx
  | havoc q =>
    intro a o st l r toks ho h
    cases ho
    exact ⟨_, _, rfl, ⟨_, l, r, toks, rfl, (h.asked _).forget q _⟩, fun i hi => frame _ _ _ _ hi⟩
  | comp q p f =>
    intro a o st l r toks ho h
    cases ho
    exact ⟨_, _, rfl, ⟨_, l, r, toks, rfl, h.forget q _⟩, fun i hi => frame _ _ _ _ hi⟩
  | put q n =>
    intro a o st l r toks ho h
    cases ho
    refine ⟨_, _, rfl, ⟨_, l, r, toks, rfl, ?_⟩, fun i hi => frame _ _ _ _ hi⟩
    have h1 := h.forget q n
    refine ⟨h1.lex, h1.pos, h1.here, h1.regs, h1.chars, ?_, h1.toks⟩
    intro x hx
    rcases List.mem_cons.mp hx with rfl | hx
    · by_cases hn : n = 0
      · simp only [hn, if_true, set_same]
        exact ⟨fun _ => trivial, fun h => absurd rfl h⟩
      · simp only [hn, if_false]
        exact ⟨by simp, fun _ i hi => h1.pos.lt i hi⟩
    · exact h1.flags x hx
  | putc q c =>
    intro a o st l r toks ho h
    cases ho
    refine ⟨_, _, rfl, ⟨_, l, r, toks, rfl, ?_⟩, fun i hi => frame _ _ _ _ hi⟩
    have h1 := h.forget q (code (some c))
    refine ⟨h1.lex, h1.pos, h1.here, h1.regs, ?_, h1.flags, h1.toks⟩
    intro x hx
    rcases List.mem_cons.mp hx with rfl | hx
    · exact ⟨some c, set_same _ _ _, sortOf_sound c, by simp⟩
    · exact h1.chars x hx
  | flag q =>
    intro a o st l r toks ho h
    refine ⟨st, .val (st.regs q != 0), rfl, ?_, fun _ _ => rfl⟩
    simp only [check] at ho
    split at ho
    · cases ho
      refine ⟨a, l, r, toks, ?_, h⟩
      cases (st.regs q != 0) <;> rfl
    · rename_i z i hl
      cases ho
      obtain ⟨g1, g2⟩ := h.flags _ (lookup_mem hl)
      simp only [] at g1 g2
      by_cases hz : st.regs q = 0
      · rw [show (st.regs q != 0) = false by simp [hz]]
        refine ⟨_, l, r, toks, rfl, h.lex, h.pos, h.here, h.regs, h.chars, ?_, h.toks⟩
        intro x hx
        rcases List.mem_cons.mp hx with rfl | hx
        · exact ⟨fun _ => hz, fun hne => absurd hz hne⟩
        · exact h.flags x (List.mem_filter.mp hx).1
      · rw [show (st.regs q != 0) = true by simp [hz]]
        cases z with
        | true => exact absurd (g1 rfl) hz
        | false =>
          refine ⟨_, l, r, toks, rfl, h.lex, ⟨h.pos.nxt, h.pos.e, h.pos.o, ?_, ?_⟩, h.here, h.regs, h.chars, h.flags, h.toks⟩
          · intro j hj
            simp only [] at hj
            rw [Nat.testBit_or, Bool.or_eq_true] at hj
            exact hj.elim (h.pos.le j) (fun hj => Nat.le_of_lt (g2 hz j hj))
          · intro j hj
            simp only [] at hj
            rw [Nat.testBit_or, Bool.or_eq_true] at hj
            exact hj.elim (h.pos.lt j) (g2 hz j)
  | copy q p =>
    intro a o st l r toks ho h
    cases ho
    exact ⟨_, _, rfl, ⟨_, l, r, toks, rfl, h.copy q p⟩, fun i hi => frame _ _ _ _ hi⟩
  | chr q x =>
    intro a o st l r toks ho h
    cases ho
    obtain ⟨v, hx⟩ : ∃ v, (match uncode (st.regs q) with
      | none => false
      | some c => x.has u c) = v := ⟨_, rfl⟩
    refine ⟨st, .val v, by simp only [exec]; rw [← hx]; rfl, ?_, fun _ _ => rfl⟩
    cases v with
    | true =>
      obtain ⟨b, h1, h2⟩ := h.setChar (q := q) (x := x.up) (by
        intro c hc
        rw [hc, uncode_code] at hx
        cases c with
        | none => cases hx
        | some c => exact (sorts_sound x c).1 hx)
      exact ⟨b, l, r, toks, h1, h2⟩
    | false =>
      obtain ⟨b, h1, h2⟩ := h.setChar (q := q) (x := minus top x.lo) (by
        intro c hc
        rw [hc, uncode_code] at hx
        rw [tb_minus, top_atom, Bool.true_and, Bool.not_eq_true']
        cases c with
        | none => exact (lo_none x).1
        | some c =>
          cases hy : x.lo.testBit (atom u (some c)) with
          | false => rfl
          | true => simp only [(sorts_sound x c).2 hy] at hx; cases hx)
      exact ⟨b, l, r, toks, h1, h2⟩
  | same p q =>
    intro a o st l r toks ho h
    refine ⟨st, _, rfl, ?_, fun _ _ => rfl⟩
    simp only [check] at ho
    split at ho
    · rename_i k x k' x' hp hq
      cases ho
      cases he : (st.regs p == st.regs q) with
      | false => exact ⟨a, l, r, toks, rfl, h⟩
      | true =>
        simp at he
        obtain ⟨c, g1, g2, _⟩ := h.eff (lookup_mem hp)
        obtain ⟨d, f1, f2, _⟩ := h.eff (lookup_mem hq)
        have : c = d := code_inj (by rw [← g1, ← f1, he])
        subst this
        have hz : (a.eff k x &&& a.eff k' x').testBit (atom u c) = true := by rw [Nat.testBit_and, g2, f2]; rfl
        obtain ⟨b, h1, h2⟩ := h.setChar (q := p) (x := a.eff k x &&& a.eff k' x') (by
          intro d hd
          have : d = c := code_inj (by rw [← hd, g1])
          rw [this]; exact hz)
        obtain ⟨b', h3, h4⟩ := h2.setChar (q := q) (x := a.eff k x &&& a.eff k' x') (by
          intro d hd
          have : d = c := code_inj (by rw [← hd, f1])
          rw [this]; exact hz)
        exact ⟨b', l, r, toks, by simp only [Outs.pick, h1, Option.bind_some]; exact h3, h4⟩
    · cases ho
      refine ⟨a, l, r, toks, ?_, h⟩
      cases (st.regs p == st.regs q) <;> rfl
  | starts s =>
    intro a o st l r toks ho h
    cases ho
    obtain ⟨lex, e1, e2⟩ := startsWith_at hs h.lex s
    refine ⟨{ st with lex := lex }, .val (s.isPrefixOf r), by simp only [exec, e1, run_bind_ok]; rfl, ?_, fun _ _ => rfl⟩
    cases hp : s.isPrefixOf r with
    | true =>
      obtain ⟨b, h1, h2⟩ := (h.move e2).refineStr (s := s) (k := 0) (by simpa using hp)
      exact ⟨b, l, r, toks, h1, h2⟩
    | false =>
      obtain ⟨b, h1, h2⟩ := (h.move e2).notStarts hp
      exact ⟨b, l, r, toks, h1, h2⟩
  | restStarts s =>
    intro a o st l r toks ho h
    cases ho
    obtain ⟨lex, x, r', e1, e2, e3, e4⟩ := rest_at hs h.lex
    refine ⟨{ st with lex := lex }, .val (s.isPrefixOf x), by simp only [exec, e1, run_bind_ok]; rfl, ?_, fun _ _ => rfl⟩
    cases hp : s.isPrefixOf x with
    | true =>
      obtain ⟨b, h1, h2⟩ := (h.move e4).refineStr (s := s) (k := 0) (by
        have : s <+: x := by simpa using hp
        rw [List.drop_zero, e2]
        exact this.trans (List.prefix_append _ _))
      exact ⟨b, l, r, toks, h1, h2⟩
    | false => exact ⟨a, l, r, toks, rfl, h.move e4⟩
  | adv n =>
    intro a o st l r toks ho h
    obtain ⟨b, hb, rfl⟩ := Option.map_eq_some_iff.mp ho
    obtain ⟨l', r', h1⟩ := h.adv hs hb
    exact ⟨_, _, rfl, ⟨b, l', r', toks, rfl, h1⟩, fun _ _ => rfl⟩
  | advc q =>
    intro a o st l r toks ho h
    obtain ⟨b, l', r', h1, h2⟩ := h.advc hs ho
    exact ⟨_, _, rfl, ⟨b, l', r', toks, h1, h2⟩, fun _ _ => rfl⟩
  | advBy f =>
    intro a o st l r toks ho h
    cases ho
  | mark q =>
    intro a o st l r toks ho h
    cases ho
    exact ⟨_, _, rfl, ⟨_, l, r, toks, rfl, h.mark q⟩, fun i hi => frame _ _ _ _ hi⟩
  | goto q =>
    intro a o st l r toks ho h
    obtain ⟨b, hb, rfl⟩ := Option.map_eq_some_iff.mp ho
    obtain ⟨l', r', h1⟩ := h.goto hs hb
    exact ⟨_, _, rfl, ⟨b, l', r', toks, rfl, h1⟩, fun _ _ => rfl⟩
  | tok q =>
    intro a o st l r toks ho h
    obtain ⟨b, hb, rfl⟩ := Option.map_eq_some_iff.mp ho
    exact ⟨_, _, rfl, ⟨b, l, r, _, rfl, h.tok hb _ h.lex.pos⟩, fun _ _ => rfl⟩
  | tokTo p q =>
    intro a o st l r toks ho h
    simp only [check] at ho
    split at ho
    · rename_i hh
      obtain ⟨b, hb, rfl⟩ := Option.map_eq_some_iff.mp ho
      exact ⟨_, _, rfl, ⟨b, l, r, _, rfl, h.tok hb _ (h.here q hh)⟩, fun _ _ => rfl⟩
    · cases ho
  | tokLen q n =>
    intro a o st l r toks ho h
    cases ho
  | take x =>
    intro a o st l r toks ho h
    obtain ⟨lex, e1, e2⟩ := takeWhile_at hs h.lex (x.has u)
    refine ⟨{ st with lex := lex }, .val true, by simp only [exec, e1, run_bind_ok]; rfl, ?_, fun _ _ => rfl⟩
    have hafter : Nx [minus top x.lo] (ahead u (r.dropWhile (x.has u))) := by
      refine Nx.cons ?_ (Nx.nil _)
      rw [tb_minus, show top.testBit (ahead u (r.dropWhile (x.has u)) 0) = true from top_atom _, Bool.true_and, Bool.not_eq_true']
      unfold ahead
      cases hd : r.dropWhile (x.has u) with
      | nil => exact (lo_none x).1
      | cons d r' =>
        have hnot : x.has u d = false := by
          have := List.head?_dropWhile_not (x.has u) r
          rw [hd] at this
          simpa using this
        cases hy : x.lo.testBit (atom u (some d)) with
        | false => exact hy
        | true => rw [(sorts_sound x d).2 hy] at hnot; cases hnot
    simp only [check] at ho
    split at ho
    · rename_i hz
      cases ho
      refine ⟨_, _, _, toks, rfl, h.strict (List.takeWhile_append_dropWhile).symm ?_ e2 hafter (by simp)⟩
      intro hnil
      have h0 := h.pos.nxt.at 0
      have hz := minus_none hz h0
      unfold ahead at hz
      cases r with
      | nil => rw [show atom u ([] : Str)[0]? = atom u none from rfl, (lo_none x).1] at hz; cases hz
      | cons d r =>
        have := (sorts_sound x d).2 hz
        simp [this] at hnil
    · cases ho
      exact ⟨_, _, _, toks, rfl, h.weak e2 hafter⟩
  | space v =>
    intro a o st l r toks ho h
    obtain ⟨b, hb, rfl⟩ := Option.map_eq_some_iff.mp ho
    obtain ⟨lex, v', s, r', new, e1, e2, e3, e4, e5, e6⟩ := whitespace_at hs h.lex (isWhite u) v 0
    refine ⟨{ st with lex := lex }, .val v', by simp only [exec, e1, run_bind_ok]; rfl, ?_, fun _ _ => rfl⟩
    by_cases hs : s = []
    · have : v' = false := by cases v' with
        | false => rfl
        | true => exact absurd hs (e5.mp rfl)
      subst this
      rw [if_pos hs] at e6
      subst hs e6
      simp at e2 e3
      subst e2
      exact ⟨a, l, r, toks, rfl, h.move e3⟩
    · have : v' = true := e5.mpr hs
      subst this
      rw [if_neg hs] at e6
      subst e6
      exact ⟨b, _, _, _, rfl, h.scanned hb e2 hs e3⟩
  | comment cfg =>
    intro a o st l r toks ho h
    obtain ⟨b, hb, rfl⟩ := Option.map_eq_some_iff.mp ho
    obtain ⟨lex, v', s, r', new, e1, e2, e3, e4⟩ := comment_at hs h.lex cfg 0 0
    refine ⟨{ st with lex := lex }, .val v', by simp only [exec, e1, run_bind_ok]; rfl, ?_, fun _ _ => rfl⟩
    rcases comment_shape e4 with ⟨rfl, hne, rfl⟩ | ⟨rfl, rfl, rfl⟩
    · exact ⟨b, _, _, _, rfl, h.scanned hb e2 hne e3⟩
    · simp at e2 e3
      subst e2
      exact ⟨a, l, r, toks, rfl, h.move e3⟩
  | quoted cfg =>
    intro a o st l r toks ho h
    obtain ⟨b, hb, rfl⟩ := Option.map_eq_some_iff.mp ho
    obtain ⟨lex, v', s, r', new, e1, e2, e3, e4⟩ := string_at hs h.lex cfg 0
    refine ⟨{ st with lex := lex }, .val v', by simp only [exec, e1, run_bind_ok]; rfl, ?_, fun _ _ => rfl⟩
    rcases e4 with ⟨rfl, _, hne, rfl⟩ | ⟨rfl, _, rfl, rfl⟩
    · exact ⟨b, _, _, _, rfl, h.scanned hb e2 hne e3⟩
    · simp at e2 e3
      subst e2
      exact ⟨a, l, r, toks, rfl, h.move e3⟩
  | guard q =>
    intro a o st l r toks ho h
    cases ho
    obtain ⟨lex, e1, e2⟩ := guard_at hs h.lex (st.regs q)
    obtain ⟨b, l', r', h1, h2⟩ := h.guard e2
    exact ⟨{ st with lex := lex }, .val true, by simp only [exec, e1, run_bind_ok]; rfl, ⟨b, l', r', toks, h1, h2⟩, fun _ _ => rfl⟩
  | moved q =>
    intro a o st l r toks ho h
    cases ho
    refine ⟨st, _, rfl, ?_, fun _ _ => rfl⟩
    rw [h.lex.pos]
    by_cases hq : st.regs q < blen l
    · rw [decide_eq_true hq]
      have hh : ¬ a.here.testBit q = true := fun hh => by have := h.here q hh; omega
      exact ⟨_, l, r, toks, by simp only [Outs.pick, if_neg hh], h.before (h.under hq)⟩
    · rw [decide_eq_false hq]
      obtain ⟨b, h1, h2⟩ := h.unmoved (q := q) (by omega)
      exact ⟨b, l, r, toks, h1, h2⟩
  | seq p q hp hq =>
    intro a o st l r toks ho h
    simp only [check] at ho
    split at ho
    · cases ho
    rename_i o1 h1
    obtain ⟨st1, out1, e1, e2, e3⟩ := hp _ _ _ _ _ _ h1 h
    have wp : ∀ i, (Code.seq p q).writes i = false → p.writes i = false ∧ q.writes i = false := by
      intro i hi; simpa [Code.writes] using hi
    have other : ∀ (o' : Outs), (∀ v, out1 ≠ .val v) → o = o'.join { o1 with t := none, f := none } ∨ o = { o1 with t := none, f := none } →
        ∃ st' out, exec src u ω (p.seq q) st = .ok (st', out) ∧ Holds u src t m (o.pick out) st' ∧
          ∀ i, (Code.seq p q).writes i = false → st'.regs i = st.regs i := by
      intro o' hv ho
      refine ⟨st1, out1, ?_, ?_, fun i hi => e3 i (wp i hi).1⟩
      · simp only [exec, e1, run_bind_ok]
        cases out1 with
        | val v => exact absurd rfl (hv v)
        | brk => rfl
        | cont => rfl
        | ret v => rfl
      · have : Holds u src t m (({ o1 with t := none, f := none } : Outs).pick out1) st1 := by
          cases out1 with
          | val v => exact absurd rfl (hv v)
          | brk => exact e2
          | cont => exact e2
          | ret v => cases v <;> exact e2
        rcases ho with rfl | rfl
        · exact pick_right this
        · exact this
    by_cases hv : ∃ v, out1 = .val v
    · obtain ⟨v, rfl⟩ := hv
      have hj : Holds u src t m (joinO o1.t o1.f) st1 := by
        cases v with
        | true => exact Holds.left e2
        | false => exact Holds.right e2
      obtain ⟨b, l1, r1, toks1, hx, hb⟩ := hj
      rw [hx] at ho
      simp only [] at ho
      split at ho
      · cases ho
      rename_i o2 h2
      cases ho
      obtain ⟨st2, out2, f1, f2, f3⟩ := hq _ _ _ _ _ _ h2 hb
      exact ⟨st2, out2, by simp only [exec, e1, run_bind_ok, f1], pick_left f2, fun i hi => by rw [f3 i (wp i hi).2, e3 i (wp i hi).1]⟩
    · have hv : ∀ v, out1 ≠ .val v := fun v h => hv ⟨v, h⟩
      split at ho
      · cases ho; exact other Outs.never hv (.inr rfl)
      · split at ho
        · cases ho
        · rename_i o2 _; cases ho; exact other o2 hv (.inl rfl)
  | ite c p q hc hp hq =>
    intro a o st l r toks ho h
    simp only [check] at ho
    split at ho
    · cases ho
    rename_i o1 h1
    obtain ⟨st1, out1, e1, e2, e3⟩ := hc _ _ _ _ _ _ h1 h
    have wp : ∀ i, (Code.ite c p q).writes i = false → c.writes i = false ∧ p.writes i = false ∧ q.writes i = false := by
      intro i hi; simpa [Code.writes, and_assoc] using hi
    split at ho
    · rename_i o2 o3 h2 h3
      cases ho
      cases out1 with
      | val v =>
        obtain ⟨b, l1, r1, toks1, hx, hb⟩ := e2
        cases v with
        | true =>
          simp only [Outs.pick] at hx
          rw [hx] at h2
          obtain ⟨st2, out2, f1, f2, f3⟩ := hp _ _ _ _ _ _ h2 hb
          exact ⟨st2, out2, by simp only [exec, e1, run_bind_ok, f1], pick_left (pick_left f2),
            fun i hi => by rw [f3 i (wp i hi).2.1, e3 i (wp i hi).1]⟩
        | false =>
          simp only [Outs.pick] at hx
          rw [hx] at h3
          obtain ⟨st2, out2, f1, f2, f3⟩ := hq _ _ _ _ _ _ h3 hb
          exact ⟨st2, out2, by simp only [exec, e1, run_bind_ok, f1], pick_left (pick_right f2),
            fun i hi => by rw [f3 i (wp i hi).2.2, e3 i (wp i hi).1]⟩
      | brk => exact ⟨st1, .brk, by simp only [exec, e1, run_bind_ok]; rfl, pick_right e2, fun i hi => e3 i (wp i hi).1⟩
      | cont => exact ⟨st1, .cont, by simp only [exec, e1, run_bind_ok]; rfl, pick_right e2, fun i hi => e3 i (wp i hi).1⟩
      | ret v =>
        refine ⟨st1, .ret v, by simp only [exec, e1, run_bind_ok]; rfl, pick_right ?_, fun i hi => e3 i (wp i hi).1⟩
        cases v <;> exact e2
    · cases ho
  | loop g peel c p hc hp =>
    intro a o st l r toks ho h
    simp only [check] at ho
    split at ho
    · cases ho
    rename_i hw
    simp only [Bool.or_eq_true, not_or, Bool.not_eq_true] at hw
    obtain ⟨gc, gp⟩ := hw
    have wp : ∀ i, (Code.loop g peel c p).writes i = false → i ≠ g ∧ c.writes i = false ∧ p.writes i = false := by
      intro i hi
      simp [Code.writes] at hi
      exact ⟨fun h => hi.1.1 h.symm, hi.1.2, hi.2⟩
    split at ho
    · split at ho
      · cases ho
      · rename_i o1 ht
        cases ho
        rcases turn_right hc hp gc gp ht h with ⟨st', out, h1, h2, h3⟩ | ⟨st', h1, h2, h3, h4⟩
        · exact ⟨st', out, h1 _, h2, fun i hi => h3 i (wp i hi).1 (wp i hi).2.1 (wp i hi).2.2⟩
        · obtain ⟨_, _, _, _, hx, _⟩ := h2; cases hx
      · rename_i b o1 ht
        obtain ⟨o2, ho2, rfl⟩ := Option.map_eq_some_iff.mp ho
        rcases turn_right hc hp gc gp ht h with ⟨st', out, h1, h2, h3⟩ | ⟨st', h1, h2, h3, h4⟩
        · exact ⟨st', out, h1 _, pick_right h2, fun i hi => h3 i (wp i hi).1 (wp i hi).2.1 (wp i hi).2.2⟩
        · obtain ⟨_, l', r', toks', hx, h5⟩ := h2
          cases hx
          obtain ⟨st2, out, g1, g2, g3⟩ := loop_right hs hc hp gc gp ho2 h5 src.length (by omega)
          refine ⟨st2, out, by simp only [exec]; rw [h1, g1], pick_left g2, fun i hi => ?_⟩
          rw [g3 i (wp i hi).1 (wp i hi).2.1 (wp i hi).2.2, h4 i (wp i hi).1 (wp i hi).2.1 (wp i hi).2.2]
    · obtain ⟨st2, out, g1, g2, g3⟩ := loop_right hs hc hp gc gp ho h (src.length + 1) (by omega)
      exact ⟨st2, out, g1, g2, fun i hi => g3 i (wp i hi).1 (wp i hi).2.1 (wp i hi).2.2⟩
  | brk =>
    intro a o st l r toks ho h
    cases ho
    exact ⟨st, _, rfl, ⟨a, l, r, toks, rfl, h⟩, fun _ _ => rfl⟩
  | cont =>
    intro a o st l r toks ho h
    cases ho
    exact ⟨st, _, rfl, ⟨a, l, r, toks, rfl, h⟩, fun _ _ => rfl⟩
  | ret b =>
    intro a o st l r toks ho h
    cases b <;> (cases ho; exact ⟨st, _, rfl, ⟨a, l, r, toks, rfl, h⟩, fun _ _ => rfl⟩)
  | scope lo p hp =>
    intro a o st l r toks ho h
    simp only [check] at ho
    split at ho
    · cases ho
    rename_i o1 h1
    split at ho
    · cases ho
    rename_i hbc
    cases ho
    obtain ⟨st1, out1, e1, e2, e3⟩ := hp _ _ _ _ _ _ h1 h
    have lv : ∀ {x : Option Abs} {st : LSt}, Holds u src t m x st → Holds u src t m (x.map (·.leave lo)) st :=
      fun h => h.map (fun a l r toks h => h.leave lo)
    cases out1 with
    | val v =>
      refine ⟨st1, .val v, by simp only [exec, e1, run_bind_ok]; rfl, ?_, e3⟩
      cases v with
      | true => exact lv (Holds.left e2)
      | false => exact lv (Holds.left e2)
    | ret v =>
      refine ⟨st1, .val v, by simp only [exec, e1, run_bind_ok]; rfl, ?_, e3⟩
      cases v with
      | true => exact lv (Holds.right e2)
      | false => exact lv (Holds.right e2)
    | brk =>
      obtain ⟨a', _, _, _, hx, _⟩ := e2
      simp only [Outs.pick] at hx
      simp [hx] at hbc
    | cont =>
      obtain ⟨a', _, _, _, hx, _⟩ := e2
      simp only [Outs.pick] at hx
      simp [hx] at hbc

end

end Oaks.Lc
