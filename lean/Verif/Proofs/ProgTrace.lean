import Verif.Model.Prog
import Verif.Proofs.Pratt

/-! What a statement of a parser does when the kinds of the next tokens are known: the conditions are decided, the actions remain. -/
namespace Oaks.Prog
open Spec

/-- An action. -/
inductive Act where
  | bump
  | back
  | call (f : Nat)
  | close (k : Nat)
deriving DecidableEq, Repr

/-- The statement of an action. -/
def Act.prog : Act → Prog
  | .bump => Prog.bump
  | .back => Prog.back
  | .call f => Prog.call f
  | .close k => Prog.finish (fun _ => k)

/-- Actions one after another. -/
def runActs (ign : Nat → Bool) (src : Source) (slack : Nat) (cs : Nat → PState → Run (Out × PState)) :
    List Act → Loc → PState → Run (Loc × PState)
  | [], l, s => .ok (l, s)
  | a :: as, l, s =>
    match exec ign src slack cs a.prog l s with
    | .ok (.val _, l, s) => runActs ign src slack cs as l s
    | .ok _ => .error .panic
    | .error e => .error e

/-- What is told about a statement: the kinds that come next afterwards (and whether these are all), whether the actions are in `mark`,
the actions, and how it ends (with some value, if nothing is said). -/
structure Told where
  hs : List Nat
  fin : Bool
  m : Bool
  es : List Act
  out : Option Out
deriving DecidableEq

/-- One after another; only one of them can be in `mark`. -/
def Told.join (r q : Told) : Option Told :=
  if r.es.isEmpty && !r.m then some q
  else if q.es.isEmpty && !q.m then some { q with es := r.es, m := r.m }
  else if r.m || q.m then none else some { q with es := r.es ++ q.es }

def Told.quiet (hs : List Nat) (fin b : Bool) : Told := ⟨hs, fin, false, [], some (.val b)⟩

/-- The actions of a statement in front of tokens of these kinds (`fin`: and no others); `inl` does so for functions. -/
def traceWith (inl : Nat → List Nat → Bool → Option Told) : Prog → List Nat → Bool → Option Told
  | .val b, hs, fin => some (.quiet hs fin b)
  | .sees k, hs, fin =>
    match hs, fin with
    | h :: t, _ => some (.quiet (h :: t) fin (h == k))
    | [], true => some (.quiet [] true false)
    | [], false => none
  | .more, hs, fin =>
    match hs, fin with
    | h :: t, _ => some (.quiet (h :: t) fin true)
    | [], true => some (.quiet [] true false)
    | [], false => none
  | .bump, hs, fin =>
    match hs with
    | _ :: t => some ⟨t, fin, false, [.bump], some (.val true)⟩
    | [] => none
  | .eat k, hs, fin =>
    match hs, fin with
    | h :: t, _ => if h == k then some ⟨t, fin, false, [.bump], some (.val true)⟩ else some (.quiet (h :: t) fin false)
    | [], true => some (.quiet [] true false)
    | [], false => none
  | .expect k, hs, fin =>
    match hs with
    | h :: t => if h == k then some ⟨t, fin, false, [.bump], some (.val true)⟩ else none
    | [] => none
  | .call f, hs, fin =>
    match inl f hs fin with
    | some r =>
      match r.out with
      | some (.val b) =>
        if r.es.all (fun a => match a with | .call _ => false | _ => true) then
          some ⟨r.hs, r.fin, !r.es.isEmpty, r.es, some (.val b)⟩
        else some ⟨[], false, false, [.call f], none⟩
      | _ => some ⟨[], false, false, [.call f], none⟩
    | none => some ⟨[], false, false, [.call f], none⟩
  | .finish f, hs, fin => some ⟨hs, fin, false, [.close (f fun _ => 0)], some (.val true)⟩
  | .back, hs, fin => some ⟨hs, fin, false, [.back], some (.val true)⟩
  | .mark p, hs, fin =>
    match traceWith inl p hs fin with
    | some r => some { r with m := !r.es.isEmpty }
    | none => none
  | .seq a b, hs, fin =>
    match traceWith inl a hs fin with
    | some r =>
      match r.out with
      | none | some (.val _) =>
        match traceWith inl b r.hs r.fin with
        | some q => r.join q
        | none => none
      | some _ => some r
    | none => none
  | .ite c a b, hs, fin =>
    match traceWith inl c hs fin with
    | some r =>
      match r.out with
      | some (.val true) =>
        match traceWith inl a r.hs r.fin with
        | some q => r.join q
        | none => none
      | some (.val false) =>
        match traceWith inl b r.hs r.fin with
        | some q => r.join q
        | none => none
      | _ => none
    | none => none
  | .loop c body, hs, fin =>
    match traceWith inl c hs fin with
    | some r =>
      match r.out with
      | some (.val false) => some { r with out := some (.val true) }
      | some (.val true) =>
        match traceWith inl body r.hs r.fin with
        | some q =>
          match q.out with
          | some .brk => r.join { q with out := some (.val true) }
          | _ => none
        | none => none
      | _ => none
    | none => none
  | .brk, hs, fin => some ⟨hs, fin, false, [], some .brk⟩
  | .ret b, hs, fin => some ⟨hs, fin, false, [], some (.ret b)⟩
  | _, _, _ => none

/-- The actions of a function, looking into calls `n` deep. -/
def traceCall (procs : List Prog) : Nat → Nat → List Nat → Bool → Option Told
  | 0, _, _, _ => none
  | n + 1, f, hs, fin =>
    match procs[f]? with
    | some p => traceWith (traceCall procs n) p hs fin
    | none => none

/-! ### Soundness -/

/-- The next tokens are of these kinds, with ignored ones between them. -/
def Fits (ign : Nat → Bool) (hs : List Nat) (fin : Bool) (s : PState) : Prop :=
  (hs = [] ∧ fin = false) ∨ ∃ (ws : List Word) (tail : List Tok),
    s.tokens.drop s.index = ws.flatMap Word.toks ++ tail ∧ ws.map (·.tok.kind) = hs ∧ (∀ w ∈ ws, w.Ok ign) ∧
    (∀ t ts, tail = t :: ts → ign t.kind = false) ∧ (fin = true → tail = []) ∧ toksLen (ws.flatMap Word.toks) < 2 ^ 32

variable {ign : Nat → Bool} {src : Source} {slack : Nat}

theorem Fits.same {hs : List Nat} {fin : Bool} {s s' : PState} (h : Fits ign hs fin s) (h1 : s'.tokens = s.tokens)
    (h2 : s'.index = s.index) : Fits ign hs fin s' := by
  rcases h with h | ⟨ws, tail, h⟩
  · exact .inl h
  · exact .inr ⟨ws, tail, by rw [h1, h2]; exact h⟩

theorem Fits.free (s : PState) : Fits ign [] false s := .inl ⟨rfl, rfl⟩

theorem Fits.bump {k : Nat} {hs : List Nat} {fin : Bool} {s : PState} (h : Fits ign (k :: hs) fin s) :
    s.peekKind = some k ∧ s.index < s.tokens.length ∧ ∃ s', s.bump ign = .ok s' ∧ Fits ign hs fin s' := by
  rcases h with ⟨h, _⟩ | ⟨ws, tail, h1, h2, h3, h4, h5, h6⟩
  · exact absurd h (by simp)
  · match ws, h1, h2, h3, h6 with
    | w :: ws, h1, h2, h3, h6 =>
      simp only [List.map_cons, List.cons.injEq] at h2
      simp only [List.flatMap_cons, List.append_assoc, toksLen_append] at h1 h6
      have hn : ∀ t ts, ws.flatMap Word.toks ++ tail = t :: ts → ign t.kind = false := by
        match ws, h3 with
        | [], _ => simpa using h4
        | v :: ws, h3 =>
          intro t ts ht
          simp only [List.flatMap_cons, Word.toks, List.cons_append, List.cons.injEq] at ht
          rw [← ht.1]; exact (h3 v (by simp)).1
      obtain ⟨b1, b2⟩ := bump_word s w (ws.flatMap Word.toks ++ tail) (h3 w (by simp)) h1 hn (by omega)
      refine ⟨by rw [b2, h2.1], ?_, _, b1, .inr ⟨ws, tail, drop_past h1, h2.2, fun v hv => h3 v (by simp [hv]), h4, h5, by omega⟩⟩
      apply Decidable.byContradiction
      intro hi
      rw [List.drop_of_length_le (by omega)] at h1
      simp [Word.toks] at h1

theorem Fits.done {s : PState} (h : Fits ign [] true s) : s.peekKind = none ∧ ¬ s.index < s.tokens.length := by
  rcases h with ⟨_, h⟩ | ⟨ws, tail, h1, h2, _, _, h5, _⟩
  · exact absurd h (by simp)
  · have : ws = [] := List.map_eq_nil_iff.mp h2
    subst this
    rw [h5 rfl] at h1
    simp only [List.flatMap_nil, List.append_nil, List.drop_eq_nil_iff] at h1
    refine ⟨?_, by omega⟩
    unfold PState.peekKind PState.current
    rw [List.getElem?_eq_none h1]; rfl

/-- Whether a statement ends in this way. -/
def ends (out : Option Out) (o : Out) : Prop :=
  match out with
  | some x => o = x
  | none => ∃ b, o = .val b

def before (m : Bool) (l : Loc) (s : PState) : Loc := if m then { l with cp := s.checkpoint } else l
def after (m : Bool) (l l' : Loc) : Loc := if m then { l' with cp := l.cp } else l'

theorem runActs_append {cs : Nat → PState → Run (Out × PState)} (as bs : List Act) (l : Loc) (s : PState) :
    runActs ign src slack cs (as ++ bs) l s = (match runActs ign src slack cs as l s with
      | .ok (l, s) => runActs ign src slack cs bs l s
      | .error e => .error e) := by
  induction as generalizing l s with
  | nil => rfl
  | cons a as ih =>
    simp only [List.cons_append, runActs]
    split <;> simp_all

theorem runActs_regs {cs : Nat → PState → Run (Out × PState)} {as : List Act} {l l' : Loc} {s s' : PState}
    (h : runActs ign src slack cs as l s = .ok (l', s')) : l'.regs = l.regs := by
  induction as generalizing l s with
  | nil => simp only [runActs] at h; injection h with h; injection h with h _; rw [h]
  | cons a as ih =>
    simp only [runActs] at h
    split at h
    · rename_i b l1 s1 he
      rw [ih h]
      cases a with
      | bump =>
        simp only [Act.prog, exec, bind, Except.bind, pure, Except.pure] at he
        split at he
        · cases he
        · injection he with he; injection he with _ he; injection he with he _; rw [he]
      | back => simp only [Act.prog, exec] at he; injection he with he; injection he with _ he; injection he with he _; rw [← he]
      | call f =>
        simp only [Act.prog, exec] at he
        split at he
        · injection he with he; injection he with _ he; injection he with he _; rw [he]
        · cases he
      | close k =>
        simp only [Act.prog, exec, bind, Except.bind, pure, Except.pure] at he
        split at he
        · cases he
        · injection he with he; injection he with _ he; injection he with he _; rw [he]
    · cases h
    · cases h

/-- Without calls it does not matter what the functions do. -/
theorem runActs_calls {cs cs' : Nat → PState → Run (Out × PState)} {as : List Act}
    (ha : as.all (fun a => match a with | .call _ => false | _ => true) = true) (l : Loc) (s : PState) :
    runActs ign src slack cs as l s = runActs ign src slack cs' as l s := by
  induction as generalizing l s with
  | nil => rfl
  | cons a as ih =>
    simp only [List.all_cons, Bool.and_eq_true] at ha
    have he : exec ign src slack cs a.prog l s = exec ign src slack cs' a.prog l s := by
      cases a <;> simp [Act.prog, exec] at ha ⊢
    simp only [runActs, he]
    split
    · exact ih ha.2 _ _
    · rfl
    · rfl

theorem join_run {cs : Nat → PState → Run (Out × PState)} {r q t : Told} (hj : r.join q = some t) {l l' : Loc} {s s' : PState}
    (hr : runActs ign src slack cs t.es (before t.m l s) s = .ok (l', s')) :
    ∃ l1 s1 l2, runActs ign src slack cs r.es (before r.m l s) s = .ok (l1, s1) ∧
      runActs ign src slack cs q.es (before q.m (after r.m l l1) s1) s1 = .ok (l2, s') ∧
      after q.m (after r.m l l1) l2 = after t.m l l' ∧ t.hs = q.hs ∧ t.fin = q.fin ∧ t.out = q.out := by
  unfold Told.join at hj
  split at hj
  · rename_i h
    injection hj with hj
    subst hj
    simp only [Bool.and_eq_true, List.isEmpty_iff, Bool.not_eq_true'] at h
    rw [h.1, h.2]
    exact ⟨l, s, l', rfl, hr, rfl, rfl, rfl, rfl⟩
  · split at hj
    · rename_i h
      injection hj with hj
      subst hj
      simp only [Bool.and_eq_true, List.isEmpty_iff, Bool.not_eq_true'] at h
      rw [h.1, h.2]
      exact ⟨l', s', _, hr, rfl, rfl, rfl, rfl, rfl⟩
    · split at hj
      · cases hj
      · rename_i h
        injection hj with hj
        subst hj
        simp only [Bool.or_eq_true, not_or, Bool.not_eq_true] at h
        obtain ⟨h1, h2⟩ := h
        simp only [h1, h2, before, after, Bool.false_eq_true, if_false] at hr ⊢
        rw [runActs_append] at hr
        split at hr
        · rename_i l1 s1 he
          exact ⟨l1, s1, l', he, hr, by simp⟩
        · cases hr

/-- What is told is so. -/
def TraceSound (ign : Nat → Bool) (src : Source) (slack : Nat) (cs : Nat → PState → Run (Out × PState)) (p : Prog) (hs : List Nat)
    (fin : Bool) (r : Told) : Prop :=
  ∀ (l l' : Loc) (s s' : PState), Fits ign hs fin s → (l.regs = fun _ => 0) →
    runActs ign src slack cs r.es (before r.m l s) s = .ok (l', s') →
    ∃ o, exec ign src slack cs p l s = .ok (o, after r.m l l', s') ∧ ends r.out o ∧ Fits ign r.hs r.fin s'

theorem after_regs {m : Bool} {l l' : Loc} (h : l'.regs = l.regs) : (after m l l').regs = l.regs := by
  unfold after; split <;> simp [h]
theorem before_regs {m : Bool} {l : Loc} {s : PState} : (before m l s).regs = l.regs := by
  unfold before; split <;> rfl

private theorem sound_then {cs : Nat → PState → Run (Out × PState)} {a b c : Prog} {hs : List Nat} {fin : Bool} {r q t : Told}
    (ha : TraceSound ign src slack cs a hs fin r) (hb : TraceSound ign src slack cs b r.hs r.fin q) (hj : r.join q = some t)
    (hc : ∀ l s o l1 s1, ends r.out o → exec ign src slack cs a l s = .ok (o, l1, s1) →
      exec ign src slack cs c l s = exec ign src slack cs b l1 s1) :
    TraceSound ign src slack cs c hs fin t := by
  intro l l' s s' hf hl hr
  obtain ⟨l1, s1, l2, h1, h2, h3, h4, h5, h6⟩ := join_run hj hr
  obtain ⟨o, e1, e2, e3⟩ := ha l l1 s s1 hf hl h1
  have hl1 : (after r.m l l1).regs = fun _ => 0 := by
    rw [after_regs (by rw [runActs_regs h1, before_regs]), hl]
  obtain ⟨o', g1, g2, g3⟩ := hb _ l2 s1 s' e3 hl1 h2
  exact ⟨o', by rw [hc l s o _ _ e2 e1, g1, h3], by rw [h6]; exact g2, by rw [h4, h5]; exact g3⟩

private theorem sound_quiet {cs : Nat → PState → Run (Out × PState)} {p : Prog} {hs : List Nat} {fin : Bool} {o : Out}
    (h : ∀ l s, Fits ign hs fin s → exec ign src slack cs p l s = .ok (o, l, s)) :
    TraceSound ign src slack cs p hs fin ⟨hs, fin, false, [], some o⟩ := by
  intro l l' s s' hf hl hr
  simp only [runActs, before, Bool.false_eq_true, if_false] at hr
  injection hr with hr; injection hr with h1 h2
  subst h1 h2
  exact ⟨o, h l s hf, rfl, hf⟩

private theorem sound_act {cs : Nat → PState → Run (Out × PState)} {p : Prog} {hs hs' : List Nat} {fin fin' : Bool} {a : Act}
    {out : Option Out}
    (h : ∀ l s b l' s', Fits ign hs fin s → (l.regs = fun _ => 0) → exec ign src slack cs a.prog l s = .ok (.val b, l', s') →
      ∃ o, exec ign src slack cs p l s = .ok (o, l', s') ∧ ends out o ∧ Fits ign hs' fin' s') :
    TraceSound ign src slack cs p hs fin ⟨hs', fin', false, [a], out⟩ := by
  intro l l' s s' hf hl hr
  simp only [runActs, before, Bool.false_eq_true, if_false] at hr
  split at hr
  · rename_i b l1 s1 he
    injection hr with hr; injection hr with h1 h2
    subst h1 h2
    exact h l s b _ _ hf hl he
  · cases hr
  · cases hr

private theorem exec_bump_fits {cs : Nat → PState → Run (Out × PState)} {k : Nat} {hs : List Nat} {fin : Bool} {l l' : Loc}
    {s s' : PState} {b : Bool} (hf : Fits ign (k :: hs) fin s) (he : exec ign src slack cs Prog.bump l s = .ok (.val b, l', s')) :
    b = true ∧ l' = l ∧ s.bump ign = .ok s' ∧ Fits ign hs fin s' := by
  obtain ⟨_, _, s1, h1, h2⟩ := hf.bump
  simp only [exec, h1, bind, Except.bind, pure, Except.pure] at he
  injection he with he; injection he with e1 he; injection he with e2 e3
  injection e1 with e1
  subst e3
  exact ⟨e1.symm, e2.symm, h1, h2⟩

theorem traceWith_sound {cs : Nat → PState → Run (Out × PState)} {inl : Nat → List Nat → Bool → Option Told}
    (hi : ∀ f hs fin r b, inl f hs fin = some r → r.out = some (.val b) →
      (r.es.all (fun a => match a with | .call _ => false | _ => true)) = true → ∀ (l l' : Loc) (s s' : PState), Fits ign hs fin s →
      (l.regs = fun _ => 0) → runActs ign src slack cs r.es { l with cp := s.checkpoint } s = .ok (l', s') →
      cs f s = .ok (.val b, s') ∧ Fits ign r.hs r.fin s') (p : Prog) :
    ∀ hs fin r, traceWith inl p hs fin = some r → TraceSound ign src slack cs p hs fin r := by
  induction p with
  | val b =>
    intro hs fin r h
    simp only [traceWith] at h
    injection h with h; subst h
    exact sound_quiet fun l s _ => rfl
  | sees k =>
    intro hs fin r h
    simp only [traceWith] at h
    split at h
    · injection h with h; subst h
      refine sound_quiet fun l s hf => ?_
      simp only [exec, PState.atKind, hf.bump.1, Option.some_beq_some]
    · injection h with h; subst h
      refine sound_quiet fun l s hf => ?_
      simp only [exec, PState.atKind, hf.done.1]; rfl
    · cases h
  | more =>
    intro hs fin r h
    simp only [traceWith] at h
    split at h
    · injection h with h; subst h
      refine sound_quiet fun l s hf => ?_
      simp only [exec, hf.bump.2.1, decide_true]
    · injection h with h; subst h
      refine sound_quiet fun l s hf => ?_
      simp only [exec, hf.done.2, decide_false]
    · cases h
  | ask f => intro hs fin r h; simp [traceWith] at h
  | bump =>
    intro hs fin r h
    simp only [traceWith] at h
    split at h
    · injection h with h; subst h
      refine sound_act fun l s b l' s' hf hl he => ?_
      obtain ⟨rfl, _, _, h2⟩ := exec_bump_fits hf he
      exact ⟨_, he, rfl, h2⟩
    · cases h
  | advance => intro hs fin r h; simp [traceWith] at h
  | eat k =>
    intro hs fin r h
    simp only [traceWith] at h
    split at h
    · split at h
      · rename_i h0 hs _ hk
        injection h with h; subst h
        refine sound_act fun l s b l' s' hf hl he => ?_
        obtain ⟨rfl, rfl, h1, h2⟩ := exec_bump_fits hf he
        refine ⟨.val true, ?_, rfl, h2⟩
        simp only [exec, PState.eat, PState.atKind, hf.bump.1, beq_iff_eq.mp hk, beq_self_eq_true, if_true, h1]; rfl
      · rename_i h0 _ hk
        injection h with h; subst h
        refine sound_quiet fun l s hf => ?_
        have : (some h0 == some k) = false := by rw [Option.some_beq_some]; exact Bool.eq_false_iff.mpr hk
        simp only [exec, PState.eat, PState.atKind, hf.bump.1, this]; rfl
    · injection h with h; subst h
      refine sound_quiet fun l s hf => ?_
      simp only [exec, PState.eat, PState.atKind, hf.done.1]; rfl
    · cases h
  | expect k =>
    intro hs fin r h
    simp only [traceWith] at h
    split at h
    · split at h
      · rename_i h0 hs hk
        injection h with h; subst h
        refine sound_act fun l s b l' s' hf hl he => ?_
        obtain ⟨rfl, rfl, h1, h2⟩ := exec_bump_fits hf he
        refine ⟨.val true, ?_, rfl, h2⟩
        simp only [exec, PState.expect, PState.eat, PState.atKind, hf.bump.1, beq_iff_eq.mp hk, beq_self_eq_true, if_true, h1]; rfl
      · cases h
    · cases h
  | need k => intro hs fin r h; simp [traceWith] at h
  | fail c o => intro hs fin r h; simp [traceWith] at h
  | set r f => intro hs fin r h; simp [traceWith] at h
  | finish k =>
    intro hs fin r h
    simp only [traceWith] at h
    injection h with h; subst h
    refine sound_act fun l s b l' s' hf hl he => ?_
    have hk : exec ign src slack cs (.finish k) l s = exec ign src slack cs (Act.close (k fun _ => 0)).prog l s := by
      simp only [Act.prog, exec, hl]
    refine ⟨.val b, by rw [hk, he], ?_, ?_⟩
    · simp only [Act.prog, exec, bind, Except.bind, pure, Except.pure] at he
      split at he
      · cases he
      · injection he with he; injection he with he _; exact he.symm
    · simp only [Act.prog, exec, bind, Except.bind, pure, Except.pure] at he
      split at he
      · cases he
      · rename_i v hv
        injection he with he; injection he with _ he; injection he with _ he
        subst he
        unfold PState.finishAt at hv
        split at hv
        · simp only [bind, Except.bind, pure, Except.pure] at hv
          split at hv
          · cases hv
          · injection hv with hv
            subst hv
            exact hf.same rfl rfl
        · cases hv
  | mark p ih =>
    intro hs fin r h
    simp only [traceWith] at h
    cases hp : traceWith inl p hs fin with
    | none => rw [hp] at h; cases h
    | some r0 =>
      rw [hp] at h
      injection h with h; subst h
      intro l l' s s' hf hl hr
      have hb : ∀ m, before m { l with cp := s.checkpoint } s = { l with cp := s.checkpoint } := by
        intro m; unfold before; split <;> rfl
      cases he : r0.es with
      | nil =>
        simp only [he, List.isEmpty_nil, Bool.not_true, before, Bool.false_eq_true, if_false, runActs] at hr
        injection hr with hr; injection hr with h1 h2
        subst h1 h2
        obtain ⟨o, e1, e2, e3⟩ := ih hs fin r0 hp { l with cp := s.checkpoint } { l with cp := s.checkpoint } s s hf hl
          (by rw [he, hb]; rfl)
        refine ⟨o, ?_, e2, e3⟩
        simp only [exec, e1, he, List.isEmpty_nil, Bool.not_true, after, Bool.false_eq_true, if_false]
        split <;> rfl
      | cons a as =>
        simp only [he, List.isEmpty_cons, Bool.not_false] at hr ⊢
        rw [← he] at hr
        have hr' : runActs ign src slack cs r0.es { l with cp := s.checkpoint } s = .ok (l', s') := hr
        obtain ⟨o, e1, e2, e3⟩ := ih hs fin r0 hp { l with cp := s.checkpoint } l' s s' hf hl (by rw [hb]; exact hr')
        refine ⟨o, ?_, e2, e3⟩
        simp only [exec, e1, after, if_true]
        split <;> rfl
  | within k p => intro hs fin r h; simp [traceWith] at h
  | remark => intro hs fin r h; simp [traceWith] at h
  | again => intro hs fin r h; simp [traceWith] at h
  | back =>
    intro hs fin r h
    simp only [traceWith] at h
    injection h with h; subst h
    refine sound_act fun l s b l' s' hf hl he => ?_
    refine ⟨_, he, ?_, ?_⟩
    · simp only [Act.prog, exec] at he; injection he with he; injection he with he _; exact he.symm
    · simp only [Act.prog, exec] at he; injection he with he; injection he with _ he; injection he with _ he; subst he; exact hf
  | seq a b iha ihb =>
    intro hs fin r h
    simp only [traceWith] at h
    cases ha : traceWith inl a hs fin with
    | none => rw [ha] at h; cases h
    | some ra =>
      rw [ha] at h
      simp only at h
      have key : (∀ o, ends ra.out o → ∃ v, o = .val v) → (match traceWith inl b ra.hs ra.fin with | some q => ra.join q | none => none) = some r →
          TraceSound ign src slack cs (.seq a b) hs fin r := by
        intro ho h
        cases hb : traceWith inl b ra.hs ra.fin with
        | none => rw [hb] at h; cases h
        | some q =>
          rw [hb] at h
          refine sound_then (iha hs fin ra ha) (ihb _ _ q hb) h fun l s o l1 s1 he hx => ?_
          obtain ⟨v, rfl⟩ := ho o he
          simp only [exec, hx]
      split at h
      · rename_i ho
        exact key (fun o he => by rw [ho] at he; exact he) h
      · rename_i v ho
        exact key (fun o he => by rw [ho] at he; exact ⟨v, he⟩) h
      · rename_i x ho hnv
        injection h with h; subst h
        intro l l' s s' hf hl hr
        obtain ⟨o, e1, e2, e3⟩ := iha hs fin ra ha l l' s s' hf hl hr
        refine ⟨o, ?_, e2, e3⟩
        rw [hnv] at e2
        have e2' : o = x := e2
        subst e2'
        simp only [exec, e1]
        cases o with
        | val v => exact absurd rfl (ho v)
        | _ => rfl
  | ite c a b ihc iha ihb =>
    intro hs fin r h
    simp only [traceWith] at h
    cases hc : traceWith inl c hs fin with
    | none => rw [hc] at h; cases h
    | some rc =>
      rw [hc] at h
      simp only at h
      split at h
      · rename_i ho
        cases ha : traceWith inl a rc.hs rc.fin with
        | none => rw [ha] at h; cases h
        | some q =>
          rw [ha] at h
          refine sound_then (ihc hs fin rc hc) (iha _ _ q ha) h fun l s o l1 s1 he hx => ?_
          rw [ho] at he
          have he' : o = .val true := he
          subst he'
          simp only [exec, hx]
      · rename_i ho
        cases ha : traceWith inl b rc.hs rc.fin with
        | none => rw [ha] at h; cases h
        | some q =>
          rw [ha] at h
          refine sound_then (ihc hs fin rc hc) (ihb _ _ q ha) h fun l s o l1 s1 he hx => ?_
          rw [ho] at he
          have he' : o = .val false := he
          subst he'
          simp only [exec, hx]
      · cases h
  | loop c body ihc ihb =>
    intro hs fin r h
    simp only [traceWith] at h
    cases hc : traceWith inl c hs fin with
    | none => rw [hc] at h; cases h
    | some rc =>
      rw [hc] at h
      simp only at h
      have hfuel : ∀ s : PState, slack + (s.tokens.length - s.index + 1) = (slack + (s.tokens.length - s.index)) + 1 := fun s => by omega
      split at h
      · rename_i ho
        injection h with h; subst h
        intro l l' s s' hf hl hr
        obtain ⟨o, e1, e2, e3⟩ := ihc hs fin rc hc l l' s s' hf hl hr
        rw [ho] at e2
        have e2' : o = .val false := e2
        subst e2'
        refine ⟨.val true, ?_, rfl, e3⟩
        simp only [exec, hfuel, turns, e1]
      · rename_i ho
        cases hb : traceWith inl body rc.hs rc.fin with
        | none => rw [hb] at h; cases h
        | some q =>
          rw [hb] at h
          simp only at h
          split at h
          · rename_i hq
            intro l l' s s' hf hl hr
            obtain ⟨l1, s1, l2, h1, h2, h3, h4, h5, h6⟩ := join_run h hr
            obtain ⟨o, e1, e2, e3⟩ := ihc hs fin rc hc l l1 s s1 hf hl h1
            have hl1 : (after rc.m l l1).regs = fun _ => 0 := by
              rw [after_regs (by rw [runActs_regs h1, before_regs]), hl]
            obtain ⟨o', g1, g2, g3⟩ := ihb _ _ q hb _ l2 s1 s' e3 hl1 h2
            rw [ho] at e2
            have e2' : o = .val true := e2
            rw [hq] at g2
            have g2' : o' = .brk := g2
            subst e2' g2'
            refine ⟨.val true, ?_, by rw [h6]; rfl, by rw [h4, h5]; exact g3⟩
            simp only [exec, hfuel, turns, e1, g1]
            rw [← h3]
          · cases h
      · cases h
  | brk =>
    intro hs fin r h
    simp only [traceWith] at h
    injection h with h; subst h
    exact sound_quiet fun l s _ => rfl
  | cont => intro hs fin r h; simp [traceWith] at h
  | ret b =>
    intro hs fin r h
    simp only [traceWith] at h
    injection h with h; subst h
    exact sound_quiet fun l s _ => rfl
  | catch_ p => intro hs fin r h; simp [traceWith] at h
  | call f =>
    intro hs fin r h
    have plain : TraceSound ign src slack cs (.call f) hs fin ⟨[], false, false, [.call f], none⟩ := by
      refine sound_act fun l s b l' s' hf hl he => ⟨_, he, ⟨b, rfl⟩, Fits.free _⟩
    simp only [traceWith] at h
    cases hx : inl f hs fin with
    | none => rw [hx] at h; injection h with h; subst h; exact plain
    | some r0 =>
      rw [hx] at h
      simp only at h
      split at h
      · rename_i b ho
        split at h
        · rename_i hall
          injection h with h; subst h
          intro l l' s s' hf hl hr
          cases he : r0.es with
          | nil =>
            simp only [he, List.isEmpty_nil, Bool.not_true, before, Bool.false_eq_true, if_false, runActs] at hr
            injection hr with hr; injection hr with h1 h2
            subst h1 h2
            obtain ⟨g1, g2⟩ := hi f hs fin r0 b hx ho hall l { l with cp := s.checkpoint } s s hf hl (by rw [he]; rfl)
            refine ⟨.val b, ?_, rfl, g2⟩
            simp only [exec, g1, List.isEmpty_nil, Bool.not_true, after, Bool.false_eq_true, if_false]
          | cons a as =>
            simp only [he, List.isEmpty_cons, Bool.not_false] at hr ⊢
            rw [← he] at hr
            obtain ⟨g1, g2⟩ := hi f hs fin r0 b hx ho hall l l' s s' hf hl hr
            refine ⟨.val b, ?_, rfl, g2⟩
            simp only [exec, g1, after, if_true]
            have : ({ l' with cp := l.cp } : Loc) = l := by
              have hrg := runActs_regs hr
              rw [before_regs] at hrg
              cases l; cases l'; simp_all
            rw [this]
        · injection h with h; subst h; exact plain
      · injection h with h; subst h; exact plain

/-- What is told about a function. -/
theorem traceCall_sound {procs : List Prog} (n : Nat) : ∀ (D : Nat), n ≤ D →
    ∀ f hs fin r b, traceCall procs n f hs fin = some r → r.out = some (.val b) →
      (r.es.all (fun a => match a with | .call _ => false | _ => true)) = true → ∀ (l l' : Loc) (s s' : PState), Fits ign hs fin s →
      (l.regs = fun _ => 0) → runActs ign src slack (calls ign src slack procs D) r.es { l with cp := s.checkpoint } s = .ok (l', s') →
      calls ign src slack procs D f s = .ok (.val b, s') ∧ Fits ign r.hs r.fin s' := by
  induction n with
  | zero => intro D _ f hs fin r b h; simp [traceCall] at h
  | succ n ih =>
    intro D hD f hs fin r b h ho hall l l' s s' hf hl hr
    obtain ⟨D, rfl⟩ : ∃ d, D = d + 1 := ⟨D - 1, by omega⟩
    simp only [traceCall] at h
    cases hp : procs[f]? with
    | none => rw [hp] at h; cases h
    | some p =>
      rw [hp] at h
      simp only at h
      have hs' := traceWith_sound (ih D (by omega)) p hs fin r h
      have hcp : ({ l with cp := s.checkpoint } : Loc) = ⟨s.checkpoint, fun _ => 0⟩ := by cases l; simp_all
      rw [hcp, runActs_calls (cs' := calls ign src slack procs D) hall] at hr
      obtain ⟨o, e1, e2, e3⟩ := hs' ⟨s.checkpoint, fun _ => 0⟩ l' s s' hf rfl (by
        unfold before; split <;> exact hr)
      rw [ho] at e2
      have e2' : o = .val b := e2
      subst e2'
      refine ⟨?_, e3⟩
      simp only [calls, hp, e1]

end Oaks.Prog
