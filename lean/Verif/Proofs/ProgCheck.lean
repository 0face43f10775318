import Verif.Proofs.Prog

/-! A check of parsers that are given as data: which tokens can be next at every point, whether something was read since the start of
the function or of the turn, and which functions are called before something was read. -/
namespace Oaks
open Spec

namespace Prog

/-! ### Sets of next tokens -/

/-- What can be next: the end, and the kinds in the list or (`neg`) those not in the list. -/
structure Head where
  last : Bool
  neg : Bool
  ks : List Nat

namespace Head

/-- Is it possible that this is next? -/
def has (h : Head) : Option Nat → Bool
  | none => h.last
  | some k => h.ks.contains k != h.neg

def none_ : Head := ⟨false, false, []⟩
def join (a b : Head) : Head :=
  ⟨a.last || b.last, a.neg || b.neg,
    match a.neg, b.neg with
    | false, false => a.ks ++ b.ks.filter (fun k => !a.ks.contains k)
    | false, true => b.ks.filter (fun k => !a.ks.contains k)
    | true, false => a.ks.filter (fun k => !b.ks.contains k)
    | true, true => a.ks.filter (fun k => b.ks.contains k)⟩
def meet (a b : Head) : Head :=
  ⟨a.last && b.last, a.neg && b.neg,
    match a.neg, b.neg with
    | false, false => a.ks.filter (fun k => b.ks.contains k)
    | false, true => a.ks.filter (fun k => !b.ks.contains k)
    | true, false => b.ks.filter (fun k => !a.ks.contains k)
    | true, true => a.ks ++ b.ks.filter (fun k => !a.ks.contains k)⟩
def le (a b : Head) : Bool :=
  (!a.last || b.last) &&
    match a.neg, b.neg with
    | false, _ => a.ks.all (fun k => b.ks.contains k != b.neg)
    | true, true => b.ks.all (fun k => a.ks.contains k)
    | true, false => false
def isNone (a : Head) : Bool := !a.last && !a.neg && a.ks.isEmpty
def only (a : Head) (k : Nat) : Head := ⟨false, false, if a.ks.contains k != a.neg then [k] else []⟩
def without (a : Head) (k : Nat) : Head := ⟨a.last, a.neg, if a.neg then k :: a.ks else a.ks.filter (fun x => x != k)⟩
def atEnd (a : Head) : Head := ⟨a.last, false, []⟩
def going (a : Head) : Head := ⟨false, a.neg, a.ks⟩
def some_ (a : Head) : Bool := a.neg || !a.ks.isEmpty

variable {a b : Head} {x : Option Nat}

theorem join_left (h : a.has x = true) : (a.join b).has x = true := by
  cases x with
  | none => simp_all [has, join]
  | some k =>
    rcases a with ⟨_, an, ak⟩; rcases b with ⟨_, bn, bk⟩
    cases an <;> cases bn <;> simp_all [has, join]

theorem join_right (h : b.has x = true) : (a.join b).has x = true := by
  cases x with
  | none => simp_all [has, join]
  | some k =>
    rcases a with ⟨_, an, ak⟩; rcases b with ⟨_, bn, bk⟩
    cases an <;> cases bn <;> simp_all [has, join]

theorem meet_has (h : a.has x = true) (h' : b.has x = true) : (a.meet b).has x = true := by
  cases x with
  | none => simp_all [has, meet]
  | some k =>
    rcases a with ⟨_, an, ak⟩; rcases b with ⟨_, bn, bk⟩
    cases an <;> cases bn <;> simp_all [has, meet]

theorem le_has (h : a.le b = true) (h' : a.has x = true) : b.has x = true := by
  unfold le at h
  cases x with
  | none => simp_all [has]
  | some k =>
    rcases a with ⟨_, an, ak⟩; rcases b with ⟨_, bn, bk⟩
    cases an <;> cases bn <;> simp_all [has]
    intro hk
    exact h' (h.2 k hk)

theorem isNone_has (h : a.isNone = true) : a.has x = false := by
  rcases a with ⟨al, an, ak⟩
  simp [isNone] at h
  obtain ⟨⟨rfl, rfl⟩, rfl⟩ := h
  cases x <;> simp [has]

theorem none_has : none_.has x = false := isNone_has rfl

theorem only_has {k : Nat} (h : a.has (some k) = true) : (a.only k).has (some k) = true := by
  simp only [has] at h
  simp only [only, has, h, if_true]
  simp

theorem without_has {k : Nat} (h : a.has x = true) (hk : x ≠ some k) : (a.without k).has x = true := by
  cases x with
  | none => simpa [has, without] using h
  | some j =>
    have hj : j ≠ k := fun h => hk (by rw [h])
    rcases a with ⟨_, an, ak⟩
    cases an <;> simp_all [has, without]

theorem atEnd_has (h : a.has none = true) : a.atEnd.has none = true := h
theorem going_has {k : Nat} (h : a.has (some k) = true) : a.going.has (some k) = true := h
theorem some_has {k : Nat} (h : a.has (some k) = true) : a.some_ = true := by
  rcases a with ⟨_, an, ak⟩
  cases an
  · simp only [has, bne_iff_ne, ne_eq, Bool.not_eq_false, List.contains_iff_mem] at h
    simp [some_]
    exact List.ne_nil_of_mem h
  · rfl

end Head

/-- What is next if nothing was read (`u`) and if something was read (`m`). -/
structure Fact where
  u : Head
  m : Head

namespace Fact

/-- The fact holds of a state, from another one on. -/
def holds (f : Fact) (s0 s : PState) : Prop :=
  (s.left = s0.left ∧ f.u.has s.peekKind = true) ∨ (s.left < s0.left ∧ f.m.has s.peekKind = true)

def never : Fact := ⟨.none_, .none_⟩
def join (a b : Fact) : Fact := ⟨a.u.join b.u, a.m.join b.m⟩
def le (a b : Fact) : Bool := a.u.le b.u && a.m.le b.m
def isNever (a : Fact) : Bool := a.u.isNone && a.m.isNone
def only (a : Fact) (k : Nat) : Fact := ⟨a.u.only k, a.m.only k⟩
def without (a : Fact) (k : Nat) : Fact := ⟨a.u.without k, a.m.without k⟩
def atEnd (a : Fact) : Fact := ⟨a.u.atEnd, a.m.atEnd⟩
def going (a : Fact) : Fact := ⟨a.u.going, a.m.going⟩
/-- After the next token, if there is one. -/
def read (top : Head) (a : Fact) : Fact :=
  ⟨a.u.atEnd, if a.u.some_ || a.m.some_ then top else a.m.atEnd⟩
/-- After the next token, which there is. -/
def ate (top : Head) (a : Fact) (k : Nat) : Fact :=
  ⟨.none_, if (a.u.has (some k)) || (a.m.has (some k)) then top else .none_⟩
/-- Something was read before. -/
def later (a : Fact) : Fact := ⟨.none_, a.u.join a.m⟩
/-- First `a`, then `b` from there. -/
def andThen (a b : Fact) : Fact := ⟨a.u.meet b.u, (if a.u.isNone && a.m.isNone then .none_ else b.m).join (a.m.meet b.u)⟩

variable {a b : Fact} {s0 s s' : PState}

theorem join_left (h : a.holds s0 s) : (a.join b).holds s0 s :=
  h.imp (fun h => ⟨h.1, Head.join_left h.2⟩) (fun h => ⟨h.1, Head.join_left h.2⟩)
theorem join_right (h : b.holds s0 s) : (a.join b).holds s0 s :=
  h.imp (fun h => ⟨h.1, Head.join_right h.2⟩) (fun h => ⟨h.1, Head.join_right h.2⟩)
theorem le_holds (hl : a.le b = true) (h : a.holds s0 s) : b.holds s0 s := by
  simp only [le, Bool.and_eq_true] at hl
  exact h.imp (fun h => ⟨h.1, Head.le_has hl.1 h.2⟩) (fun h => ⟨h.1, Head.le_has hl.2 h.2⟩)
theorem not_never (h : never.holds s0 s) : False := by
  rcases h with ⟨_, h⟩ | ⟨_, h⟩
  · exact absurd (show Head.none_.has s.peekKind = true from h) (by simp [Head.none_has])
  · exact absurd (show Head.none_.has s.peekKind = true from h) (by simp [Head.none_has])
theorem isNever_holds (hn : a.isNever = true) (h : a.holds s0 s) : False := by
  simp only [isNever, Bool.and_eq_true] at hn
  rcases h with h | h
  · exact absurd h.2 (by simp [Head.isNone_has hn.1])
  · exact absurd h.2 (by simp [Head.isNone_has hn.2])
theorem only_holds {k : Nat} (h : a.holds s0 s) (hk : s.peekKind = some k) : (a.only k).holds s0 s := by
  unfold holds at h ⊢
  rw [hk] at h ⊢
  exact h.imp (fun h => ⟨h.1, Head.only_has h.2⟩) (fun h => ⟨h.1, Head.only_has h.2⟩)
theorem without_holds {k : Nat} (h : a.holds s0 s) (hk : s.peekKind ≠ some k) : (a.without k).holds s0 s :=
  h.imp (fun h => ⟨h.1, Head.without_has h.2 hk⟩) (fun h => ⟨h.1, Head.without_has h.2 hk⟩)
theorem atEnd_holds (h : a.holds s0 s) (hk : s.peekKind = none) : a.atEnd.holds s0 s := by
  unfold holds at h ⊢
  rw [hk] at h ⊢
  exact h
theorem going_holds (h : a.holds s0 s) {k : Nat} (hk : s.peekKind = some k) : a.going.holds s0 s := by
  unfold holds at h ⊢
  rw [hk] at h ⊢
  exact h
theorem later_holds {s1 : PState} (h : a.holds s1 s) (hl : s1.left < s0.left) : a.later.holds s0 s := by
  right
  rcases h with h | h
  · exact ⟨by omega, Head.join_left h.2⟩
  · exact ⟨by omega, Head.join_right h.2⟩
theorem same_holds (h : a.holds s0 s) (hl : s'.left = s.left) (hk : s'.peekKind = s.peekKind) : a.holds s0 s' := by
  unfold holds at *
  rw [hl, hk]; exact h
theorem andThen_holds (h : a.holds s0 s) (h' : b.holds s s') (hk : s'.left = s.left → s'.peekKind = s.peekKind) : (a.andThen b).holds s0 s' := by
  have hne : (a.u.isNone && a.m.isNone) = false := by
    cases hc : (a.u.isNone && a.m.isNone) with
    | false => rfl
    | true => exact (isNever_holds hc h).elim
  unfold holds andThen
  simp only [hne, Bool.false_eq_true, if_false]
  rcases h' with ⟨h1, h2⟩ | ⟨h1, h2⟩
  · rcases h with ⟨h3, h4⟩ | ⟨h3, h4⟩
    · exact .inl ⟨by omega, Head.meet_has (hk h1 ▸ h4) h2⟩
    · exact .inr ⟨by omega, Head.join_right (Head.meet_has (hk h1 ▸ h4) h2)⟩
  · right
    refine ⟨?_, Head.join_left h2⟩
    rcases h with h | h <;> omega

theorem read_holds {top : Head} (h : a.holds s0 s) (ht : top.has s'.peekKind = true)
    (hs : (s.peekKind = none ∧ s'.peekKind = none ∧ s'.left = s.left) ∨ (s.peekKind ≠ none ∧ s'.left < s.left)) :
    (a.read top).holds s0 s' := by
  rcases hs with ⟨h1, h2, h3⟩ | ⟨h1, h2⟩
  · rcases h with ⟨h4, h5⟩ | ⟨h4, h5⟩
    · rw [h1] at h5
      exact .inl ⟨by omega, by rw [h2]; exact h5⟩
    · rw [h1] at h5
      refine .inr ⟨by omega, ?_⟩
      simp only [read]
      split
      · exact ht
      · rw [h2]; exact h5
  · obtain ⟨k, hk⟩ := Option.ne_none_iff_exists'.1 h1
    have : (a.u.some_ || a.m.some_) = true := by
      rcases h with ⟨h4, h5⟩ | ⟨h4, h5⟩
      · rw [hk] at h5; simp [Head.some_has h5]
      · rw [hk] at h5; simp [Head.some_has h5]
    refine .inr ⟨?_, ?_⟩
    · rcases h with h | h <;> omega
    · simp only [read, this, if_true]; exact ht

theorem ate_holds {top : Head} {k : Nat} (h : a.holds s0 s) (ht : top.has s'.peekKind = true) (hk : s.peekKind = some k)
    (hs : s'.left < s.left) : (a.ate top k).holds s0 s' := by
  have : (a.u.has (some k) || a.m.has (some k)) = true := by
    rcases h with ⟨h4, h5⟩ | ⟨h4, h5⟩
    · rw [hk] at h5; simp [h5]
    · rw [hk] at h5; simp [h5]
  refine .inr ⟨?_, ?_⟩
  · rcases h with h | h <;> omega
  · simp only [ate, this, if_true]; exact ht

end Fact

/-! ### The check -/

/-- What is known when a statement ends, for every way to end, and the functions that are called before something is read, with what can
be next there. -/
structure Res where
  t : Fact
  f : Fact
  brk : Fact
  cont : Fact
  rt : Fact
  rf : Fact
  err : Fact
  calls : List (Nat × Head)

namespace Res

def get (r : Res) : Out → Fact
  | .val true => r.t
  | .val false => r.f
  | .brk => r.brk
  | .cont => r.cont
  | .ret true => r.rt
  | .ret false => r.rf
  | .err => r.err

def never : Res := ⟨.never, .never, .never, .never, .never, .never, .never, []⟩
/-- Both, except for values. -/
def others (a b : Res) : Res :=
  ⟨.never, .never, a.brk.join b.brk, a.cont.join b.cont, a.rt.join b.rt, a.rf.join b.rf, a.err.join b.err, a.calls ++ b.calls⟩
/-- Both. -/
def both (a b : Res) : Res := { others a b with t := a.t.join b.t, f := a.f.join b.f }
/-- In a later turn of a loop. -/
def later (a : Res) : Res := ⟨a.t.later, a.f.later, a.brk.later, a.cont.later, a.rt.later, a.rf.later, a.err.later, []⟩
/-- What the end of a loop is, from a turn. -/
def exits (c b : Res) : Res := { others { c with brk := c.brk, cont := c.cont } { b with brk := .never, cont := .never } with t := c.f.join b.brk }

end Res

/-- What can be next when a function is called, and what is known when it ends. -/
structure Sum where
  pre : Head
  t : Fact
  f : Fact
  err : Fact

def Sum.get (r : Sum) : Out → Fact
  | .val true => r.t
  | .val false => r.f
  | .err => r.err
  | _ => .never

/-- The check of a statement, given what is known at the start and of the functions. -/
def check (top : Head) (S : List Sum) : Prog → Fact → Option Res
  | val true, F => some { Res.never with t := F }
  | val false, F => some { Res.never with f := F }
  | sees k, F => some { Res.never with t := F.only k, f := F.without k }
  | more, F => some { Res.never with t := F.going, f := F.atEnd }
  | ask _, F => some { Res.never with t := F, f := F }
  | bump, F => some { Res.never with t := F.read top }
  | advance, F => some { Res.never with t := F.read top }
  | eat k, F => some { Res.never with t := F.ate top k, f := F.without k }
  | expect k, F => some { Res.never with t := F.ate top k, f := F.without k }
  | need k, F => some { Res.never with t := F.ate top k, err := F.without k }
  | fail _ _, F => some { Res.never with err := F }
  | set _ _, F => some { Res.never with t := F }
  | finish _, F => some { Res.never with t := F }
  | mark p, F => check top S p F
  | within _ p, F => check top S p F
  | remark, F => some { Res.never with t := F }
  | again, F => some { Res.never with t := F }
  | back, F => some { Res.never with t := F }
  | seq a b, F =>
    match check top S a F with
    | none => none
    | some A =>
      match check top S b (A.t.join A.f) with
      | none => none
      | some B => some { A.others B with t := B.t, f := B.f }
  | ite c a b, F =>
    match check top S c F with
    | none => none
    | some C =>
      match check top S a C.t with
      | none => none
      | some A =>
        match check top S b C.f with
        | none => none
        | some B => some { C.others (A.both B) with t := A.t.join B.t, f := A.f.join B.f }
  | loop c b, F =>
    match check top S c F with
    | none => none
    | some C =>
      match check top S b C.t with
      | none => none
      | some B =>
        match check top S c ⟨top, .none_⟩ with
        | none => none
        | some C2 =>
          match check top S b C2.t with
          | none => none
          | some B2 =>
            if B2.t.u.isNone && B2.f.u.isNone && B2.cont.u.isNone then some ((C.exits B).both (C2.exits B2).later) else none
  | brk, F => some { Res.never with brk := F }
  | cont, F => some { Res.never with cont := F }
  | ret true, F => some { Res.never with rt := F }
  | ret false, F => some { Res.never with rf := F }
  | catch_ p, F =>
    match check top S p F with
    | none => none
    | some P => some { P with f := P.f.join P.err, err := .never }
  | call j, F =>
    match S[j]? with
    | none => none
    | some G =>
      if F.u.le G.pre && F.m.le G.pre then
        some { Res.never with t := F.andThen G.t, f := F.andThen G.f, err := F.andThen G.err, calls := if F.u.isNone then [] else [(j, F.u)] }
      else none

/-- Everything that can be next where trivia are skipped. -/
def topOf (ign : List Nat) : Head := ⟨true, true, ign⟩

section
variable {ign : List Nat} {strict : Bool} {toks : List Tok} {s0 s s' : PState}

/-- Ignored, as a function. -/
abbrev isIgn (ign : List Nat) : Nat → Bool := fun k => ign.contains k

theorem Sound.top (h : Sound (isIgn ign) strict toks s) : (topOf ign).has s.peekKind = true := by
  unfold PState.peekKind
  cases hc : s.current with
  | none => rfl
  | some t =>
    have := h.quiet t hc
    simp only [Option.map_some, Head.has, topOf]
    rw [show ign.contains t.kind = false from this]
    rfl

theorem peekKind_of_left (h : s'.tokens = s.tokens) (hl : s'.left = s.left) : s'.peekKind = s.peekKind := by
  unfold PState.left at hl
  unfold PState.peekKind PState.current
  rw [h] at hl ⊢
  by_cases hi : s.index < s.tokens.length
  · have : s'.index = s.index := by omega
    rw [this]
  · rw [List.getElem?_eq_none (by omega), List.getElem?_eq_none (by omega)]

/-- The functions do what is known of them. -/
def CallsFact (ign : List Nat) (strict : Bool) (toks : List Tok) (S : List Sum) (calls : Nat → PState → Run (Out × PState)) : Prop :=
  ∀ j s o s' G, Sound (isIgn ign) strict toks s → S[j]? = some G → G.pre.has s.peekKind = true → calls j s = .ok (o, s') → (G.get o).holds s s'

theorem called_has {F : Fact} {h : Head} (hF : F.holds s0 s) (hu : F.u.le h = true) (hm : F.m.le h = true) : h.has s.peekKind = true := by
  rcases hF with ⟨_, k⟩ | ⟨_, k⟩
  · exact Head.le_has hu k
  · exact Head.le_has hm k

theorem others_left {a b : Res} {o : Out} (h : (a.get o).holds s0 s) (ho : ∀ v, o ≠ .val v) : ((a.others b).get o).holds s0 s := by
  cases o with
  | val v => exact absurd rfl (ho v)
  | ret v => cases v <;> exact Fact.join_left h
  | _ => exact Fact.join_left h

theorem others_right {a b : Res} {o : Out} (h : (b.get o).holds s0 s) (ho : ∀ v, o ≠ .val v) : ((a.others b).get o).holds s0 s := by
  cases o with
  | val v => exact absurd rfl (ho v)
  | ret v => cases v <;> exact Fact.join_right h
  | _ => exact Fact.join_right h

theorem both_left {a b : Res} {o : Out} (h : (a.get o).holds s0 s) : ((a.both b).get o).holds s0 s := by
  cases o with
  | val v => cases v <;> exact Fact.join_left h
  | ret v => cases v <;> exact Fact.join_left h
  | _ => exact Fact.join_left h

theorem both_right {a b : Res} {o : Out} (h : (b.get o).holds s0 s) : ((a.both b).get o).holds s0 s := by
  cases o with
  | val v => cases v <;> exact Fact.join_right h
  | ret v => cases v <;> exact Fact.join_right h
  | _ => exact Fact.join_right h

theorem later_get {a : Res} {o : Out} {s1 : PState} (h : (a.get o).holds s1 s) (hl : s1.left < s0.left) : (a.later.get o).holds s0 s := by
  cases o with
  | val v => cases v <;> exact Fact.later_holds h hl
  | ret v => cases v <;> exact Fact.later_holds h hl
  | _ => exact Fact.later_holds h hl

theorem exits_cond {C B : Res} {o : Out} (h : (C.get o).holds s0 s) (ho : ∀ v, o ≠ .val v) : ((C.exits B).get o).holds s0 s := by
  cases o with
  | val v => exact absurd rfl (ho v)
  | ret v => cases v <;> exact Fact.join_left h
  | _ => exact Fact.join_left h

theorem exits_body {C B : Res} {o : Out} (h : (B.get o).holds s0 s) (ho : ∀ v, o ≠ .val v) (hb : o ≠ .brk) (hc : o ≠ .cont) :
    ((C.exits B).get o).holds s0 s := by
  cases o with
  | val v => exact absurd rfl (ho v)
  | ret v => cases v <;> exact Fact.join_right h
  | brk => exact absurd rfl hb
  | cont => exact absurd rfl hc
  | err => exact Fact.join_right h

/-- Facts about a statement, from what is known at its start. -/
def Says (ign : List Nat) (strict : Bool) (toks : List Tok) (f : Loc → PState → Run (Out × Loc × PState)) (F : Fact) (R : Res) : Prop :=
  ∀ s0 l s o l' s', Sound (isIgn ign) strict toks s → l.cp.2 ≤ s.sink.length → F.holds s0 s → f l s = .ok (o, l', s') →
    (R.get o).holds s0 s'

theorem start_holds (h : Sound (isIgn ign) strict toks s) : (Fact.mk (topOf ign) .none_).holds s s := .inl ⟨rfl, h.top⟩

theorem holds_lt {F : Fact} (h : F.holds s0 s) (hu : F.u.isNone = true) : s.left < s0.left := by
  rcases h with ⟨_, h⟩ | ⟨h, _⟩
  · simp [Head.isNone_has hu] at h
  · exact h

theorem holds_le {F : Fact} (h : F.holds s0 s) : s.left ≤ s0.left := by
  rcases h with ⟨h, _⟩ | ⟨h, _⟩ <;> omega

theorem inj3 {α β γ : Type} {a a' : α} {b b' : β} {c c' : γ} (h : (Except.ok (a, b, c) : Run (α × β × γ)) = .ok (a', b', c')) :
    a = a' ∧ b = b' ∧ c = c' := by
  injection h with h
  exact ⟨(Prod.mk.inj h).1, Prod.mk.inj (Prod.mk.inj h).2⟩

section
variable {c body : Loc → PState → Run (Out × Loc × PState)} {C B C2 B2 : Res} {F : Fact}

theorem turns_later (kc : Keeps (isIgn ign) strict toks c) (kb : Keeps (isIgn ign) strict toks body)
    (hc : Says ign strict toks c ⟨topOf ign, .none_⟩ C2) (hb : Says ign strict toks body C2.t B2)
    (hu : (B2.t.u.isNone && B2.f.u.isNone && B2.cont.u.isNone) = true) (fuel : Nat) :
    ∀ s0 l s o l' s', Sound (isIgn ign) strict toks s → l.cp.2 ≤ s.sink.length → s.left < s0.left →
      turns c body fuel l s = .ok (o, l', s') → ((C2.exits B2).later.get o).holds s0 s' := by
  simp only [Bool.and_eq_true] at hu
  induction fuel with
  | zero => intro s0 l s o l' s' _ _ _ h; simp [turns] at h
  | succ fuel ih =>
    intro s0 l s o l' s' hs hl hlt h
    rw [turns] at h
    split at h
    · rename_i l1 s1 h1
      have k1 := kc _ _ _ _ _ hs hl h1
      have f1 := hc _ _ _ _ _ _ hs hl (start_holds hs) h1
      split at h
      · rename_i b l2 s2 h2
        have k2 := kb _ _ _ _ _ k1.sound k1.here h2
        have f2 := hb _ _ _ _ _ _ k1.sound k1.here f1 h2
        have : s2.left < s.left := by
          cases b
          · exact holds_lt f2 hu.1.2
          · exact holds_lt f2 hu.1.1
        exact ih _ _ _ _ _ _ k2.sound k2.here (by omega) h
      · rename_i l2 s2 h2
        have k2 := kb _ _ _ _ _ k1.sound k1.here h2
        have f2 := hb _ _ _ _ _ _ k1.sound k1.here f1 h2
        have := holds_lt f2 hu.2
        exact ih _ _ _ _ _ _ k2.sound k2.here (by omega) h
      · rename_i l2 s2 h2
        have f2 := hb _ _ _ _ _ _ k1.sound k1.here f1 h2
        obtain ⟨rfl, rfl, rfl⟩ := inj3 h
        exact later_get (o := .val true) (Fact.join_right f2) hlt
      · rename_i n1 n2 n3
        have f2 := hb _ _ _ _ _ _ k1.sound k1.here f1 h
        refine later_get (exits_body f2 ?_ ?_ ?_) hlt
        · rintro v rfl; exact n1 _ _ _ h
        · rintro rfl; exact n3 _ _ h
        · rintro rfl; exact n2 _ _ h
    · rename_i l1 s1 h1
      have f1 := hc _ _ _ _ _ _ hs hl (start_holds hs) h1
      obtain ⟨rfl, rfl, rfl⟩ := inj3 h
      exact later_get (o := .val true) (Fact.join_left f1) hlt
    · rename_i n1 n2
      have f1 := hc _ _ _ _ _ _ hs hl (start_holds hs) h
      refine later_get (exits_cond f1 ?_) hlt
      rintro v rfl
      cases v
      · exact n2 _ _ h
      · exact n1 _ _ h

theorem turns_says (kc : Keeps (isIgn ign) strict toks c) (kb : Keeps (isIgn ign) strict toks body)
    (hc : Says ign strict toks c F C) (hb : Says ign strict toks body C.t B)
    (hc2 : Says ign strict toks c ⟨topOf ign, .none_⟩ C2) (hb2 : Says ign strict toks body C2.t B2)
    (hu : (B2.t.u.isNone && B2.f.u.isNone && B2.cont.u.isNone) = true) (fuel : Nat) :
    Says ign strict toks (turns c body fuel) F ((C.exits B).both (C2.exits B2).later) := by
  have hu' := hu
  simp only [Bool.and_eq_true] at hu'
  cases fuel with
  | zero => intro s0 l s o l' s' _ _ _ h; simp [turns] at h
  | succ fuel =>
    intro s0 l s o l' s' hs hl hF h
    have hle := holds_le hF
    rw [turns] at h
    split at h
    · rename_i l1 s1 h1
      have k1 := kc _ _ _ _ _ hs hl h1
      have f1 := hc _ _ _ _ _ _ hs hl hF h1
      have g1 := hc2 _ _ _ _ _ _ hs hl (start_holds hs) h1
      split at h
      · rename_i b l2 s2 h2
        have k2 := kb _ _ _ _ _ k1.sound k1.here h2
        have g2 := hb2 _ _ _ _ _ _ k1.sound k1.here g1 h2
        have : s2.left < s.left := by
          cases b
          · exact holds_lt g2 hu'.1.2
          · exact holds_lt g2 hu'.1.1
        exact both_right (turns_later kc kb hc2 hb2 hu _ _ _ _ _ _ _ k2.sound k2.here (by omega) h)
      · rename_i l2 s2 h2
        have k2 := kb _ _ _ _ _ k1.sound k1.here h2
        have g2 := hb2 _ _ _ _ _ _ k1.sound k1.here g1 h2
        have := holds_lt g2 hu'.2
        exact both_right (turns_later kc kb hc2 hb2 hu _ _ _ _ _ _ _ k2.sound k2.here (by omega) h)
      · rename_i l2 s2 h2
        have f2 := hb _ _ _ _ _ _ k1.sound k1.here f1 h2
        obtain ⟨rfl, rfl, rfl⟩ := inj3 h
        exact both_left (o := .val true) (Fact.join_right f2)
      · rename_i n1 n2 n3
        have f2 := hb _ _ _ _ _ _ k1.sound k1.here f1 h
        refine both_left (exits_body f2 ?_ ?_ ?_)
        · rintro v rfl; exact n1 _ _ _ h
        · rintro rfl; exact n3 _ _ h
        · rintro rfl; exact n2 _ _ h
    · rename_i l1 s1 h1
      have f1 := hc _ _ _ _ _ _ hs hl hF h1
      obtain ⟨rfl, rfl, rfl⟩ := inj3 h
      exact both_left (o := .val true) (Fact.join_left f1)
    · rename_i n1 n2
      have f1 := hc _ _ _ _ _ _ hs hl hF h
      refine both_left (exits_cond f1 ?_)
      rintro v rfl
      cases v
      · exact n2 _ _ h
      · exact n1 _ _ h

end

theorem peek_none : s.peekKind = none ↔ s.current = none := by
  unfold PState.peekKind; cases s.current <;> simp

theorem exec_says (hl : (toks.map Tok.length).sum < 2 ^ 32) {src : Source} {slack : Nat} {S : List Sum}
    {calls : Nat → PState → Run (Out × PState)} (kcalls : CallsKeep (isIgn ign) strict toks calls)
    (hcalls : CallsFact ign strict toks S calls) (p : Prog) (hp : p.fits strict = true) :
    ∀ F R, check (topOf ign) S p F = some R → Says ign strict toks (exec (isIgn ign) src slack calls p) F R := by
  have keeps : ∀ p : Prog, p.fits strict = true → Keeps (isIgn ign) strict toks (exec (isIgn ign) src slack calls p) :=
    fun p hp => exec_keeps hl kcalls p hp
  induction p with
  | val b =>
    intro F R hR s0 l s o l' s' hs hcp hF h
    obtain ⟨rfl, rfl, rfl⟩ := inj3 h
    cases b <;> (injection hR with hR; subst hR; exact hF)
  | sees k =>
    intro F R hR s0 l s o l' s' hs hcp hF h
    obtain ⟨rfl, rfl, rfl⟩ := inj3 h
    injection hR with hR; subst hR
    cases hk : s.atKind k with
    | true => exact Fact.only_holds hF (by simpa [PState.atKind] using hk)
    | false => exact Fact.without_holds hF (by simpa [PState.atKind] using hk)
  | more =>
    intro F R hR s0 l s o l' s' hs hcp hF h
    obtain ⟨rfl, rfl, rfl⟩ := inj3 h
    injection hR with hR; subst hR
    by_cases hk : s.index < s.tokens.length
    · rw [decide_eq_true hk]
      exact Fact.going_holds hF (k := s.tokens[s.index].kind) (by simp [PState.peekKind, PState.current, hk])
    · rw [decide_eq_false hk]
      exact Fact.atEnd_holds hF (by simp [PState.peekKind, PState.current]; omega)
  | ask f =>
    intro F R hR s0 l s o l' s' hs hcp hF h
    obtain ⟨rfl, rfl, rfl⟩ := inj3 h
    injection hR with hR; subst hR
    cases f (view src l s) <;> exact hF
  | brk =>
    intro F R hR s0 l s o l' s' hs hcp hF h
    obtain ⟨rfl, rfl, rfl⟩ := inj3 h
    injection hR with hR; subst hR
    exact hF
  | cont =>
    intro F R hR s0 l s o l' s' hs hcp hF h
    obtain ⟨rfl, rfl, rfl⟩ := inj3 h
    injection hR with hR; subst hR
    exact hF
  | ret b =>
    intro F R hR s0 l s o l' s' hs hcp hF h
    obtain ⟨rfl, rfl, rfl⟩ := inj3 h
    cases b <;> (injection hR with hR; subst hR; exact hF)
  | set r f =>
    intro F R hR s0 l s o l' s' hs hcp hF h
    obtain ⟨rfl, rfl, rfl⟩ := inj3 h
    injection hR with hR; subst hR
    exact hF
  | again => simp [fits] at hp
  | back => simp [fits] at hp
  | remark =>
    intro F R hR s0 l s o l' s' hs hcp hF h
    obtain ⟨rfl, rfl, rfl⟩ := inj3 h
    injection hR with hR; subst hR
    exact hF
  | fail c f =>
    intro F R hR s0 l s o l' s' hs hcp hF h
    obtain ⟨rfl, rfl, rfl⟩ := inj3 h
    injection hR with hR; subst hR
    exact hF
  | bump =>
    intro F R hR s0 l s o l' s' hs hcp hF h
    injection hR with hR; subst hR
    obtain ⟨s1, h1, h2, h3, h4⟩ := hs.bump hl hcp
    simp only [exec, h1, run_bind_ok, run_pure, Except.ok.injEq, Prod.mk.injEq] at h
    obtain ⟨rfl, rfl, rfl⟩ := h
    refine Fact.read_holds hF h2.top ?_
    rw [peek_none, ne_eq, peek_none, peek_none]
    rcases h4 with ⟨h5, rfl⟩ | h5
    · exact .inl ⟨h5, h5, rfl⟩
    · exact .inr h5
  | advance =>
    intro F R hR s0 l s o l' s' hs hcp hF h
    injection hR with hR; subst hR
    cases strict with
    | true => simp [fits] at hp
    | false =>
      obtain ⟨s1, h1, h2, h3, h4⟩ := hs.advance hl hcp
      simp only [exec, h1, run_bind_ok, run_pure, Except.ok.injEq, Prod.mk.injEq] at h
      obtain ⟨rfl, rfl, rfl⟩ := h
      refine Fact.read_holds hF h2.top ?_
      rw [peek_none, ne_eq, peek_none, peek_none]
      exact h4
  | eat k =>
    intro F R hR s0 l s o l' s' hs hcp hF h
    injection hR with hR; subst hR
    obtain ⟨b, s1, h1, h2, h3, h4⟩ := hs.eat hl hcp k
    simp only [exec, h1, run_bind_ok, run_pure, Except.ok.injEq, Prod.mk.injEq] at h
    obtain ⟨rfl, rfl, rfl⟩ := h
    rcases h4 with ⟨rfl, h5, h6⟩ | ⟨rfl, h5, rfl⟩
    · exact Fact.ate_holds hF h2.top h5 h6
    · exact Fact.without_holds hF h5
  | expect k =>
    intro F R hR s0 l s o l' s' hs hcp hF h
    injection hR with hR; subst hR
    obtain ⟨b, s1, h1, h2, h3, h4⟩ := hs.expect hl hcp k
    simp only [exec, h1, run_bind_ok, run_pure, Except.ok.injEq, Prod.mk.injEq] at h
    obtain ⟨rfl, rfl, rfl⟩ := h
    rcases h4 with ⟨rfl, h5, h6⟩ | ⟨rfl, h5, h6, h7, _⟩
    · exact Fact.ate_holds hF h2.top h5 h6
    · exact Fact.same_holds (Fact.without_holds hF h5) h6 h7
  | need k =>
    intro F R hR s0 l s o l' s' hs hcp hF h
    injection hR with hR; subst hR
    obtain ⟨b, s1, h1, h2, h3, h4⟩ := hs.expect hl hcp k
    simp only [exec, h1, run_bind_ok, run_pure, Except.ok.injEq, Prod.mk.injEq] at h
    obtain ⟨rfl, rfl, rfl⟩ := h
    rcases h4 with ⟨rfl, h5, h6⟩ | ⟨rfl, h5, h6, h7, _⟩
    · exact Fact.ate_holds hF h2.top h5 h6
    · exact Fact.same_holds (Fact.without_holds hF h5) h6 h7
  | finish k =>
    intro F R hR s0 l s o l' s' hs hcp hF h
    injection hR with hR; subst hR
    obtain ⟨s1, h1, h2, h3, h4, _⟩ := hs.finish hl hcp (k l.regs)
    simp only [exec, h1, run_bind_ok, run_pure, Except.ok.injEq, Prod.mk.injEq] at h
    obtain ⟨rfl, rfl, rfl⟩ := h
    have hl' : s1.left = s.left := by unfold PState.left; rw [h4, h2.tokens, hs.tokens]
    exact Fact.same_holds hF hl' (peekKind_of_left (h2.tokens.trans hs.tokens.symm) hl')
  | within k p ih =>
    intro F R hR s0 l s o l' s' hs hcp hF h
    rw [exec] at h
    split at h
    · rename_i o1 l1 s1 h1
      have k1 := keeps p hp _ _ _ _ _ hs (Nat.le_refl _) h1
      obtain ⟨s2, h2, k2, k3, k4, k5⟩ := k1.sound.finish hl (cp := s.checkpoint) k1.moves.le k
      simp only [h2, Except.ok.injEq, Prod.mk.injEq] at h
      obtain ⟨rfl, rfl, rfl⟩ := h
      have hl' : s2.left = s1.left := by unfold PState.left; rw [k4, k2.tokens, k1.sound.tokens]
      exact Fact.same_holds (ih hp _ _ hR _ _ _ _ _ _ hs (Nat.le_refl _) hF h1) hl'
        (peekKind_of_left (k2.tokens.trans k1.sound.tokens.symm) hl')
    · simp at h
  | mark p ih =>
    intro F R hR s0 l s o l' s' hs hcp hF h
    rw [exec] at h
    split at h
    · rename_i o1 l1 s1 h1
      obtain ⟨rfl, rfl, rfl⟩ := inj3 h
      exact ih hp _ _ hR _ _ _ _ _ _ hs (Nat.le_refl _) hF h1
    · simp at h
  | seq a b iha ihb =>
    intro F R hR s0 l s o l' s' hs hcp hF h
    simp only [fits, Bool.and_eq_true] at hp
    rw [check] at hR
    cases hA : check (topOf ign) S a F with
    | none => rw [hA] at hR; simp at hR
    | some A =>
      rw [hA] at hR
      simp only at hR
      cases hB : check (topOf ign) S b (A.t.join A.f) with
      | none => rw [hB] at hR; simp at hR
      | some B =>
        rw [hB] at hR
        simp only [Option.some.injEq] at hR
        subst hR
        rw [exec] at h
        split at h
        · rename_i v l1 s1 h1
          have k1 := keeps a hp.1 _ _ _ _ _ hs hcp h1
          have f1 := iha hp.1 _ _ hA _ _ _ _ _ _ hs hcp hF h1
          have f1' : (A.t.join A.f).holds s0 s1 := by
            cases v
            · exact Fact.join_right f1
            · exact Fact.join_left f1
          have f2 := ihb hp.2 _ _ hB _ _ _ _ _ _ k1.sound k1.here f1' h
          cases o with
          | val v => cases v <;> exact f2
          | ret v => cases v <;> exact Fact.join_right f2
          | _ => exact Fact.join_right f2
        · rename_i n
          have f1 := iha hp.1 _ _ hA _ _ _ _ _ _ hs hcp hF h
          cases o with
          | val v => exact absurd h (n _ _ _)
          | ret v => cases v <;> exact Fact.join_left f1
          | _ => exact Fact.join_left f1
  | ite c a b ihc iha ihb =>
    intro F R hR s0 l s o l' s' hs hcp hF h
    simp only [fits, Bool.and_eq_true] at hp
    rw [check] at hR
    cases hC : check (topOf ign) S c F with
    | none => rw [hC] at hR; simp at hR
    | some C =>
      rw [hC] at hR
      simp only at hR
      cases hA : check (topOf ign) S a C.t with
      | none => rw [hA] at hR; simp at hR
      | some A =>
        rw [hA] at hR
        simp only at hR
        cases hB : check (topOf ign) S b C.f with
        | none => rw [hB] at hR; simp at hR
        | some B =>
          rw [hB] at hR
          simp only [Option.some.injEq] at hR
          subst hR
          rw [exec] at h
          split at h
          · rename_i l1 s1 h1
            have k1 := keeps c hp.1.1 _ _ _ _ _ hs hcp h1
            have f1 := ihc hp.1.1 _ _ hC _ _ _ _ _ _ hs hcp hF h1
            have f2 := iha hp.1.2 _ _ hA _ _ _ _ _ _ k1.sound k1.here f1 h
            cases o with
            | val v => cases v <;> exact Fact.join_left f2
            | ret v => cases v <;> exact Fact.join_right (Fact.join_left f2)
            | _ => exact Fact.join_right (Fact.join_left f2)
          · rename_i l1 s1 h1
            have k1 := keeps c hp.1.1 _ _ _ _ _ hs hcp h1
            have f1 := ihc hp.1.1 _ _ hC _ _ _ _ _ _ hs hcp hF h1
            have f2 := ihb hp.2 _ _ hB _ _ _ _ _ _ k1.sound k1.here f1 h
            cases o with
            | val v => cases v <;> exact Fact.join_right f2
            | ret v => cases v <;> exact Fact.join_right (Fact.join_right f2)
            | _ => exact Fact.join_right (Fact.join_right f2)
          · rename_i n1 n2
            have f1 := ihc hp.1.1 _ _ hC _ _ _ _ _ _ hs hcp hF h
            cases o with
            | val v =>
              cases v
              · exact absurd h (n2 _ _)
              · exact absurd h (n1 _ _)
            | ret v => cases v <;> exact Fact.join_left f1
            | _ => exact Fact.join_left f1
  | loop c b ihc ihb =>
    intro F R hR s0 l s o l' s' hs hcp hF h
    simp only [fits, Bool.and_eq_true] at hp
    rw [check] at hR
    cases hC : check (topOf ign) S c F with
    | none => rw [hC] at hR; simp at hR
    | some C =>
      rw [hC] at hR
      simp only at hR
      cases hB : check (topOf ign) S b C.t with
      | none => rw [hB] at hR; simp at hR
      | some B =>
        rw [hB] at hR
        simp only at hR
        cases hC2 : check (topOf ign) S c ⟨topOf ign, .none_⟩ with
        | none => rw [hC2] at hR; simp at hR
        | some C2 =>
          rw [hC2] at hR
          simp only at hR
          cases hB2 : check (topOf ign) S b C2.t with
          | none => rw [hB2] at hR; simp at hR
          | some B2 =>
            rw [hB2] at hR
            simp only at hR
            split at hR
            · rename_i hu
              injection hR with hR
              subst hR
              exact turns_says (keeps c hp.1) (keeps b hp.2)
                (ihc hp.1 _ _ hC) (ihb hp.2 _ _ hB) (ihc hp.1 _ _ hC2)
                (ihb hp.2 _ _ hB2) hu _ _ _ _ _ _ _ hs hcp hF h
            · simp at hR
  | catch_ p ih =>
    intro F R hR s0 l s o l' s' hs hcp hF h
    rw [check] at hR
    cases hP : check (topOf ign) S p F with
    | none => rw [hP] at hR; simp at hR
    | some P =>
      rw [hP] at hR
      simp only [Option.some.injEq] at hR
      subst hR
      rw [exec] at h
      split at h
      · rename_i l1 s1 h1
        obtain ⟨rfl, rfl, rfl⟩ := inj3 h
        exact Fact.join_right (ih hp _ _ hP _ _ _ _ _ _ hs hcp hF h1)
      · rename_i n
        have f1 := ih hp _ _ hP _ _ _ _ _ _ hs hcp hF h
        cases o with
        | val v =>
          cases v
          · exact Fact.join_left f1
          · exact f1
        | ret v => cases v <;> exact f1
        | err => exact absurd h (n _ _)
        | _ => exact f1
  | call j =>
    intro F R hR s0 l s o l' s' hs hcp hF h
    rw [check] at hR
    cases hG : S[j]? with
    | none => rw [hG] at hR; simp at hR
    | some G =>
      rw [hG] at hR
      simp only at hR
      split at hR
      case isFalse => simp at hR
      rename_i hpre
      simp only [Bool.and_eq_true] at hpre
      simp only [Option.some.injEq] at hR
      subst hR
      rw [exec] at h
      split at h
      · rename_i o1 s1 h1
        obtain ⟨rfl, rfl, rfl⟩ := inj3 h
        have f1 := hcalls _ _ _ _ _ hs hG (called_has hF hpre.1 hpre.2) h1
        have k1 := (kcalls _ _ _ _ hs h1).1
        have hk := peekKind_of_left (s' := s1) (s := s) (k1.tokens.trans hs.tokens.symm)
        cases o1 with
        | val v => cases v <;> exact Fact.andThen_holds hF f1 hk
        | err => exact Fact.andThen_holds hF f1 hk
        | _ => exact (Fact.not_never f1).elim
      · simp at h

end
end Prog
end Oaks
