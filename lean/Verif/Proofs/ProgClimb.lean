import Verif.Spec.OpDraw
import Verif.Proofs.ProgTrace

/-! Parsers with operator precedence that are programs: what they make of a row of operands and operators. -/
namespace Oaks.Prog
open Spec

/-- What is known of a parser: its functions, the kinds of the operands, of the operators with their precedence, of tokens that end an
expression; the functions that parse expressions, with the least precedence, and those that parse an operand; the kinds of nodes. -/
structure OpParser where
  ign : List Nat
  procs : List Prog
  atoms : List Nat
  ops : List (Nat × Nat × Assoc)
  stops : List Nat
  levels : List (Nat × Nat)
  firsts : List Nat
  operand : Nat → Nat
  operation : Nat → Nat

namespace OpParser

/-- How deep calls are looked into. -/
def look : Nat := 6

def tell (P : OpParser) (p : Prog) (hs : List Nat) (fin : Bool) : Option Told := traceWith (traceCall P.procs look) p hs fin

/-- A function that parses expressions: whether it is in `mark`, the function for the first operand, the condition of the loop. -/
def shape : Prog → Option (Bool × Nat × Prog)
  | .mark (.seq (.call p) (.loop c (.val true))) => some (true, p, c)
  | .seq (.call p) (.loop c (.val true)) => some (false, p, c)
  | _ => none

/-- What can come after an operand. -/
def nexts (P : OpParser) : List (List Nat × Bool) :=
  ([], true) :: (P.ops.map fun o => ([o.1], false)) ++ (P.stops.map fun k => ([k], false))

def next (prec : Nat) (a : Assoc) : Nat := if a = .right then prec else prec + 1

def firstOk (P : OpParser) (p : Nat) : Bool :=
  P.atoms.all fun a => P.nexts.all fun x =>
    decide (P.tell (.call p) (a :: x.1) x.2 = some ⟨x.1, x.2, true, [.bump, .close (P.operand a)], some (.val true)⟩)

def turnOk (P : OpParser) (marked : Bool) (min : Nat) (c : Prog) : Bool :=
  (P.ops.all fun o => P.atoms.all fun a =>
    if o.2.1 < min then decide (P.tell c [o.1, a] false = some (.quiet [o.1, a] false false))
    else
      match P.tell c [o.1, a] false with
      | some ⟨_, _, m, [.bump, .call g, .close k], some (.val true)⟩ =>
        marked && !m && k == P.operation o.1 && P.levels.contains (g, next o.2.1 o.2.2)
      | some ⟨_, _, m, [.back, .bump, .call g, .close k], some (.val true)⟩ =>
        !marked && m && k == P.operation o.1 && P.levels.contains (g, next o.2.1 o.2.2)
      | _ => false) &&
  decide (P.tell c [] true = some (.quiet [] true false)) &&
  P.stops.all fun k => decide (P.tell c [k] false = some (.quiet [k] false false))

def levelOk (P : OpParser) (f min : Nat) : Bool :=
  match P.procs[f]? with
  | some (.call g) =>
    match (P.procs[g]?).bind shape with
    | some (m, p, c) => P.firsts.contains p && P.turnOk m min c
    | none => false
  | some q =>
    match shape q with
    | some (m, p, c) => P.firsts.contains p && P.turnOk m min c
    | none => false
  | none => false

/-- The parser does what is said of it. -/
def check (P : OpParser) : Bool :=
  (P.atoms.all fun k => !P.ign.contains k) && (P.ops.all fun o => !P.ign.contains o.1) && (P.stops.all fun k => !P.ign.contains k) &&
  P.firsts.all P.firstOk && P.levels.all fun l => P.levelOk l.1 l.2

def draw (P : OpParser) (e : Expr) : Green := e.drawn P.operand P.operation

def Operand (P : OpParser) (w : Word) : Prop := w.Ok (fun k => P.ign.contains k) ∧ w.tok.kind ∈ P.atoms
def Operator (P : OpParser) (o : Op) : Prop := o.word.Ok (fun k => P.ign.contains k) ∧ (o.word.tok.kind, o.prec, o.assoc) ∈ P.ops
def Over (P : OpParser) (tail : List Tok) : Prop := ∀ t ts, tail = t :: ts → t.kind ∈ P.stops

theorem draw_len (P : OpParser) (e : Expr) : (P.draw e).len = toksLen e.toks := by cases e <;> rfl
theorem draw_isNode (P : OpParser) (e : Expr) (a : Nat) : (Entry.mk (P.draw e) a).isNodeAt a = true := by
  cases e <;> simp [Entry.isNodeAt, draw, Expr.drawn]

variable {P : OpParser} {src : Source} {slack : Nat}

/-- What comes next in front of a row. -/
def nextOf : List (Op × Word) → List Tok → List Nat × Bool
  | (o, _) :: _, _ => ([o.word.tok.kind], false)
  | [], t :: _ => ([t.kind], false)
  | [], [] => ([], true)

theorem nextOf_mem {is : List (Op × Word)} {tail : List Tok} (h : ∀ x ∈ is, P.Operator x.1 ∧ P.Operand x.2) (he : P.Over tail) :
    nextOf is tail ∈ P.nexts := by
  match is, tail, h with
  | (o, w) :: is, _, h =>
    simp only [nextOf, nexts, List.cons_append, List.mem_cons, List.mem_append, List.mem_map]
    exact .inr (.inl ⟨_, (h _ (List.mem_cons_self ..)).1.2, rfl⟩)
  | [], t :: ts, _ =>
    simp only [nextOf, nexts, List.cons_append, List.mem_cons, List.mem_append, List.mem_map]
    exact .inr (.inr ⟨_, he t ts rfl, rfl⟩)
  | [], [], _ => simp [nextOf, nexts]

theorem check_stops (hP : P.check = true) {k : Nat} (h : k ∈ P.stops) : P.ign.contains k = false := by
  simp only [check, Bool.and_eq_true, List.all_eq_true] at hP
  simpa using hP.1.1.2 k h

/-- The head of a row is significant. -/
theorem over_head (hP : P.check = true) {is : List (Op × Word)} {tail : List Tok} (h : ∀ x ∈ is, P.Operator x.1 ∧ P.Operand x.2)
    (he : P.Over tail) : ∀ t ts, itemToks is ++ tail = t :: ts → P.ign.contains t.kind = false := by
  intro t ts ht
  match is, h with
  | [], _ => exact check_stops hP (he t ts ht)
  | (o, w) :: is, h =>
    simp only [itemToks, Word.toks, List.cons_append, List.cons.injEq] at ht
    rw [← ht.1]; exact (h _ (List.mem_cons_self ..)).1.1.1

theorem takeWhile_split (ign : Nat → Bool) (ts : List Tok) : ∃ a b, ts = a ++ b ∧ (∀ t ∈ a, ign t.kind = true) ∧
    ∀ t us, b = t :: us → ign t.kind = false := by
  induction ts with
  | nil => exact ⟨[], [], rfl, by simp, by simp⟩
  | cons t ts ih =>
    by_cases hk : ign t.kind = true
    · obtain ⟨a, b, h1, h2, h3⟩ := ih
      refine ⟨t :: a, b, by rw [h1]; rfl, ?_, h3⟩
      intro u hu
      rcases List.mem_cons.1 hu with rfl | hu
      · exact hk
      · exact h2 u hu
    · refine ⟨[], t :: ts, rfl, by simp, ?_⟩
      intro u us hu
      injection hu with hu _
      subst hu
      simpa using hk

/-- Words in front of a row. -/
theorem fits_row (hP : P.check = true) {s : PState} {ws : List Word} {is : List (Op × Word)} {tail : List Tok}
    (hs : s.tokens.drop s.index = ws.flatMap Word.toks ++ (itemToks is ++ tail)) (hw : ∀ w ∈ ws, w.Ok (fun k => P.ign.contains k))
    (h : ∀ x ∈ is, P.Operator x.1 ∧ P.Operand x.2) (he : P.Over tail) (hl : toksLen (s.tokens.drop s.index) < 2 ^ 32) :
    Fits (fun k => P.ign.contains k) (ws.map (·.tok.kind) ++ (nextOf is tail).1) (nextOf is tail).2 s := by
  right
  rw [hs] at hl
  simp only [toksLen_append] at hl
  match is, tail, h, he, hs, hl with
  | (o, w) :: is, tail, h, he, hs, hl =>
    refine ⟨ws ++ [o.word], w.toks ++ (itemToks is ++ tail), by rw [hs]; simp [itemToks], by simp [nextOf], ?_, ?_, by simp [nextOf], ?_⟩
    · intro v hv
      rcases List.mem_append.1 hv with hv | hv
      · exact hw v hv
      · rw [List.mem_singleton.1 hv]; exact (h _ (List.mem_cons_self ..)).1.1
    · intro t ts ht
      simp only [Word.toks, List.cons_append, List.cons.injEq] at ht
      rw [← ht.1]; exact (h _ (List.mem_cons_self ..)).2.1.1
    · simp only [itemToks, toksLen_append] at hl
      simp only [List.flatMap_append, List.flatMap_cons, List.flatMap_nil, List.append_nil, toksLen_append]; omega
  | [], t :: ts, h, he, hs, hl =>
    obtain ⟨a, b, h1, h2, h3⟩ := takeWhile_split (fun k => P.ign.contains k) ts
    subst h1
    refine ⟨ws ++ [⟨t, a⟩], b, by rw [hs]; simp [itemToks, Word.toks], by simp [nextOf], ?_, h3, by simp [nextOf], ?_⟩
    · intro v hv
      rcases List.mem_append.1 hv with hv | hv
      · exact hw v hv
      · rw [List.mem_singleton.1 hv]; exact ⟨check_stops hP (he t _ rfl), h2⟩
    · simp only [itemToks, toksLen, List.map_nil, List.sum_nil, List.map_cons, List.sum_cons, List.map_append, List.sum_append] at hl
      simp only [List.flatMap_append, List.flatMap_cons, List.flatMap_nil, List.append_nil, toksLen_append, Word.toks]
      simp only [toksLen, List.map_cons, List.sum_cons]; omega
  | [], [], h, he, hs, hl =>
    exact ⟨ws, [], by rw [hs]; simp [itemToks], by simp [nextOf], hw, by simp, by simp, by omega⟩

/-- What holds after an expression: it is one node, at the place where it began, and the tokens after it are left. -/
def Made (P : OpParser) (s s' : PState) (pre : List Entry) (e : Expr) (left : List Tok) : Prop :=
  s'.sink = pre ++ [⟨P.draw e, s'.fresh - 1⟩] ∧ 0 < s'.fresh ∧ s'.tokens = s.tokens ∧ s'.errors = s.errors ∧
    s'.tokens.drop s'.index = left

/-- The loop, from an expression and a row to an expression and a row. -/
def Goes (P : OpParser) (src : Source) (slack : Nat) (min : Nat) (e : Expr) (is : List (Op × Word)) (f : Expr) (js : List (Op × Word)) :
    Prop :=
  ∀ (marked : Bool) (c : Prog), P.turnOk marked min c = true → ∀ (D : Nat) (l : Loc) (s : PState) (pre : List Entry) (tail : List Tok)
    (fuel : Nat), s.sink = pre ++ [⟨P.draw e, s.fresh - 1⟩] → 0 < s.fresh → (l.regs = fun _ => 0) →
    (marked = true → l.cp.2 = pre.length) → s.tokens.drop s.index = itemToks is ++ tail →
    (∀ x ∈ is, P.Operator x.1 ∧ P.Operand x.2) → P.Over tail → toksLen e.toks + toksLen (s.tokens.drop s.index) < 2 ^ 32 →
    look + 2 * is.length ≤ D → is.length < fuel →
    ∃ s', turns (exec (fun k => P.ign.contains k) src slack (calls (fun k => P.ign.contains k) src slack P.procs D) c)
        (exec (fun k => P.ign.contains k) src slack (calls (fun k => P.ign.contains k) src slack P.procs D) (.val true)) fuel l s =
          .ok (.val true, l, s') ∧ P.Made s s' pre f (itemToks js ++ tail)

theorem tell_sound {D : Nat} (hD : look ≤ D) {p : Prog} {hs : List Nat} {fin : Bool} {r : Told} (h : P.tell p hs fin = some r) :
    TraceSound (fun k => P.ign.contains k) src slack (calls (fun k => P.ign.contains k) src slack P.procs D) p hs fin r :=
  traceWith_sound (traceCall_sound look D hD) p hs fin r h

/-- The first operand. -/
theorem first_run (hP : P.check = true) {p : Nat} (hp : P.firstOk p = true) {D : Nat} (hD : look ≤ D) {l : Loc} {s : PState} {w : Word}
    {is : List (Op × Word)} {tail : List Tok} (hl : l.regs = fun _ => 0) (hw : P.Operand w)
    (hs : s.tokens.drop s.index = w.toks ++ (itemToks is ++ tail)) (h : ∀ x ∈ is, P.Operator x.1 ∧ P.Operand x.2) (he : P.Over tail)
    (hlen : toksLen (s.tokens.drop s.index) < 2 ^ 32) :
    ∃ s', exec (fun k => P.ign.contains k) src slack (calls (fun k => P.ign.contains k) src slack P.procs D) (.call p) l s =
      .ok (.val true, l, s') ∧ P.Made s s' s.sink (.atom w) (itemToks is ++ tail) := by
  have hwl : toksLen w.toks < 2 ^ 32 := by rw [hs] at hlen; simp only [toksLen_append] at hlen; omega
  have hf := fits_row hP (ws := [w]) (by simpa using hs) (by simpa using hw.1) h he hlen
  simp only [firstOk, List.all_eq_true, decide_eq_true_eq] at hp
  have ht := hp _ hw.2 _ (nextOf_mem h he)
  obtain ⟨b1, _⟩ := bump_word s w (itemToks is ++ tail) hw.1 hs (over_head hP h he) hwl
  have e : (w.leaves.map (fun g => (⟨g, 0⟩ : Entry))).map Entry.tree = w.leaves := by simp [Function.comp_def]
  have hfin := finishAt_suffix { s with index := s.index + w.toks.length, sink := s.sink ++ w.leaves.map (fun g => (⟨g, 0⟩ : Entry)) } s.sink _ rfl
    s.checkpoint rfl (P.operand w.tok.kind) (by rw [e, leaves_len]; exact hwl)
  rw [e, leaves_len] at hfin
  have hr : runActs (fun k => P.ign.contains k) src slack (calls (fun k => P.ign.contains k) src slack P.procs D)
      [.bump, .close (P.operand w.tok.kind)] (before true l s) s = .ok (before true l s, { s with
        index := s.index + w.toks.length, sink := s.sink ++ [⟨P.draw (.atom w), s.fresh⟩], fresh := s.fresh + 1 }) := by
    simp only [runActs, Act.prog, exec, b1, bind, Except.bind, pure, Except.pure]
    have : (before true l s).cp = s.checkpoint := rfl
    rw [this, hfin]
    rfl
  obtain ⟨o, e1, e2, _⟩ := tell_sound (src := src) (slack := slack) hD ht l _ s _ hf hl hr
  have e2' : o = .val true := e2
  subst e2'
  refine ⟨{ s with index := s.index + w.toks.length, sink := s.sink ++ [⟨P.draw (.atom w), s.fresh⟩], fresh := s.fresh + 1 },
    e1.trans ?_, rfl, Nat.succ_pos s.fresh, rfl, rfl, drop_past hs⟩
  rfl

/-- A function that parses expressions. -/
theorem level_run (hP : P.check = true) {f min : Nat} (hf : (f, min) ∈ P.levels) {w : Word} {is js : List (Op × Word)} {r : Expr}
    (hg : Goes P src slack min (.atom w) is r js) {D : Nat} (hD : look + 2 + 2 * is.length ≤ D) {s : PState} {tail : List Tok}
    (hw : P.Operand w) (hs : s.tokens.drop s.index = w.toks ++ (itemToks is ++ tail))
    (h : ∀ x ∈ is, P.Operator x.1 ∧ P.Operand x.2) (he : P.Over tail) (hlen : toksLen (s.tokens.drop s.index) < 2 ^ 32) :
    ∃ s', calls (fun k => P.ign.contains k) src slack P.procs D f s = .ok (.val true, s') ∧
      P.Made s s' s.sink r (itemToks js ++ tail) := by
  have main : ∀ (D : Nat) (l : Loc) (q : Prog) (m : Bool) (p : Nat) (c : Prog), shape q = some (m, p, c) → P.firstOk p = true →
      P.turnOk m min c = true → look + 2 * is.length ≤ D → (l.regs = fun _ => 0) → ∃ l' s',
      exec (fun k => P.ign.contains k) src slack (calls (fun k => P.ign.contains k) src slack P.procs D) q l s = .ok (.val true, l', s') ∧
      P.Made s s' s.sink r (itemToks js ++ tail) := by
    intro D l q m p c hq h1 h2 hD hl
    have body : ∀ l : Loc, (l.regs = fun _ => 0) → (m = true → l.cp.2 = s.sink.length) → ∃ s',
        exec (fun k => P.ign.contains k) src slack (calls (fun k => P.ign.contains k) src slack P.procs D)
          (.seq (.call p) (.loop c (.val true))) l s = .ok (.val true, l, s') ∧ P.Made s s' s.sink r (itemToks js ++ tail) := by
      intro l hl hcp
      obtain ⟨s1, e1, e2, e3, e4, e5, e6⟩ := first_run (src := src) (slack := slack) hP h1 (by omega : look ≤ D) hl hw hs h he hlen
      have hle : is.length ≤ s1.tokens.length - s1.index := by
        have h1 := itemToks_length is
        have h2 : (s1.tokens.drop s1.index).length = (itemToks is ++ tail).length := by rw [e6]
        simp only [List.length_drop, List.length_append] at h2
        omega
      obtain ⟨s2, g1, g2, g3, g4, g5, g6⟩ := hg m c h2 D l s1 s.sink tail (slack + (s1.tokens.length - s1.index + 1)) e2 e3 hl hcp e6 h he (by
        rw [e6]; rw [hs] at hlen; simp only [toksLen_append, Expr.toks] at hlen ⊢; omega) hD (by omega)
      refine ⟨s2, ?_, g2, g3, g4.trans e4, g5.trans e5, g6⟩
      rw [exec, e1]
      simp only
      rw [exec, g1]
    unfold shape at hq
    split at hq
    · injection hq with hq; injection hq with q1 hq; injection hq with q2 q3
      subst q1 q2 q3
      obtain ⟨s', b1, b2⟩ := body { l with cp := s.checkpoint } hl (fun _ => rfl)
      exact ⟨_, s', by rw [exec, b1], b2⟩
    · injection hq with hq; injection hq with q1 hq; injection hq with q2 q3
      subst q1 q2 q3
      obtain ⟨s', b1, b2⟩ := body l hl (by simp)
      exact ⟨_, s', b1, b2⟩
    · cases hq
  have hlev : P.levelOk f min = true := by
    simp only [check, Bool.and_eq_true, List.all_eq_true] at hP
    exact hP.2 _ hf
  have hfst : ∀ p, P.firsts.contains p = true → P.firstOk p = true := by
    simp only [check, Bool.and_eq_true, List.all_eq_true] at hP
    exact fun p hp => hP.1.2 p (List.contains_iff_mem.mp hp)
  obtain ⟨D, rfl⟩ : ∃ d, D = d + 1 + 1 := ⟨D - 2, by omega⟩
  have call : ∀ (D f : Nat) (q : Prog) (m : Bool) (p : Nat) (c : Prog), P.procs[f]? = some q → shape q = some (m, p, c) →
      P.firstOk p = true → P.turnOk m min c = true → look + 2 * is.length ≤ D → ∃ s',
      calls (fun k => P.ign.contains k) src slack P.procs (D + 1) f s = .ok (.val true, s') ∧ P.Made s s' s.sink r (itemToks js ++ tail) := by
    intro D f q m p c h0 h1 h2 h3 h4
    obtain ⟨l', s', g1, g2⟩ := main D ⟨s.checkpoint, fun _ => 0⟩ q m p c h1 h2 h3 h4 rfl
    exact ⟨s', by rw [calls, h0]; simp only [g1], g2⟩
  unfold levelOk at hlev
  split at hlev
  · rename_i g h0
    cases hq : P.procs[g]? with
    | none => rw [hq] at hlev; simp at hlev
    | some q =>
      rw [hq] at hlev
      simp only [Option.bind_some] at hlev
      split at hlev
      · rename_i m p c h1
        simp only [Bool.and_eq_true] at hlev
        obtain ⟨s', g1, g2⟩ := call D g q m p c hq h1 (hfst p hlev.1) hlev.2 (by omega)
        refine ⟨s', ?_, g2⟩
        rw [calls, h0]
        simp only [exec, g1]
      · cases hlev
  · rename_i q _ h0
    split at hlev
    · rename_i m p c h1
      simp only [Bool.and_eq_true] at hlev
      exact call (D + 1) f q m p c h0 h1 (hfst p hlev.1) hlev.2 (by omega)
    · cases hlev
  · cases hlev

theorem row_len {w : Word} {is js : List (Op × Word)} {r : Expr} {min : Nat} (h : Climb min (.atom w) is r js) :
    toksLen r.toks + toksLen (itemToks js) = toksLen w.toks + toksLen (itemToks is) ∧ ∀ x ∈ js, x ∈ is := by
  obtain ⟨_, _, _, _, q5, q6⟩ := h.sound trivial (by simp [Expr.leftSpine]) (by cases is <;> simp [HeadKept, Expr.rightSpine])
  simp only [Expr.first, Expr.items, List.nil_append] at q5 q6
  have happ : ∀ a b : List (Op × Word), itemToks (a ++ b) = itemToks a ++ itemToks b := by
    intro a b
    induction a with
    | nil => rfl
    | cons x a ih => obtain ⟨o, w⟩ := x; simp [itemToks, ih]
  refine ⟨?_, fun x hx => by rw [← q6]; simp [hx]⟩
  rw [expr_toks r, q5, toksLen_append, ← q6, happ, toksLen_append]; omega

/-- An operator with its right operand. -/
theorem turn_run (hP : P.check = true) {marked : Bool} {min : Nat} {c : Prog} (hc : P.turnOk marked min c = true) {D : Nat} {l : Loc}
    {s : PState} {pre : List Entry} {e r : Expr} {o : Op} {w : Word} {is js : List (Op × Word)} {tail : List Tok}
    (hsink : s.sink = pre ++ [⟨P.draw e, s.fresh - 1⟩]) (hl : l.regs = fun _ => 0)
    (hcp : marked = true → l.cp.2 = pre.length) (hs : s.tokens.drop s.index = itemToks ((o, w) :: is) ++ tail)
    (h : ∀ x ∈ (o, w) :: is, P.Operator x.1 ∧ P.Operand x.2) (he : P.Over tail)
    (hlen : toksLen e.toks + toksLen (s.tokens.drop s.index) < 2 ^ 32) (hD : look + 2 + 2 * is.length ≤ D) (hmin : min ≤ o.prec)
    (hg : Goes P src slack o.next (.atom w) is r js) (hcl : Climb o.next (.atom w) is r js) :
    ∃ s', exec (fun k => P.ign.contains k) src slack (calls (fun k => P.ign.contains k) src slack P.procs D) c l s = .ok (.val true, l, s') ∧
      P.Made s s' pre (.bin e o r) (itemToks js ++ tail) := by
  obtain ⟨ho, hw⟩ := h (o, w) (List.mem_cons_self ..)
  have h' : ∀ x ∈ is, P.Operator x.1 ∧ P.Operand x.2 := fun x hx => h x (List.mem_cons_of_mem _ hx)
  have hs0 : s.tokens.drop s.index = o.word.toks ++ (w.toks ++ (itemToks is ++ tail)) := by rw [hs]; simp [itemToks]
  have hlen0 := hlen
  rw [hs0] at hlen0
  simp only [toksLen_append] at hlen0
  -- the operator
  obtain ⟨b1, _⟩ := bump_word (ign := fun k => P.ign.contains k) s o.word (w.toks ++ (itemToks is ++ tail)) ho.1 hs0 (by
    intro t ts ht
    simp only [Word.toks, List.cons_append, List.cons.injEq] at ht
    rw [← ht.1]; exact hw.1.1) (by omega)
  have hs1 := drop_past hs0
  -- the right operand
  have hcall : ∀ g, (g, o.next) ∈ P.levels → ∃ s2, calls (fun k => P.ign.contains k) src slack P.procs D g { s with
        index := s.index + o.word.toks.length
        sink := s.sink ++ o.word.leaves.map (fun g => (⟨g, 0⟩ : Entry)) } = .ok (.val true, s2) ∧
      P.Made s s2 (s.sink ++ o.word.leaves.map (fun g => (⟨g, 0⟩ : Entry))) r (itemToks js ++ tail) := by
    intro g hgl
    obtain ⟨s2, g1, g2⟩ := level_run hP hgl hg hD (s := { s with
        index := s.index + o.word.toks.length
        sink := s.sink ++ o.word.leaves.map (fun g => (⟨g, 0⟩ : Entry)) }) (tail := tail) hw hs1 h' he (by
      show toksLen (s.tokens.drop (s.index + o.word.toks.length)) < _
      rw [hs1]; simp only [toksLen_append]; omega)
    exact ⟨s2, g1, g2⟩
  -- the node
  obtain ⟨hrl, _⟩ := row_len hcl
  have hbin : toksLen (Expr.bin e o r).toks = toksLen e.toks + (toksLen o.word.toks + toksLen r.toks) := by
    simp [Expr.toks, toksLen_append]
  have hfinish : ∀ (s2 : PState) (cp : Nat × Nat), cp.2 = pre.length →
      P.Made s s2 (s.sink ++ o.word.leaves.map (fun g => (⟨g, 0⟩ : Entry))) r (itemToks js ++ tail) →
      ∃ v s3, s2.finishAt cp (P.operation o.word.tok.kind) = .ok (v, s3) ∧ P.Made s s3 pre (.bin e o r) (itemToks js ++ tail) := by
    intro s2 cp hcp hm
    obtain ⟨m1, m2, m3, m4, m5⟩ := hm
    have htrees : ((([⟨P.draw e, s.fresh - 1⟩] : List Entry) ++ o.word.leaves.map (fun g => (⟨g, 0⟩ : Entry)) ++
        ([⟨P.draw r, s2.fresh - 1⟩] : List Entry)).map Entry.tree) = P.draw e :: o.word.leaves ++ [P.draw r] := by
      simp [Function.comp_def]
    have htl : lenSum (P.draw e :: o.word.leaves ++ [P.draw r]) = toksLen (Expr.bin e o r).toks := by
      rw [List.cons_append, lenSum_cons, lenSum_append, lenSum_cons, lenSum_nil, draw_len, draw_len, leaves_len]
      simp only [Expr.toks, toksLen_append]; omega
    have hfin := finishAt_suffix s2 pre ([⟨P.draw e, s.fresh - 1⟩] ++ o.word.leaves.map (fun g => (⟨g, 0⟩ : Entry)) ++
        [⟨P.draw r, s2.fresh - 1⟩]) (by rw [m1, hsink]; simp) cp hcp (P.operation o.word.tok.kind) (by rw [htrees, htl]; omega)
    rw [htrees, htl] at hfin
    exact ⟨_, _, hfin, rfl, Nat.succ_pos _, m3, m4, m5⟩
  -- what is told
  simp only [turnOk, Bool.and_eq_true, List.all_eq_true] at hc
  have ht := hc.1.1 _ ho.2 _ hw.2
  rw [if_neg (by simpa using hmin)] at ht
  have hf : Fits (fun k => P.ign.contains k) [o.word.tok.kind, w.tok.kind] false s := by
    refine .inr ⟨[o.word, w], itemToks is ++ tail, by rw [hs0]; simp, rfl, ?_, over_head hP h' he, by simp, ?_⟩
    · intro v hv
      simp only [List.mem_cons, List.not_mem_nil, or_false] at hv
      rcases hv with rfl | rfl
      · exact ho.1
      · exact hw.1
    · simp only [List.flatMap_cons, List.flatMap_nil, List.append_nil, toksLen_append]; omega
  split at ht
  · rename_i hs' fin' m g k hx
    simp only [Bool.and_eq_true, Bool.not_eq_true', beq_iff_eq, List.contains_iff_mem] at ht
    obtain ⟨⟨⟨hm, hm'⟩, rfl⟩, hgl⟩ := ht
    obtain ⟨s2, c1, c2⟩ := hcall g hgl
    obtain ⟨v, s3, f1, f2⟩ := hfinish s2 l.cp (hcp hm) c2
    have hr : runActs (fun k => P.ign.contains k) src slack (calls (fun k => P.ign.contains k) src slack P.procs D)
        [.bump, .call g, .close (P.operation o.word.tok.kind)] (before m l s) s = .ok (l, s3) := by
      simp only [hm', before, Bool.false_eq_true, if_false, runActs, Act.prog, exec, b1, bind, Except.bind, pure, Except.pure, c1, f1]
    obtain ⟨o', e1, e2, _⟩ := tell_sound (src := src) (slack := slack) (by omega : look ≤ D) hx l _ s _ hf hl hr
    have e2' : o' = .val true := e2
    subst e2'
    refine ⟨s3, e1.trans ?_, f2⟩
    simp only [hm', after, Bool.false_eq_true, if_false]
  · rename_i hs' fin' m g k hx
    simp only [Bool.and_eq_true, Bool.not_eq_true', beq_iff_eq, List.contains_iff_mem] at ht
    obtain ⟨⟨⟨hm, hm'⟩, rfl⟩, hgl⟩ := ht
    obtain ⟨s2, c1, c2⟩ := hcall g hgl
    have hback : (s.checkpointBefore ⟨.leaf 0 0 none, s.fresh - 1⟩).2 = pre.length := by
      have := checkpointBefore_last s pre _ hsink (draw_isNode P e _)
      unfold PState.checkpointBefore at this ⊢
      rw [this]
    obtain ⟨v, s3, f1, f2⟩ := hfinish s2 (s.checkpoint.1, (s.checkpointBefore ⟨.leaf 0 0 none, s.fresh - 1⟩).2) hback c2
    have hr : runActs (fun k => P.ign.contains k) src slack (calls (fun k => P.ign.contains k) src slack P.procs D)
        [.back, .bump, .call g, .close (P.operation o.word.tok.kind)] (before m l s) s =
          .ok ({ l with cp := (s.checkpoint.1, (s.checkpointBefore ⟨.leaf 0 0 none, s.fresh - 1⟩).2) }, s3) := by
      simp only [hm', before, if_true, runActs, Act.prog, exec, b1, bind, Except.bind, pure, Except.pure, c1, f1]
    obtain ⟨o', e1, e2, _⟩ := tell_sound (src := src) (slack := slack) (by omega : look ≤ D) hx l _ s _ hf hl hr
    have e2' : o' = .val true := e2
    subst e2'
    refine ⟨s3, e1.trans ?_, f2⟩
    simp only [hm', after, if_true]
  · cases ht

/-- The loop follows `Climb`. -/
theorem climb_goes (hP : P.check = true) {min : Nat} {e f : Expr} {is js : List (Op × Word)} (h : Climb min e is f js) :
    Goes P src slack min e is f js := by
  induction h with
  | done min e =>
    intro marked c hc D l s pre tail fuel h1 h2 h3 h4 h5 h6 h7 h8 h9 h10
    obtain ⟨fuel, rfl⟩ : ∃ f, fuel = f + 1 := ⟨fuel - 1, by omega⟩
    have hf := fits_row hP (ws := []) (by simpa using h5) (by simp) h6 h7 (by omega)
    simp only [List.map_nil, List.nil_append] at hf
    have hx : P.tell c (nextOf [] tail).1 (nextOf [] tail).2 = some (.quiet (nextOf [] tail).1 (nextOf [] tail).2 false) := by
      simp only [turnOk, Bool.and_eq_true, List.all_eq_true, decide_eq_true_eq] at hc
      cases tail with
      | nil => exact hc.1.2
      | cons t ts => exact hc.2 _ (h7 t ts rfl)
    obtain ⟨o, e1, e2, _⟩ := tell_sound (src := src) (slack := slack) (by omega : look ≤ D) hx l l s s hf h3 rfl
    have e2' : o = .val false := e2
    subst e2'
    refine ⟨s, ?_, h1, h2, rfl, rfl, h5⟩
    rw [turns, e1]
    rfl
  | @stop min e o w is hp =>
    intro marked c hc D l s pre tail fuel h1 h2 h3 h4 h5 h6 h7 h8 h9 h10
    obtain ⟨fuel, rfl⟩ : ∃ f, fuel = f + 1 := ⟨fuel - 1, by omega⟩
    obtain ⟨ho, hw⟩ := h6 (o, w) (List.mem_cons_self ..)
    have hs0 : s.tokens.drop s.index = o.word.toks ++ (w.toks ++ (itemToks is ++ tail)) := by rw [h5]; simp [itemToks]
    have hf : Fits (fun k => P.ign.contains k) [o.word.tok.kind, w.tok.kind] false s := by
      refine .inr ⟨[o.word, w], itemToks is ++ tail, by rw [hs0]; simp, rfl, ?_,
        over_head hP (fun x hx => h6 x (List.mem_cons_of_mem _ hx)) h7, by simp, ?_⟩
      · intro v hv
        simp only [List.mem_cons, List.not_mem_nil, or_false] at hv
        rcases hv with rfl | rfl
        · exact ho.1
        · exact hw.1
      · rw [hs0] at h8
        simp only [toksLen_append] at h8
        simp only [List.flatMap_cons, List.flatMap_nil, List.append_nil, toksLen_append]; omega
    simp only [turnOk, Bool.and_eq_true, List.all_eq_true] at hc
    have ht := hc.1.1 _ ho.2 _ hw.2
    rw [if_pos (by simpa using hp), decide_eq_true_eq] at ht
    obtain ⟨o', e1, e2, _⟩ := tell_sound (src := src) (slack := slack) (by omega : look ≤ D) ht l l s s hf h3 rfl
    have e2' : o' = .val false := e2
    subst e2'
    refine ⟨s, ?_, h1, h2, rfl, rfl, h5⟩
    rw [turns, e1]
    rfl
  | @step min e r f o w is js ks hp hc1 hc2 ih1 ih2 =>
    intro marked c hc D l s pre tail fuel h1 h2 h3 h4 h5 h6 h7 h8 h9 h10
    obtain ⟨fuel, rfl⟩ : ∃ f, fuel = f + 1 := ⟨fuel - 1, by omega⟩
    simp only [List.length_cons] at h9 h10
    obtain ⟨s1, e1, m1, m2, m3, m4, m5⟩ := turn_run (D := D) hP hc h1 h3 h4 h5 h6 h7 h8 (by omega) hp ih1 hc1
    obtain ⟨hrl, hsub⟩ := row_len hc1
    have hjs := hc1.length
    rw [h5] at h8
    simp only [itemToks, toksLen_append] at h8
    obtain ⟨s2, g1, g2, g3, g4, g5, g6⟩ := ih2 marked c hc D l s1 pre tail fuel m1 m2 h3 h4 m5
      (fun x hx => h6 x (List.mem_cons_of_mem _ (hsub x hx))) h7 (by
        rw [m5]; simp only [Expr.toks, toksLen_append]; omega) (by omega) (by omega)
    refine ⟨s2, ?_, g2, g3, g4.trans m3, g5.trans m4, g6⟩
    rw [turns, e1]
    exact g1

/-- An expression: it is grouped by the precedences, the nodes are drawn, the rest is left. -/
theorem expression (hP : P.check = true) {f : Nat} (hf : (f, 0) ∈ P.levels) {w : Word} {is : List (Op × Word)} {s : PState}
    {tail : List Tok} (hw : P.Operand w) (h : ∀ x ∈ is, P.Operator x.1 ∧ P.Operand x.2) (he : P.Over tail)
    (hs : s.tokens.drop s.index = w.toks ++ (itemToks is ++ tail)) (hlen : toksLen (s.tokens.drop s.index) < 2 ^ 32)
    {D : Nat} (hD : 8 + 2 * is.length ≤ D) :
    ∃ e s', Respects e ∧ e.first = w ∧ e.items = is ∧
      calls (fun k => P.ign.contains k) src slack P.procs D f s = .ok (.val true, s') ∧ P.Made s s' s.sink e tail := by
  obtain ⟨e, js, hc⟩ := Climb.total is.length 0 (.atom w) is (Nat.le_refl _)
  obtain ⟨q1, _, _, q4, q5, q6⟩ := hc.sound trivial (by simp [Expr.leftSpine]) (by cases is <;> simp [HeadKept, Expr.rightSpine])
  have hjs : js = [] := by
    match js, q4 with
    | [], _ => rfl
    | (o, _) :: _, q4 => exact absurd q4 (Nat.not_lt_zero _)
  subst hjs
  simp only [Expr.first, Expr.items, List.nil_append, List.append_nil] at q5 q6
  obtain ⟨s', g1, g2⟩ := level_run (src := src) (slack := slack) hP hf (climb_goes hP hc) (by unfold look; omega) hw hs h he hlen
  exact ⟨e, s', q1, q5, q6, g1, by simpa [itemToks] using g2⟩

end OpParser
end Oaks.Prog
