import Verif.Spec.Pratt
import Verif.Proofs.Parser

namespace Oaks
open Spec

/-- The precedence the right operand must reach. -/
def Spec.Op.next (o : Op) : Nat := if o.assoc = .right then o.prec else o.prec + 1

theorem keepsFrom_iff {o p : Op} : keepsFrom o p ↔ p.prec < o.next := by
  unfold keepsFrom Op.next
  split
  · rename_i h; simp [h]
  · rename_i h; simp [h]; omega

theorem takesFrom_iff {p o : Op} : takesFrom p o ↔ o.next ≤ p.prec := by
  unfold takesFrom Op.next
  split
  · rename_i h; simp [h]; omega
  · rename_i h; simp [h]; omega

/-- The loop, on operators and operands: from an expression built so far and a row of pairs to an
expression and the pairs left. -/
inductive Climb : Nat → Expr → List (Op × Word) → Expr → List (Op × Word) → Prop where
  | done (min : Nat) (e : Expr) : Climb min e [] e []
  | stop {min : Nat} {e : Expr} {o : Op} {w : Word} {is : List (Op × Word)} : o.prec < min →
      Climb min e ((o, w) :: is) e ((o, w) :: is)
  | step {min : Nat} {e r f : Expr} {o : Op} {w : Word} {is js ks : List (Op × Word)} : min ≤ o.prec →
      Climb o.next (.atom w) is r js → Climb min (.bin e o r) js f ks → Climb min e ((o, w) :: is) f ks

/-- The next operator, if any, is kept out of the operands of those on the right spine. -/
def HeadKept (e : Expr) : List (Op × Word) → Prop
  | [] => True
  | (h, _) :: _ => ∀ o ∈ e.rightSpine, h.prec < o.next

def HeadBelow (min : Nat) : List (Op × Word) → Prop
  | [] => True
  | (h, _) :: _ => h.prec < min

theorem Climb.length {min : Nat} {e f : Expr} {is js : List (Op × Word)} (h : Climb min e is f js) :
    js.length ≤ is.length := by
  induction h with
  | done => simp
  | stop => simp
  | step _ _ _ ih1 ih2 => simp; omega

theorem Climb.total (n : Nat) : ∀ (min : Nat) (e : Expr) (is : List (Op × Word)), is.length ≤ n →
    ∃ f js, Climb min e is f js := by
  induction n with
  | zero =>
    intro min e is h
    have : is = [] := List.length_eq_zero_iff.1 (by omega)
    subst this
    exact ⟨e, [], .done _ _⟩
  | succ n ih =>
    intro min e is h
    match is, h with
    | [], _ => exact ⟨e, [], .done _ _⟩
    | (o, w) :: is, h =>
      by_cases hp : o.prec < min
      · exact ⟨e, _, .stop hp⟩
      · obtain ⟨r, js, h1⟩ := ih o.next (.atom w) is (by simpa using h)
        have := h1.length
        obtain ⟨f, ks, h2⟩ := ih min (.bin e o r) js (by simp at h; omega)
        exact ⟨f, ks, .step (by omega) h1 h2⟩

theorem Climb.det {min : Nat} {e f f' : Expr} {is js js' : List (Op × Word)} (h : Climb min e is f js)
    (h' : Climb min e is f' js') : f = f' ∧ js = js' := by
  induction h generalizing f' js' with
  | done => cases h'; exact ⟨rfl, rfl⟩
  | stop hp =>
    cases h' with
    | stop _ => exact ⟨rfl, rfl⟩
    | step hq _ _ => omega
  | step hp _ _ ih1 ih2 =>
    cases h' with
    | stop hq => omega
    | step _ a b =>
      obtain ⟨rfl, rfl⟩ := ih1 a
      exact ih2 b

/-- Everything built is well bound, and nothing is lost. -/
theorem Climb.sound {min : Nat} {e f : Expr} {is js : List (Op × Word)} (h : Climb min e is f js) :
    Respects e → (∀ o ∈ e.leftSpine, min ≤ o.prec) → HeadKept e is →
      Respects f ∧ (∀ o ∈ f.leftSpine, min ≤ o.prec) ∧ HeadKept f js ∧ HeadBelow min js ∧
      f.first = e.first ∧ f.items ++ js = e.items ++ is := by
  induction h with
  | done => intro a b c; exact ⟨a, b, trivial, trivial, rfl, rfl⟩
  | stop hp => intro a b c; exact ⟨a, b, c, hp, rfl, rfl⟩
  | @step min e r f o w is js ks hp h1 h2 ih1 ih2 =>
    intro a b c
    obtain ⟨r1, r2, r3, r4, r5, r6⟩ := ih1 trivial (by simp [Expr.leftSpine]) (by
      cases is <;> simp [HeadKept, Expr.rightSpine])
    obtain ⟨q1, q2, q3, q4, q5, q6⟩ := ih2 ⟨a, r1, fun x hx => keepsFrom_iff.2 (c x hx), fun x hx => takesFrom_iff.2 (r2 x hx)⟩
      (by
        intro x hx
        simp only [Expr.leftSpine, List.mem_cons] at hx
        rcases hx with rfl | hx
        · exact hp
        · exact b x hx) (by
        match js, r3, r4 with
        | [], _, _ => trivial
        | (h, _) :: _, r3, r4 =>
          intro x hx
          simp only [Expr.rightSpine, List.mem_cons] at hx
          rcases hx with rfl | hx
          · exact r4
          · exact r3 x hx)
    refine ⟨q1, q2, q3, q4, by rw [q5]; rfl, ?_⟩
    rw [q6]
    simp only [Expr.items, r5, Expr.first, List.append_assoc, List.cons_append]
    rw [r6]; simp [Expr.items]

/-- Every well-bound tree is what the loop builds from its row. -/
theorem Climb.complete (e : Expr) : ∀ (min : Nat) (rest : List (Op × Word)) (f : Expr) (ks : List (Op × Word)),
    Respects e → (∀ o ∈ e.leftSpine, min ≤ o.prec) → HeadKept e rest → Climb min e rest f ks →
    Climb min (.atom e.first) (e.items ++ rest) f ks := by
  induction e with
  | atom w => intro min rest f ks _ _ _ h; simpa [Expr.items, Expr.first] using h
  | bin l op r ihl ihr =>
    intro min rest f ks hb hl hh hc
    obtain ⟨b1, b2, b3, b4⟩ := hb
    simp only [Expr.items, Expr.first, List.append_assoc, List.cons_append]
    apply ihl min ((op, r.first) :: (r.items ++ rest)) f ks b1 (fun o ho => hl o (by simp [Expr.leftSpine, ho]))
      (fun o ho => keepsFrom_iff.1 (b3 o ho))
    refine .step (hl op (by simp [Expr.leftSpine])) ?_ hc
    apply ihr op.next rest r rest b2 (fun o ho => takesFrom_iff.1 (b4 o ho))
    · match rest, hh with
      | [], _ => trivial
      | _ :: _, hh => exact fun o ho => hh o (by simp [Expr.rightSpine, ho])
    · match rest, hh with
      | [], _ => exact .done _ _
      | (h, w) :: is, hh => exact .stop (hh op (by simp [Expr.rightSpine]))

/-- Two well-bound trees over the same row are equal. -/
theorem respects_unique {e f : Expr} (he : Respects e) (hf : Respects f) (h1 : e.first = f.first)
    (h2 : e.items = f.items) : e = f := by
  have a := Climb.complete e 0 [] e [] he (by simp) trivial (.done _ _)
  have b := Climb.complete f 0 [] f [] hf (by simp) trivial (.done _ _)
  rw [h1, h2] at a
  exact (a.det b).1

/-! ## The machine -/

theorem toksLen_append (a b : List Tok) : toksLen (a ++ b) = toksLen a + toksLen b := by simp [toksLen]

theorem leaves_len (w : Word) : lenSum w.leaves = toksLen w.toks := by
  have : ∀ ts : List Tok, lenSum (ts.map (fun t => (Green.leaf t.kind t.length none))) = toksLen ts := by
    intro ts
    induction ts with
    | nil => rfl
    | cons t ts ih => simp [toksLen, Green.len] at *; omega
  exact this w.toks

theorem green_len (tb : OpTable) (e : Expr) : (e.green tb).len = toksLen e.toks := by
  cases e <;> rfl

theorem expr_toks (e : Expr) : e.toks = e.first.toks ++ itemToks e.items := by
  have happ : ∀ a b : List (Op × Word), itemToks (a ++ b) = itemToks a ++ itemToks b := by
    intro a b
    induction a with
    | nil => rfl
    | cons x a ih => obtain ⟨o, w⟩ := x; simp [itemToks, ih]
  induction e with
  | atom w => simp [Expr.toks, Expr.first, Expr.items, itemToks]
  | bin l op r ihl ihr =>
    simp only [Expr.toks, Expr.first, Expr.items, happ, itemToks]
    rw [ihl, ihr]; simp

variable {ign : Nat → Bool} {tb : OpTable}

/-- Skipping the trivia of a word. -/
theorem skipTriviaLoop_word (fuel : Nat) (s : PState) (triv tail : List Tok)
    (ht : s.tokens.drop s.index = triv ++ tail) (hign : ∀ t ∈ triv, ign t.kind = true)
    (htail : ∀ t ts, tail = t :: ts → ign t.kind = false) (hf : triv.length < fuel)
    (hl : ∀ t ∈ triv, t.length < 2 ^ 32) :
    skipTriviaLoop ign fuel s = .ok { s with
      index := s.index + triv.length
      sink := s.sink ++ triv.map (fun t => ⟨.leaf t.kind t.length none, 0⟩) } := by
  induction triv generalizing s fuel with
  | nil =>
    obtain ⟨fuel, rfl⟩ : ∃ f, fuel = f + 1 := ⟨fuel - 1, by simp at hf; omega⟩
    rw [skipTriviaLoop]
    unfold PState.current
    cases hc : s.tokens[s.index]? with
    | none => simp
    | some t =>
      obtain ⟨hi, rfl⟩ := List.getElem?_eq_some_iff.1 hc
      rw [List.drop_eq_getElem_cons hi] at ht
      simp [htail _ _ ht.symm]
  | cons t triv ih =>
    obtain ⟨fuel, rfl⟩ : ∃ f, fuel = f + 1 := ⟨fuel - 1, by simp at hf; omega⟩
    rw [skipTriviaLoop]
    unfold PState.current
    have hi : s.index < s.tokens.length := by
      apply Decidable.byContradiction
      intro hn
      rw [List.drop_of_length_le (by omega)] at ht
      simp at ht
    rw [List.drop_eq_getElem_cons hi] at ht
    simp only [List.cons_append, List.cons.injEq] at ht
    obtain ⟨h1, h2⟩ := ht
    rw [List.getElem?_eq_getElem hi, h1]
    simp only [hign t (by simp), if_true]
    rw [ih fuel ((s.pushLeaf t.kind t.length).tokenAdvance) h2 (fun u hu => hign u (by simp [hu]))
      (by simp at hf; omega) (fun u hu => hl u (by simp [hu]))]
    have := Nat.mod_eq_of_lt (hl t (by simp))
    simp [PState.pushLeaf, PState.tokenAdvance, this]
    omega

theorem bump_word (s : PState) (w : Word) (tail : List Tok) (hw : w.Ok ign)
    (ht : s.tokens.drop s.index = w.toks ++ tail) (htail : ∀ t ts, tail = t :: ts → ign t.kind = false)
    (hl : toksLen w.toks < 2 ^ 32) :
    s.bump ign = .ok { s with
      index := s.index + w.toks.length
      sink := s.sink ++ w.leaves.map (fun g => ⟨g, 0⟩) } ∧
      s.peekKind = some w.tok.kind := by
  have hi : s.index < s.tokens.length := by
    apply Decidable.byContradiction
    intro hn
    rw [List.drop_of_length_le (by omega)] at ht
    simp [Word.toks] at ht
  rw [List.drop_eq_getElem_cons hi] at ht
  simp only [Word.toks, List.cons_append, List.cons.injEq] at ht
  obtain ⟨h1, h2⟩ := ht
  have hc : s.current = some w.tok := by simp [PState.current, List.getElem?_eq_getElem hi, h1]
  refine ⟨?_, by simp [PState.peekKind, hc]⟩
  have hsm : ∀ t ∈ w.toks, t.length < 2 ^ 32 := by
    intro t ht
    have : t.length ≤ toksLen w.toks := by
      unfold toksLen
      have gen : ∀ l : List Nat, ∀ x ∈ l, x ≤ l.sum := by
        intro l
        induction l with
        | nil => simp
        | cons y l ih =>
          intro x hx
          simp only [List.mem_cons] at hx
          rcases hx with rfl | hx
          · simp
          · have := ih x hx; simp; omega
      exact gen _ _ (List.mem_map.2 ⟨t, ht, rfl⟩)
    omega
  unfold PState.bump PState.advance PState.skipTrivia
  rw [hc]
  simp only
  rw [skipTriviaLoop_word _ _ w.trivia tail h2 hw.2 htail (by
    have : (s.tokens.drop (s.index + 1)).length = w.trivia.length + tail.length := by rw [h2]; simp
    simp only [List.length_drop] at this
    simp only [PState.tokenAdvance, PState.pushLeaf]
    omega) (fun t ht => hsm t (by simp [Word.toks, ht]))]
  have := Nat.mod_eq_of_lt (hsm w.tok (by simp [Word.toks]))
  simp [PState.tokenAdvance, PState.pushLeaf, Word.leaves, Word.toks, this, Function.comp_def]
  omega

theorem expect_word (s : PState) (w : Word) (tail : List Tok) (hw : w.Ok ign)
    (ht : s.tokens.drop s.index = w.toks ++ tail) (htail : ∀ t ts, tail = t :: ts → ign t.kind = false)
    (hl : toksLen w.toks < 2 ^ 32) :
    s.expect ign w.tok.kind = .ok (true, { s with
      index := s.index + w.toks.length
      sink := s.sink ++ w.leaves.map (fun g => ⟨g, 0⟩) }) := by
  obtain ⟨h1, h2⟩ := bump_word s w tail hw ht htail hl
  unfold PState.expect PState.eat PState.atKind
  rw [h2]
  simp only [beq_self_eq_true, if_true]
  rw [h1]; rfl

/-- Finishing over a suffix of the sink. -/
theorem finishAt_suffix (s : PState) (pre es : List Entry) (hs : s.sink = pre ++ es) (cp : Nat × Nat)
    (hcp : cp.2 = pre.length) (k : Nat) (hl : lenSum (es.map Entry.tree) < 2 ^ 32) :
    s.finishAt cp k = .ok (⟨.node k (lenSum (es.map Entry.tree)) (es.map Entry.tree), s.fresh⟩,
      { s with sink := pre ++ [⟨.node k (lenSum (es.map Entry.tree)) (es.map Entry.tree), s.fresh⟩], fresh := s.fresh + 1 }) := by
  unfold PState.finishAt
  rw [if_pos (by rw [hs, hcp]; simp), hs, hcp]
  have h : Green.mkNode k (((pre ++ es).drop pre.length).map Entry.tree) =
      .ok (.node k (lenSum (es.map Entry.tree)) (es.map Entry.tree)) := by
    rw [List.drop_left]
    exact mkNode_ok.2 ⟨rfl, hl⟩
  rw [h]
  simp

theorem checkpointBefore_last (s : PState) (pre : List Entry) (e : Entry) (hs : s.sink = pre ++ [e])
    (hn : e.isNodeAt e.addr = true) : s.checkpointBefore e = (0, pre.length) := by
  unfold PState.checkpointBefore
  have : findNodeRev e.addr s.sink s.sink.length = some pre.length := by
    rw [hs]
    simp only [List.length_append, List.length_singleton, findNodeRev]
    simp [hn]
  rw [this]

theorem green_isNode (e : Expr) (a : Nat) : (Entry.mk (e.green tb) a).isNodeAt a = true := by
  cases e <;> simp [Entry.isNodeAt, Expr.green]

/-- First tokens of rows are significant. -/
theorem row_head (is : List (Op × Word)) (tail : List Tok) (hok : ∀ x ∈ is, x.1.Ok ign tb ∧ x.2.Ok ign)
    (hend : Ends ign tb tail) : ∀ t ts, itemToks is ++ tail = t :: ts → ign t.kind = false := by
  intro t ts h
  match is, hok with
  | [], _ =>
    simp only [itemToks, List.nil_append] at h
    subst h; exact hend.1
  | (o, w) :: is, hok =>
    simp only [itemToks, Word.toks, List.cons_append, List.cons.injEq] at h
    rw [← h.1]
    exact (hok (o, w) (by simp)).1.1.1

theorem primary_word (s : PState) (w : Word) (tail : List Tok) (hw : w.Ok ign)
    (ht : s.tokens.drop s.index = w.toks ++ tail) (htail : ∀ t ts, tail = t :: ts → ign t.kind = false)
    (hl : toksLen w.toks < 2 ^ 32) :
    prattPrimary ign tb s = .ok (⟨(Expr.atom w).green tb, s.fresh⟩, { s with
      index := s.index + w.toks.length
      sink := s.sink ++ [⟨(Expr.atom w).green tb, s.fresh⟩]
      fresh := s.fresh + 1 }) := by
  obtain ⟨h1, _⟩ := bump_word s w tail hw ht htail hl
  unfold prattPrimary
  rw [h1, run_bind_ok]
  have e : (w.leaves.map (fun g => (⟨g, 0⟩ : Entry))).map Entry.tree = w.leaves := by
    simp [Function.comp_def]
  rw [finishAt_suffix _ s.sink _ rfl _ rfl tb.atomKind (by rw [e, leaves_len]; exact hl)]
  rw [e, leaves_len]
  rfl

theorem nextPrec_ok {o : Op} (h : o.Ok ign tb) : nextPrec o.assoc o.prec = .ok o.next := by
  obtain ⟨_, _, h1, h2⟩ := h
  cases ha : o.assoc with
  | left => simp only [nextPrec, Op.next, ha]; rw [if_pos (by have := h2 (by simp [ha]); omega)]; simp
  | right => simp [nextPrec, Op.next, ha]
  | none => simp only [nextPrec, Op.next, ha]; rw [if_pos (by have := h2 (by simp [ha]); omega)]; simp

theorem drop_past {α : Type} {l a b : List α} {i : Nat} (h : l.drop i = a ++ b) : l.drop (i + a.length) = b := by
  rw [← List.drop_drop, h, List.drop_left]

/-- The loop over the machine follows `Climb`. -/
theorem while_climb {min : Nat} {e f : Expr} {is js : List (Op × Word)} (h : Climb min e is f js) :
    ∀ (s : PState) (pre : List Entry) (addr : Nat) (tail : List Tok) (F fuel : Nat),
      s.sink = pre ++ [⟨e.green tb, addr⟩] → s.tokens.drop s.index = itemToks is ++ tail →
      (∀ x ∈ is, x.1.Ok ign tb ∧ x.2.Ok ign) → Ends ign tb tail →
      toksLen e.toks + toksLen (itemToks is) < 2 ^ 32 → is.length < F → is.length < fuel →
      is.length ≤ s.tokens.length →
      ∃ addr' s', prattWhile ign tb (prattParse ign tb F) fuel s ⟨e.green tb, addr⟩ min =
          .ok (⟨f.green tb, addr'⟩, s') ∧
        s'.sink = pre ++ [⟨f.green tb, addr'⟩] ∧ s'.tokens = s.tokens ∧ s'.errors = s.errors ∧
        s'.tokens.drop s'.index = itemToks js ++ tail := by
  induction h with
  | done min e =>
    intro s pre addr tail F fuel h1 h2 h3 h4 h5 h6 h7 _
    obtain ⟨fuel, rfl⟩ : ∃ f, fuel = f + 1 := ⟨fuel - 1, by omega⟩
    refine ⟨addr, s, ?_, h1, rfl, rfl, h2⟩
    rw [prattWhile]
    have hin : prattInfix ign tb (prattParse ign tb F) s ⟨e.green tb, addr⟩ min = .ok none := by
      unfold prattInfix PState.peekKind PState.current
      cases hc : s.tokens[s.index]? with
      | none => rfl
      | some t =>
        obtain ⟨hi, rfl⟩ := List.getElem?_eq_some_iff.1 hc
        rw [List.drop_eq_getElem_cons hi] at h2
        simp only [itemToks, List.nil_append] at h2
        subst h2
        simp only [Option.map_some]
        rw [h4.2]
    rw [hin]; rfl
  | @stop min e o w is hp =>
    intro s pre addr tail F fuel h1 h2 h3 h4 h5 h6 h7 _
    obtain ⟨fuel, rfl⟩ : ∃ f, fuel = f + 1 := ⟨fuel - 1, by omega⟩
    refine ⟨addr, s, ?_, h1, rfl, rfl, h2⟩
    rw [prattWhile]
    have hok := (h3 (o, w) (by simp)).1
    have hin : prattInfix ign tb (prattParse ign tb F) s ⟨e.green tb, addr⟩ min = .ok none := by
      unfold prattInfix PState.peekKind PState.current
      have hi : s.index < s.tokens.length := by
        apply Decidable.byContradiction
        intro hn
        rw [List.drop_of_length_le (by omega)] at h2
        simp [itemToks, Word.toks] at h2
      rw [List.drop_eq_getElem_cons hi] at h2
      simp only [itemToks, Word.toks, List.cons_append, List.cons.injEq] at h2
      rw [List.getElem?_eq_getElem hi, h2.1]
      simp only [Option.map_some]
      rw [hok.2.1]
      simp [hp]
    rw [hin]; rfl
  | @step min e r f o w is js ks hp hc1 hc2 ih1 ih2 =>
    intro s pre addr tail F fuel h1 h2 h3 h4 h5 h6 h7 h8
    obtain ⟨fuel, rfl⟩ : ∃ f, fuel = f + 1 := ⟨fuel - 1, by omega⟩
    obtain ⟨F, rfl⟩ : ∃ f, F = f + 1 := ⟨F - 1, by omega⟩
    simp only [List.length_cons] at h6 h7 h8
    obtain ⟨hok, hwok⟩ := h3 (o, w) (by simp)
    have h3' : ∀ x ∈ is, x.1.Ok ign tb ∧ x.2.Ok ign := fun x hx => h3 x (by simp [hx])
    simp only [itemToks, toksLen_append] at h5
    simp only [itemToks, List.append_assoc] at h2
    -- the operator
    have hx := expect_word s o.word (w.toks ++ (itemToks is ++ tail)) hok.1 h2 (by
      intro t ts ht
      simp only [Word.toks, List.cons_append, List.cons.injEq] at ht
      rw [← ht.1]; exact hwok.1) (by omega)
    have hpk := (bump_word s o.word (w.toks ++ (itemToks is ++ tail)) hok.1 h2 (by
      intro t ts ht
      simp only [Word.toks, List.cons_append, List.cons.injEq] at ht
      rw [← ht.1]; exact hwok.1) (by omega)).2
    have h2a := drop_past h2
    -- the operand after it
    have hpr := primary_word (tb := tb) { s with
        index := s.index + o.word.toks.length
        sink := s.sink ++ o.word.leaves.map (fun g => ⟨g, 0⟩) } w (itemToks is ++ tail) hwok h2a
      (row_head is tail h3' h4) (by omega)
    have h2b := drop_past h2a
    -- the right operand
    obtain ⟨ra, s2, hr1, hr2, hr3, hr4, hr5⟩ := ih1 { s with
        index := s.index + o.word.toks.length + w.toks.length
        sink := s.sink ++ o.word.leaves.map (fun g => ⟨g, 0⟩) ++ [⟨(Expr.atom w).green tb, s.fresh⟩]
        fresh := s.fresh + 1 } (s.sink ++ o.word.leaves.map (fun g => ⟨g, 0⟩)) s.fresh tail F (s.tokens.length + 1)
      rfl h2b h3' h4 (by simp only [Expr.toks]; omega) (by omega) (by omega) (by show _ ≤ s.tokens.length; omega)
    obtain ⟨_, _, _, _, q5, q6⟩ := hc1.sound trivial (by simp [Expr.leftSpine]) (by
      cases is <;> simp [HeadKept, Expr.rightSpine])
    simp only [Expr.first, Expr.items, List.nil_append] at q5 q6
    have hlen : toksLen r.toks + toksLen (itemToks js) = toksLen w.toks + toksLen (itemToks is) := by
      have happ : ∀ a b : List (Op × Word), itemToks (a ++ b) = itemToks a ++ itemToks b := by
        intro a b
        induction a with
        | nil => rfl
        | cons x a ih => obtain ⟨o, w⟩ := x; simp [itemToks, ih]
      rw [expr_toks r, q5, toksLen_append, ← q6, happ, toksLen_append]; omega
    -- the node
    have htrees : ((([⟨e.green tb, addr⟩] : List Entry) ++ o.word.leaves.map (fun g => (⟨g, 0⟩ : Entry)) ++
        ([⟨r.green tb, ra⟩] : List Entry)).map Entry.tree) = e.green tb :: o.word.leaves ++ [r.green tb] := by
      simp [Function.comp_def]
    have htl : lenSum (e.green tb :: o.word.leaves ++ [r.green tb]) = toksLen (Expr.bin e o r).toks := by
      rw [List.cons_append, lenSum_cons, lenSum_append, lenSum_cons, lenSum_nil, green_len, green_len, leaves_len]
      simp only [Expr.toks, toksLen_append]; omega
    have hbin : toksLen (Expr.bin e o r).toks = toksLen e.toks + (toksLen o.word.toks + toksLen r.toks) := by
      simp [Expr.toks, toksLen_append]
    have hfin := finishAt_suffix s2 pre ([⟨e.green tb, addr⟩] ++ o.word.leaves.map (fun g => (⟨g, 0⟩ : Entry)) ++
        [⟨r.green tb, ra⟩]) (by rw [hr2, h1]; simp) (0, pre.length) rfl tb.exprKind (by rw [htrees, htl]; omega)
    rw [htrees, htl] at hfin
    have hin : prattInfix ign tb (prattParse ign tb (F + 1)) s ⟨e.green tb, addr⟩ min =
        .ok (some (⟨(Expr.bin e o r).green tb, s2.fresh⟩,
          { s2 with sink := pre ++ [⟨(Expr.bin e o r).green tb, s2.fresh⟩], fresh := s2.fresh + 1 })) := by
      unfold prattInfix
      rw [hpk]
      simp only
      rw [hok.2.1]
      simp only
      rw [if_neg (by omega)]
      unfold prattBinary
      rw [checkpointBefore_last s pre _ h1 (green_isNode e addr), hx]
      simp only [run_bind_ok, nextPrec_ok hok]
      rw [prattParse, hpr]
      simp only [run_bind_ok]
      rw [hr1]
      simp only [run_bind_ok]
      rw [hfin]
      rfl
    rw [prattWhile, hin]
    simp only [run_bind_ok]
    have hjs := hc1.length
    obtain ⟨ra', s3, hs1, hs2, hs3, hs4, hs5⟩ := ih2
      { s2 with sink := pre ++ [⟨(Expr.bin e o r).green tb, s2.fresh⟩], fresh := s2.fresh + 1 } pre s2.fresh tail
      (F + 1) fuel rfl hr5 (by
        intro x hx
        apply h3'
        rw [← q6]; simp [hx]) h4 (by omega) (by omega) (by omega) (by
        show _ ≤ s2.tokens.length
        rw [hr3]; show _ ≤ s.tokens.length; omega)
    exact ⟨ra', s3, hs1, hs2, hs3.trans hr3, hs4.trans hr4, hs5⟩

theorem itemToks_length (is : List (Op × Word)) : is.length ≤ (itemToks is).length := by
  induction is with
  | nil => simp
  | cons x is ih => obtain ⟨o, w⟩ := x; simp [itemToks, Word.toks]; omega

end Oaks
