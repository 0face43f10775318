import Verif.Proofs.Pratt

/-! # C26: operator precedence -/

namespace Oaks.Props
open Oaks Oaks.Spec

/-- From any state in front of an operand and a row of operators and operands, the parser builds the
tree of an expression that respects precedence and associativity, uses the row up to the first operator
below the minimum, keeps every token in order, puts exactly that node on the sink and records no error.
With minimum 0 the whole row is used. Missing: operators of associativity `None`, which are treated as
`Left` (see `C26_none_chains`), and precedence 255 for operators that are not `Right`
(see `C26_overflow`). -/
theorem C26_precedence_partial (ign : Nat → Bool) (tb : OpTable) (s : PState) (min : Nat) (w : Word)
    (is : List (Op × Word)) (tail : List Tok)
    (hs : s.tokens.drop s.index = w.toks ++ (itemToks is ++ tail)) (hw : w.Ok ign)
    (his : ∀ x ∈ is, x.1.Ok ign tb ∧ x.2.Ok ign) (htail : Ends ign tb tail)
    (hlen : toksLen w.toks + toksLen (itemToks is) < 2 ^ 32) :
    ∃ (e : Expr) (used rest : List (Op × Word)) (addr : Nat) (s' : PState),
      pratt ign tb s min = .ok (⟨e.green tb, addr⟩, s') ∧
      s'.sink = s.sink ++ [⟨e.green tb, addr⟩] ∧ s'.errors = s.errors ∧
      s'.tokens.drop s'.index = itemToks rest ++ tail ∧
      Respects e ∧ is = used ++ rest ∧ e.first = w ∧ e.items = used ∧
      (∀ o ∈ e.leftSpine, min ≤ o.prec) ∧ (∀ x ∈ rest.head?, x.1.prec < min) ∧ (min = 0 → rest = []) := by
  obtain ⟨e, js, hc⟩ := Climb.total is.length min (.atom w) is (Nat.le_refl _)
  have hp := primary_word (tb := tb) s w (itemToks is ++ tail) hw hs (row_head is tail his htail) (by omega)
  have h2 := drop_past hs
  have hil : is.length ≤ s.tokens.length := by
    have := itemToks_length is
    have h3 : (s.tokens.drop (s.index + w.toks.length)).length = (itemToks is).length + tail.length := by rw [h2]; simp
    simp only [List.length_drop] at h3
    omega
  obtain ⟨a, s', w1, w2, w3, w4, w5⟩ := while_climb (ign := ign) (tb := tb) hc { s with
      index := s.index + w.toks.length
      sink := s.sink ++ [⟨(Expr.atom w).green tb, s.fresh⟩]
      fresh := s.fresh + 1 } s.sink s.fresh tail (s.tokens.length + 1) (s.tokens.length + 1) rfl h2 his htail
    (by simpa [Expr.toks] using hlen) (by omega) (by omega) hil
  obtain ⟨r1, r2, _, r4, r5, r6⟩ := hc.sound trivial (by simp [Expr.leftSpine]) (by
    cases is <;> simp [HeadKept, Expr.rightSpine])
  refine ⟨e, e.items, js, a, s', ?_, w2, w4, w5, r1, by simpa [Expr.items] using r6.symm, r5, rfl, r2, ?_, ?_⟩
  · unfold pratt
    rw [prattParse, hp]
    exact w1
  · intro x hx
    match js, r4, hx with
    | (o, _) :: _, r4, hx => simp at hx; subst hx; exact r4
  · rintro rfl
    match js, r4 with
    | [], _ => rfl
    | (o, _) :: _, r4 => exact absurd r4 (Nat.not_lt_zero _)

/-- There is only one such tree for a row. -/
theorem C26_unique {e f : Expr} (he : Respects e) (hf : Respects f) (h1 : e.first = f.first)
    (h2 : e.items = f.items) : e = f := respects_unique he hf h1 h2

/-- The leaves of the syntax tree are the tokens of the expression: the operand, then the row. -/
theorem C26_leaves (tb : OpTable) (e : Expr) :
    leavesOf (e.green tb) = (e.first.toks ++ itemToks e.items).map (fun t => (t.kind, t.length)) := by
  have hw : ∀ w : Word, leavesOfList w.leaves = w.toks.map (fun t => (t.kind, t.length)) := by
    intro w
    have : ∀ ts : List Tok, leavesOfList (ts.map (fun t => (Green.leaf t.kind t.length none))) =
        ts.map (fun t => (t.kind, t.length)) := by
      intro ts
      induction ts with
      | nil => rfl
      | cons t ts ih => simpa [leavesOfList, leavesOf] using ih
    exact this w.toks
  rw [← expr_toks]
  induction e with
  | atom w => simp [Expr.green, leavesOf, hw, Expr.toks]
  | bin l op r ihl ihr =>
    simp only [Expr.green, leavesOf, leavesOfList_append, leavesOfList, List.cons_append, hw, ihl, ihr, Expr.toks,
      List.map_append, List.append_nil]

/-- The documented table: `+ -` bind 1, `* /` bind 2, all to the left; `=` (kind 5) added, to the right. -/
def sampleTable : OpTable where
  info
    | 1 => some (1, .left)
    | 2 => some (2, .left)
    | 5 => some (0, .right)
    | _ => none
  atomKind := 100
  exprKind := 101

/-- `x = a + b * c` -/
def sampleWord (k at_ : Nat) : Word := ⟨⟨k, at_, at_ + 1⟩, []⟩
def sampleOp (k at_ p : Nat) (a : Assoc) : Op := ⟨sampleWord k at_, p, a⟩

def sampleExpr : Expr :=
  .bin (.atom (sampleWord 9 0)) (sampleOp 5 1 0 .right)
    (.bin (.atom (sampleWord 9 2)) (sampleOp 1 3 1 .left)
      (.bin (.atom (sampleWord 9 4)) (sampleOp 2 5 2 .left) (.atom (sampleWord 9 6))))

example : Respects sampleExpr := by
  simp [sampleExpr, Respects, Expr.leftSpine, Expr.rightSpine, sampleOp, takesFrom]

example : sampleExpr.items = [(sampleOp 5 1 0 .right, sampleWord 9 2), (sampleOp 1 3 1 .left, sampleWord 9 4),
    (sampleOp 2 5 2 .left, sampleWord 9 6)] := rfl

example : ∀ x ∈ sampleExpr.items, x.1.Ok (fun k => k == 0) sampleTable ∧ x.2.Ok (fun k => k == 0) := by
  intro x hx
  simp only [sampleExpr, Expr.items, List.nil_append, Expr.first, List.mem_cons, List.not_mem_nil,
    or_false] at hx
  rcases hx with rfl | rfl | rfl <;>
    exact ⟨⟨⟨rfl, by simp [sampleOp, sampleWord]⟩, rfl, by decide, by decide⟩, rfl, by simp [sampleWord]⟩


/-- The run on it: the tree of that expression. -/
example : (match pratt (fun k => k == 0) sampleTable
      ⟨[⟨9, 0, 1⟩, ⟨5, 1, 2⟩, ⟨9, 2, 3⟩, ⟨1, 3, 4⟩, ⟨9, 4, 5⟩, ⟨2, 5, 6⟩, ⟨9, 6, 7⟩], 0, [], 0, none, [], 7⟩ 0 with
    | .ok (e, _) => leavesOf e.tree == leavesOf (sampleExpr.green sampleTable) && e.tree.len == 7
    | .error _ => false) = true := by decide +kernel

/-- An operator declared non-associative chains like a left-associative one: `a < b < c` is accepted as
`(a < b) < c`, without an error. -/
theorem C26_none_chains :
    ∃ (tb : OpTable) (s s' : PState) (e : Entry), tb.info 1 = some (1, .none) ∧
      s.tokens.map Tok.kind = [9, 1, 9, 1, 9] ∧ pratt (fun _ => false) tb s 0 = .ok (e, s') ∧ s'.errors = [] ∧
      s'.index = 5 ∧
      e.tree = .node 101 5 [.node 101 3 [.node 100 1 [.leaf 9 1 none], .leaf 1 1 none, .node 100 1 [.leaf 9 1 none]],
        .leaf 1 1 none, .node 100 1 [.leaf 9 1 none]] :=
  ⟨⟨fun k => if k = 1 then some (1, .none) else none, 100, 101⟩,
    ⟨[⟨9, 0, 1⟩, ⟨1, 1, 2⟩, ⟨9, 2, 3⟩, ⟨1, 3, 4⟩, ⟨9, 4, 5⟩], 0, [], 0, none, [], 5⟩, _, _, rfl, rfl, rfl, rfl, rfl, rfl⟩

/-- A left-associative operator of the highest precedence a `u8` holds cannot be parsed. -/
theorem C26_overflow :
    ∃ (tb : OpTable) (s : PState), tb.info 1 = some (255, .left) ∧ s.tokens.map Tok.kind = [9, 1, 9] ∧
      pratt (fun _ => false) tb s 0 = .error .panic :=
  ⟨⟨fun k => if k = 1 then some (255, .left) else none, 100, 101⟩,
    ⟨[⟨9, 0, 1⟩, ⟨1, 1, 2⟩, ⟨9, 2, 3⟩], 0, [], 0, none, [], 3⟩, rfl, rfl, rfl⟩

end Oaks.Props
