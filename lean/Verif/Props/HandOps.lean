import Verif.Proofs.OpParsers
import Verif.Props.Pratt

/-! C86: operators are grouped as the reference of the language says. -/
namespace Oaks.Props
open Spec Prog

private theorem right_in {e : Expr} {o : Op} (h : o ∈ e.rightSpine) : ∃ w, (o, w) ∈ e.items := by
  induction e with
  | atom => cases h
  | bin l op r _ ih =>
    rcases List.mem_cons.1 h with rfl | h
    · exact ⟨r.first, by simp [Expr.items]⟩
    · obtain ⟨w, hw⟩ := ih h
      exact ⟨w, by simp [Expr.items, hw]⟩

private theorem left_in {e : Expr} {o : Op} (h : o ∈ e.leftSpine) : ∃ w, (o, w) ∈ e.items := by
  induction e with
  | atom => cases h
  | bin l op r ih _ =>
    rcases List.mem_cons.1 h with rfl | h
    · exact ⟨r.first, by simp [Expr.items]⟩
    · obtain ⟨w, hw⟩ := ih h
      exact ⟨w, by simp [Expr.items, hw]⟩

private theorem keeps_next (o p : Op) : keepsFrom o p ↔ p.prec < OpParser.next o.prec o.assoc := by
  unfold keepsFrom OpParser.next; split <;> rename_i h <;> simp [h] <;> omega

private theorem takes_next (p o : Op) : takesFrom p o ↔ ¬ p.prec < OpParser.next o.prec o.assoc := by
  unfold takesFrom OpParser.next; split <;> rename_i h <;> simp [h] <;> omega

private theorem fine_parts {L : OpLang} {ops levels first} (h : L.fine ops levels first = true) :
    (L.asParser ops levels first).check = true ∧ L.agrees ops = true ∧ (L.start, 0) ∈ levels := by
  simpa [OpLang.fine, and_assoc] using h

private theorem agree {L : OpLang} {ops} (h : L.agrees ops = true) {x y : Nat × Nat × Assoc} (hx : x ∈ ops) (hy : y ∈ ops) {b : Bool}
    (hk : L.ref.keeps x.1 y.1 = some b) : L.Disputed x.1 y.1 ↔ b ≠ decide (y.2.1 < OpParser.next x.2.1 x.2.2) := by
  simp only [OpLang.agrees, Bool.and_eq_true, List.all_eq_true] at h
  have := h.2 x hx y hy
  rw [hk] at this
  simp only [beq_iff_eq] at this
  have hd : L.Disputed x.1 y.1 ↔ (L.disputed.any fun d => d.1.contains x.1 && d.2.contains y.1) = true := by
    simp [OpLang.Disputed]
  rw [hd, this]; simp

private theorem agree_none {L : OpLang} {ops} (h : L.agrees ops = true) {x y : Nat × Nat × Assoc} (hx : x ∈ ops) (hy : y ∈ ops)
    (hk : L.ref.keeps x.1 y.1 = none) : ¬ L.Disputed x.1 y.1 := by
  simp only [OpLang.agrees, Bool.and_eq_true, List.all_eq_true] at h
  have := h.2 x hx y hy
  rw [hk] at this
  rintro ⟨d, hd, h1, h2⟩
  have := List.all_eq_true.1 this d hd
  simp [h1, h2] at this

private def Known (ops : List (Nat × Nat × Assoc)) (x : Op × Word) : Prop := (x.1.word.tok.kind, x.1.prec, x.1.assoc) ∈ ops

private theorem grouped_of {L : OpLang} {ops} (h : L.agrees ops = true) (e : Expr) (he : Respects e) (hk : ∀ x ∈ e.items, Known ops x)
    (hp : e.items.Pairwise fun x y => ¬ L.Disputed x.1.word.tok.kind y.1.word.tok.kind) : GroupedBy L.ref e := by
  induction e with
  | atom => trivial
  | bin l op r ihl ihr =>
    simp only [Expr.items, List.pairwise_append, List.pairwise_cons, List.mem_append, List.mem_cons] at hp hk
    obtain ⟨h1, h2, h3, h4⟩ := he
    refine ⟨ihl h1 (fun x hx => hk x (.inl hx)) hp.1, ihr h2 (fun x hx => hk x (.inr (.inr hx))) hp.2.1.2, ?_, ?_⟩
    · intro o ho hc
      obtain ⟨w, hw⟩ := right_in ho
      have ha := agree h (hk _ (.inl hw)) (hk _ (.inr (.inl rfl))) hc
      exact hp.2.2 _ hw _ (.inl rfl) (ha.2 (by simpa using (keeps_next o op).1 (h3 o ho)))
    · intro p hq hc
      obtain ⟨w, hw⟩ := left_in hq
      have ha := agree h (hk _ (.inr (.inl rfl))) (hk _ (.inr (.inr hw))) hc
      refine hp.2.1.1 _ hw (ha.2 ?_)
      have := (takes_next p op).1 (h4 p hq)
      simpa using this

/-- A row of words becomes one of operators. -/
private theorem row_items {L : OpLang} {ops} (h : L.agrees ops = true) (row : List (Word × Word))
    (hr : ∀ x ∈ row, L.WordOf L.known x.1 ∧ L.WordOf L.operands x.2) :
    ∃ is : List (Op × Word), is.map (fun x => (x.1.word, x.2)) = row ∧ itemToks is = rowToks row ∧ ∀ x ∈ is, Known ops x := by
  induction row with
  | nil => exact ⟨[], rfl, rfl, by simp⟩
  | cons x row ih =>
    obtain ⟨is, h1, h2, h3⟩ := ih fun y hy => hr y (List.mem_cons_of_mem _ hy)
    have hx := (hr x (List.mem_cons_self ..)).1.2
    have ha := h
    simp only [OpLang.agrees, Bool.and_eq_true, List.all_eq_true] at ha
    obtain ⟨o, ho, hk⟩ := List.any_eq_true.1 (ha.1 _ hx)
    refine ⟨(⟨x.1, o.2.1, o.2.2⟩, x.2) :: is, by simp [h1], by simp [itemToks, rowToks, h2], ?_⟩
    intro y hy
    rcases List.mem_cons.1 hy with rfl | hy
    · have : x.1.tok.kind = o.1 := by simpa using (beq_iff_eq.1 hk).symm
      simpa [Known, this] using ho
    · exact h3 y hy

/-- What the parser makes of a row. -/
private theorem run {L : OpLang} {ops levels first} (hf : L.fine ops levels first = true) {src : Source} {slack : Nat} {s : PState} {w : Word}
    {row : List (Word × Word)} {tail : List Tok} {D : Nat} (hw : L.WordOf L.operands w)
    (hr : ∀ x ∈ row, L.WordOf L.known x.1 ∧ L.WordOf L.operands x.2) (he : L.Over tail)
    (hs : s.tokens.drop s.index = w.toks ++ (rowToks row ++ tail)) (hlen : toksLen (s.tokens.drop s.index) < 2 ^ 32)
    (hD : 8 + 2 * row.length ≤ D) :
    ∃ e s', Respects e ∧ e.first = w ∧ e.row = row ∧ (∀ x ∈ e.items, Known ops x) ∧
      calls (fun k => L.parser.ign.contains k) src slack L.parser.procs D L.start s = .ok (.val true, s') ∧
      s'.sink = s.sink ++ [⟨e.drawn L.operand L.operation, s'.fresh - 1⟩] ∧ s'.tokens = s.tokens ∧ s'.errors = s.errors ∧
      s'.tokens.drop s'.index = tail := by
  obtain ⟨hc, ha, hl⟩ := fine_parts hf
  obtain ⟨is, h1, h2, h3⟩ := row_items ha row hr
  have hi : ∀ x ∈ is, (L.asParser ops levels first).Operator x.1 ∧ (L.asParser ops levels first).Operand x.2 := by
    intro x hx
    have hm : (x.1.word, x.2) ∈ row := by rw [← h1]; exact List.mem_map.2 ⟨x, hx, rfl⟩
    have := hr _ hm
    exact ⟨⟨this.1.1, h3 x hx⟩, this.2⟩
  have hn : is.length = row.length := by rw [← h1]; simp
  obtain ⟨e, s', g1, g2, g3, g4, g5, _, g6, g7, g8⟩ := OpParser.expression (P := L.asParser ops levels first) (src := src) (slack := slack)
    hc (f := L.start) hl (w := w) (is := is) (s := s) (tail := tail) hw hi he (by rw [h2]; exact hs) hlen (D := D) (by omega)
  exact ⟨e, s', g1, g2, by rw [Expr.row, g3, h1], by rw [g3]; exact h3, g4, g5, g6, g7, g8⟩

/-- An operand and any number of operators with operands: the parser makes one node of them, which is the drawing of a grouping that is
nowhere against the reference of the language, records no error, and stops at what follows. Missing for the whole claim: pairs of operators
the parser does not group by the reference (`C86_otherwise`), operators it does not know (`C86_unknown`), operands of more than one token. -/
theorem C86_grouped_partial {L : OpLang} (hL : L ∈ opLangs) {src : Source} {slack : Nat} {s : PState} {w : Word} {row : List (Word × Word)}
    {tail : List Tok} {D : Nat} (hw : L.WordOf L.operands w) (hr : ∀ x ∈ row, L.WordOf L.known x.1 ∧ L.WordOf L.operands x.2)
    (hp : row.Pairwise fun x y => ¬ L.Disputed x.1.tok.kind y.1.tok.kind) (he : L.Over tail)
    (hs : s.tokens.drop s.index = w.toks ++ (rowToks row ++ tail)) (hlen : toksLen (s.tokens.drop s.index) < 2 ^ 32)
    (hD : 8 + 2 * row.length ≤ D) :
    ∃ e s', e.first = w ∧ e.row = row ∧ GroupedBy L.ref e ∧
      calls (fun k => L.parser.ign.contains k) src slack L.parser.procs D L.start s = .ok (.val true, s') ∧
      s'.sink = s.sink ++ [⟨e.drawn L.operand L.operation, s'.fresh - 1⟩] ∧ s'.errors = s.errors ∧ s'.tokens.drop s'.index = tail := by
  obtain ⟨ops, levels, first, hf⟩ := opLangs_fine L hL
  obtain ⟨e, s', h1, h2, h3, h4, h5, h6, _, h7, h8⟩ := run hf (src := src) (slack := slack) hw hr he hs hlen hD
  refine ⟨e, s', h2, h3, grouped_of (fine_parts hf).2.1 e h1 h4 ?_, h5, h6, h7, h8⟩
  rw [← h3, Expr.row, List.pairwise_map] at hp
  exact hp

/-- With the precedences of the reference. -/
private def leveled (r : OpRef) : Expr → Expr
  | .atom w => .atom w
  | .bin a op b => .bin (leveled r a) ⟨op.word, ((r.place op.word.tok.kind).getD (0, .left)).1, ((r.place op.word.tok.kind).getD (0, .left)).2⟩
      (leveled r b)

private def relevel (r : OpRef) (op : Op) : Op :=
  ⟨op.word, ((r.place op.word.tok.kind).getD (0, .left)).1, ((r.place op.word.tok.kind).getD (0, .left)).2⟩

private theorem leveled_first (r : OpRef) (e : Expr) : (leveled r e).first = e.first := by
  induction e with
  | atom => rfl
  | bin l op r ih _ => exact ih

private theorem leveled_items (r : OpRef) (e : Expr) : (leveled r e).items = e.items.map fun x => (relevel r x.1, x.2) := by
  induction e with
  | atom => rfl
  | bin l op x ih ih' => simp [leveled, Expr.items, ih, ih', leveled_first, relevel]

private theorem leveled_left (r : OpRef) (e : Expr) : (leveled r e).leftSpine = e.leftSpine.map (relevel r) := by
  induction e with
  | atom => rfl
  | bin l op x ih _ => simp [leveled, Expr.leftSpine, ih, relevel]

private theorem leveled_right (r : OpRef) (e : Expr) : (leveled r e).rightSpine = e.rightSpine.map (relevel r) := by
  induction e with
  | atom => rfl
  | bin l op x _ ih => simp [leveled, Expr.rightSpine, ih, relevel]

private theorem toks_words (e : Expr) : e.toks = e.first.toks ++ rowToks e.row := by
  rw [expr_toks]
  congr 1
  unfold Expr.row
  induction e.items with
  | nil => rfl
  | cons x is ih => obtain ⟨o, w⟩ := x; simp [itemToks, rowToks, ih]

private theorem leveled_row (r : OpRef) (e : Expr) : (leveled r e).row = e.row := by
  simp [Expr.row, leveled_items, relevel]

private theorem leveled_drawn (r : OpRef) (f g : Nat → Nat) (e : Expr) : (leveled r e).drawn f g = e.drawn f g := by
  induction e with
  | atom => rfl
  | bin l op x ih ih' =>
    have h : (leveled r (Expr.bin l op x)).toks = (Expr.bin l op x).toks := by
      rw [toks_words, toks_words, leveled_first, leveled_row]
    simp only [leveled] at h
    simp only [leveled, Expr.drawn, ih, ih', h]

private theorem keeps_level {r : OpRef} {x y : Op} (h : r.keeps x.word.tok.kind y.word.tok.kind ≠ none) :
    (r.keeps x.word.tok.kind y.word.tok.kind = some true ↔ keepsFrom (relevel r x) (relevel r y)) ∧
    (r.keeps x.word.tok.kind y.word.tok.kind = some false ↔ takesFrom (relevel r y) (relevel r x)) := by
  revert h
  unfold OpRef.keeps relevel keepsFrom takesFrom
  rcases hx : r.place x.word.tok.kind with _ | ⟨i, a⟩ <;> rcases hy : r.place y.word.tok.kind with _ | ⟨j, b⟩ <;> simp
  by_cases h1 : j < i
  · simp [h1]; omega
  · by_cases h2 : i < j
    · simp [h1, h2]; omega
    · have : i = j := by omega
      subst this
      cases a <;> simp

private theorem leveled_respects (r : OpRef) (e : Expr) (he : GroupedBy r e)
    (hp : e.items.Pairwise fun x y => r.keeps x.1.word.tok.kind y.1.word.tok.kind ≠ none) : Respects (leveled r e) := by
  induction e with
  | atom => trivial
  | bin l op x ihl ihr =>
    simp only [Expr.items, List.pairwise_append, List.pairwise_cons, List.mem_cons] at hp
    obtain ⟨h1, h2, h3, h4⟩ := he
    refine ⟨ihl h1 hp.1, ihr h2 hp.2.1.2, ?_, ?_⟩
    · intro o ho
      rw [leveled_right] at ho
      obtain ⟨o, hm, rfl⟩ := List.mem_map.1 ho
      obtain ⟨w, hw⟩ := right_in hm
      have hn := hp.2.2 _ hw _ (.inl rfl)
      refine (keeps_level hn).1.1 ?_
      have := h3 o hm
      revert hn this
      cases r.keeps o.word.tok.kind op.word.tok.kind with
      | none => simp
      | some b => cases b <;> simp
    · intro o ho
      rw [leveled_left] at ho
      obtain ⟨o, hm, rfl⟩ := List.mem_map.1 ho
      obtain ⟨w, hw⟩ := left_in hm
      have hn := hp.2.1.1 _ hw
      refine (keeps_level hn).2.1 ?_
      have := h4 o hm
      revert hn this
      cases r.keeps op.word.tok.kind o.word.tok.kind with
      | none => simp
      | some b => cases b <;> simp

/-- The reference allows one grouping of a row only: where it says of all the operators which of two keeps the operand between them, two
groupings have the same drawing. -/
theorem C86_one_grouping {r : OpRef} {e f : Expr} (he : GroupedBy r e) (hf : GroupedBy r f) (h1 : e.first = f.first) (h2 : e.row = f.row)
    (hp : e.row.Pairwise fun x y => r.keeps x.1.tok.kind y.1.tok.kind ≠ none) (operand operation : Nat → Nat) :
    e.drawn operand operation = f.drawn operand operation := by
  rw [← leveled_drawn r _ _ e, ← leveled_drawn r _ _ f]
  have hq : f.row.Pairwise fun x y => r.keeps x.1.tok.kind y.1.tok.kind ≠ none := h2 ▸ hp
  rw [Expr.row, List.pairwise_map] at hp hq
  congr 1
  refine C26_unique (leveled_respects r e he hp) (leveled_respects r f hf hq) (by simp [leveled_first, h1]) ?_
  have : ∀ e : Expr, (leveled r e).items = e.row.map fun x => (relevel r ⟨x.1, 0, .left⟩, x.2) := by
    intro e; simp [leveled_items, Expr.row, relevel]
  rw [this, this, h2]

private theorem two {e : Expr} {o p : Op} {b c : Word} (h : e.items = [(o, b), (p, c)]) :
    e = .bin (.bin (.atom e.first) o (.atom b)) p (.atom c) ∨ e = .bin (.atom e.first) o (.bin (.atom b) p (.atom c)) := by
  have one : ∀ {e : Expr} {o : Op} {b : Word}, e.items = [(o, b)] → e = .bin (.atom e.first) o (.atom b) := by
    intro e o b h
    match e with
    | .atom _ => cases h
    | .bin (.atom w) _ (.atom v) => simp [Expr.items, Expr.first] at h ⊢; exact h
    | .bin (.bin ..) _ _ => have := congrArg List.length h; simp [Expr.items] at this; omega
    | .bin (.atom _) _ (.bin ..) => have := congrArg List.length h; simp [Expr.items] at this
  match e with
  | .atom _ => cases h
  | .bin (.atom w) q r =>
    simp only [Expr.items, List.nil_append, List.cons.injEq, Prod.mk.injEq] at h
    have := one h.2
    rw [h.1.2] at this
    exact .inr (by rw [this, h.1.1]; rfl)
  | .bin (.bin l q m) q' r =>
    have hl := congrArg List.length h
    simp only [Expr.items, List.length_append, List.length_cons, List.length_nil] at hl
    have a1 : l.items = [] := List.eq_nil_of_length_eq_zero (by omega)
    have a2 : m.items = [] := List.eq_nil_of_length_eq_zero (by omega)
    have a3 : r.items = [] := List.eq_nil_of_length_eq_zero (by omega)
    have atomic : ∀ {e : Expr}, e.items = [] → e = .atom e.first := by
      intro e h
      cases e with
      | atom => rfl
      | bin => simp [Expr.items] at h
    simp only [Expr.items, a1, a2, a3, List.nil_append, List.cons_append, List.cons.injEq, Prod.mk.injEq, and_true] at h
    left
    have b1 := atomic a1; have b2 := atomic a2; have b3 := atomic a3
    rw [h.1.2] at b2; rw [h.2.2] at b3
    rw [b2, b3, h.1.1, h.2.1, b1]
    rfl

/-- For each disputed pair of operators the parser does not do as the reference says: it makes a node of two operators and three operands
that is the drawing of no grouping the reference allows. -/
theorem C86_otherwise {L : OpLang} (hL : L ∈ opLangs) {src : Source} {slack : Nat} {s : PState} {a x b y c : Word} {tail : List Tok} {D : Nat}
    (ha : L.WordOf L.operands a) (hx : L.WordOf L.known x) (hb : L.WordOf L.operands b) (hy : L.WordOf L.known y)
    (hc : L.WordOf L.operands c) (hd : L.Disputed x.tok.kind y.tok.kind) (he : L.Over tail)
    (hs : s.tokens.drop s.index = a.toks ++ (x.toks ++ (b.toks ++ (y.toks ++ (c.toks ++ tail)))))
    (hlen : toksLen (s.tokens.drop s.index) < 2 ^ 32) (hD : 12 ≤ D) :
    ∃ t s', calls (fun k => L.parser.ign.contains k) src slack L.parser.procs D L.start s = .ok (.val true, s') ∧
      s'.sink = s.sink ++ [⟨t, s'.fresh - 1⟩] ∧ s'.errors = s.errors ∧ s'.tokens.drop s'.index = tail ∧
      ∀ e, GroupedBy L.ref e → e.first = a → e.row = [(x, b), (y, c)] → e.drawn L.operand L.operation ≠ t := by
  obtain ⟨ops, levels, first, hf⟩ := opLangs_fine L hL
  obtain ⟨e, s', h1, h2, h3, h4, h5, h6, _, h7, h8⟩ := run hf (src := src) (slack := slack) (row := [(x, b), (y, c)]) ha
    (by
      intro z hz
      simp only [List.mem_cons, List.not_mem_nil, or_false] at hz
      rcases hz with rfl | rfl
      exacts [⟨hx, hb⟩, ⟨hy, hc⟩]) he (by simpa [rowToks] using hs) hlen (D := D) (by simpa using hD)
  refine ⟨_, s', h5, h6, h7, h8, ?_⟩
  intro f hg f1 f3 heq
  have shape : ∀ {e : Expr}, e.row = [(x, b), (y, c)] → ∃ o p, o.word = x ∧ p.word = y ∧ e.items = [(o, b), (p, c)] := by
    intro e h
    unfold Expr.row at h
    match hi : e.items, h with
    | [(o, b'), (p, c')], h =>
      simp only [List.map_cons, List.map_nil, List.cons.injEq, Prod.mk.injEq, and_true] at h
      exact ⟨o, p, h.1.1, h.2.1, by rw [h.1.2, h.2.2]⟩
  obtain ⟨o, p, ho, hp, hi⟩ := shape h3
  obtain ⟨o', p', ho', hp', hi'⟩ := shape f3
  have k1 : Known ops (o, b) := h4 _ (by rw [hi]; simp)
  have k2 : Known ops (p, c) := h4 _ (by rw [hi]; simp)
  rw [← ho, ← hp] at hd
  rcases hk : L.ref.keeps o.word.tok.kind p.word.tok.kind with _ | v
  · exact agree_none (fine_parts hf).2.1 k1 k2 hk hd
  · have hv := (agree (fine_parts hf).2.1 k1 k2 hk).1 hd
    have hk' : L.ref.keeps o'.word.tok.kind p'.word.tok.kind = some v := by rw [ho', hp', ← ho, ← hp]; exact hk
    rcases two hi with q | q <;> rcases two hi' with q' | q'
    · rw [q] at h1
      rw [q'] at hg
      have u1 := (keeps_next o p).1 (h1.2.2.1 o (by simp [Expr.rightSpine]))
      have u2 := hg.2.2.1 o' (by simp [Expr.rightSpine])
      rw [hk'] at u2
      simp only [u1, decide_true] at hv
      cases v
      · exact u2 rfl
      · exact hv rfl
    · rw [q, q'] at heq
      simp [Expr.drawn, Word.leaves, Word.toks] at heq
    · rw [q, q'] at heq
      simp [Expr.drawn, Word.leaves, Word.toks] at heq
    · rw [q] at h1
      rw [q'] at hg
      have u1 := (takes_next p o).1 (h1.2.2.2 p (by simp [Expr.leftSpine]))
      have u2 := hg.2.2.2 p' (by simp [Expr.leftSpine])
      rw [hk'] at u2
      simp only [u1, decide_false] at hv
      cases v
      · exact hv rfl
      · exact u2 rfl

private theorem alone {L : OpLang} (hL : L ∈ opLangs) {src : Source} {slack : Nat} {s : PState} {w : Word} {t : Tok} {tail : List Tok} {D : Nat}
    (hw : L.WordOf L.operands w) (ht : t.kind ∈ L.unknown ++ L.blanks ++ L.ends) (hs : s.tokens.drop s.index = w.toks ++ t :: tail)
    (hlen : toksLen (s.tokens.drop s.index) < 2 ^ 32) (hD : 8 ≤ D) :
    ∃ s', calls (fun k => L.parser.ign.contains k) src slack L.parser.procs D L.start s = .ok (.val true, s') ∧
      s'.sink = s.sink ++ [⟨.node (L.operand w.tok.kind) (toksLen w.toks) w.leaves, s'.fresh - 1⟩] ∧
      s'.errors = s.errors ∧ s'.tokens.drop s'.index = t :: tail := by
  obtain ⟨e, s', h1, h2, _, h4, h5, h6, h7⟩ := C86_grouped_partial hL (src := src) (slack := slack) (row := []) (tail := t :: tail) hw
    (by simp) .nil (by intro u us hu; injection hu with hu _; exact hu ▸ ht) (by simpa [rowToks] using hs) hlen (D := D) (by simpa using hD)
  refine ⟨s', h4, ?_, h6, h7⟩
  cases e with
  | atom v => rw [h5]; simp only [Expr.first] at h1; subst h1; rfl
  | bin l o r => simp [Expr.row, Expr.items] at h2

private theorem unknown_placed : ∀ L ∈ opLangs, ∀ k ∈ L.unknown, (L.ref.place k).isSome = true := by
  have h : opLangs.all (fun L => L.unknown.all fun k => (L.ref.place k).isSome) = true := by decide +kernel
  intro L hL k hk
  exact List.all_eq_true.1 (List.all_eq_true.1 h L hL) k hk

/-- Operators of the reference the parser does not know: the expression ends before one, with no error; only the operand before it is in the
node, and the operator is left to whatever called for an expression. -/
theorem C86_unknown {L : OpLang} (hL : L ∈ opLangs) {src : Source} {slack : Nat} {s : PState} {w : Word} {t : Tok} {tail : List Tok} {D : Nat}
    (hw : L.WordOf L.operands w) (ht : t.kind ∈ L.unknown) (hs : s.tokens.drop s.index = w.toks ++ t :: tail)
    (hlen : toksLen (s.tokens.drop s.index) < 2 ^ 32) (hD : 8 ≤ D) :
    (L.ref.place t.kind).isSome = true ∧
    ∃ s', calls (fun k => L.parser.ign.contains k) src slack L.parser.procs D L.start s = .ok (.val true, s') ∧
      s'.sink = s.sink ++ [⟨.node (L.operand w.tok.kind) (toksLen w.toks) w.leaves, s'.fresh - 1⟩] ∧
      s'.errors = s.errors ∧ s'.tokens.drop s'.index = t :: tail :=
  ⟨unknown_placed L hL _ ht, alone hL hw (by simp [ht]) hs hlen hD⟩

/-- Blanks that are not passed over: the expression ends before one, whatever comes after it. -/
theorem C86_blank {L : OpLang} (hL : L ∈ opLangs) {src : Source} {slack : Nat} {s : PState} {w : Word} {t : Tok} {tail : List Tok} {D : Nat}
    (hw : L.WordOf L.operands w) (ht : t.kind ∈ L.blanks) (hs : s.tokens.drop s.index = w.toks ++ t :: tail)
    (hlen : toksLen (s.tokens.drop s.index) < 2 ^ 32) (hD : 8 ≤ D) :
    ∃ s', calls (fun k => L.parser.ign.contains k) src slack L.parser.procs D L.start s = .ok (.val true, s') ∧
      s'.sink = s.sink ++ [⟨.node (L.operand w.tok.kind) (toksLen w.toks) w.leaves, s'.fresh - 1⟩] ∧
      s'.errors = s.errors ∧ s'.tokens.drop s'.index = t :: tail :=
  alone hL hw (by simp [ht]) hs hlen hD

/-! ### Cases -/

private def wordAt (k a b : Nat) : Word := ⟨⟨k, a, b⟩, []⟩

private def stateOf (ts : List Tok) : PState := { tokens := ts, index := 0, sink := [], fresh := 0, inc := none, errors := [], srcLen := 9 }

/-- `a+b*c==d` in Go. -/
private def goRow : List (Word × Word) :=
  [(wordAt Hand.Go.tPlus 1 2, wordAt Hand.Go.tIdentifier 2 3), (wordAt Hand.Go.tStar 3 4, wordAt Hand.Go.tIdentifier 4 5),
   (wordAt Hand.Go.tEqual 5 7, wordAt Hand.Go.tIdentifier 7 8)]

private theorem goRow_met : (∀ x ∈ goRow, opsGo.WordOf opsGo.known x.1 ∧ opsGo.WordOf opsGo.operands x.2) ∧
    (goRow.Pairwise fun x y => ¬ opsGo.Disputed x.1.tok.kind y.1.tok.kind) ∧
    (goRow.Pairwise fun x y => opsGo.ref.keeps x.1.tok.kind y.1.tok.kind ≠ none) := by
  refine ⟨?_, ?_, ?_⟩
  · intro x hx
    simp only [goRow, List.mem_cons, List.not_mem_nil, or_false] at hx
    rcases hx with rfl | rfl | rfl <;> exact ⟨⟨⟨by decide, by simp [wordAt]⟩, by decide⟩, ⟨by decide, by simp [wordAt]⟩, by decide⟩
  · simp [OpLang.Disputed, opsGo, goRow]
  · decide

/-- `(a+(b*c))==d`. -/
private def goExpr : Expr :=
  .bin (.bin (.atom (wordAt Hand.Go.tIdentifier 0 1)) ⟨wordAt Hand.Go.tPlus 1 2, 0, .left⟩
    (.bin (.atom (wordAt Hand.Go.tIdentifier 2 3)) ⟨wordAt Hand.Go.tStar 3 4, 0, .left⟩ (.atom (wordAt Hand.Go.tIdentifier 4 5))))
    ⟨wordAt Hand.Go.tEqual 5 7, 0, .left⟩ (.atom (wordAt Hand.Go.tIdentifier 7 8))

/-- The parser makes `(a+(b*c))==d` of the row. -/
example : ∃ s', calls (fun k => opsGo.parser.ign.contains k) (textSource []) 0 opsGo.parser.procs 14 opsGo.start
      (stateOf ((wordAt Hand.Go.tIdentifier 0 1).toks ++ rowToks goRow)) = .ok (.val true, s') ∧
    s'.sink = [⟨goExpr.drawn opsGo.operand opsGo.operation, s'.fresh - 1⟩] := by
  obtain ⟨e, s', h1, h2, h3, h4, h5, _⟩ := C86_grouped_partial (L := opsGo) (by simp [opLangs]) (src := textSource []) (slack := 0)
    (s := stateOf ((wordAt Hand.Go.tIdentifier 0 1).toks ++ rowToks goRow)) (w := wordAt Hand.Go.tIdentifier 0 1) (row := goRow) (tail := [])
    (D := 14) ⟨⟨by decide, by simp [wordAt]⟩, by decide⟩ goRow_met.1 goRow_met.2.1 (by intro _ _ h; cases h) (by simp [stateOf]) (by decide)
    (by decide)
  refine ⟨s', h4, ?_⟩
  rw [h5, C86_one_grouping (f := goExpr) h3 ?_ (h1.trans rfl) (h2.trans rfl) (h2 ▸ goRow_met.2.2)]
  · rfl
  · refine ⟨⟨trivial, ⟨trivial, trivial, by decide, by decide⟩, by decide, ?_⟩, trivial, ?_, by decide⟩
    · simp [Expr.leftSpine]; decide
    · simp [Expr.rightSpine]; decide

/-- `a==b<c` in C: the pair is disputed, the parser groups it as `(a==b)<c`. -/
example : opsC.Disputed Hand.C.tEqual Hand.C.tLess ∧ opsC.ref.keeps Hand.C.tEqual Hand.C.tLess = some false :=
  ⟨⟨_, List.mem_cons_self .., by decide, by decide⟩, by decide⟩

/-- `a<b` in Rust: the kind of `<` is not known to the parser. -/
example : Hand.Rust.tLessThan ∈ opsRust.unknown ∧ opsRust.WordOf opsRust.operands (wordAt Hand.Rust.tIdentifier 0 1) :=
  ⟨by decide, ⟨by decide, by simp [wordAt]⟩, by decide⟩

/-- `a +b` in JavaScript: the blank is not passed over. -/
example : Hand.Javascript.tWhitespace ∈ opsJavascript.blanks ∧ opsJavascript.WordOf opsJavascript.operands
    (wordAt Hand.Javascript.tIdentifierName 0 1) := ⟨by decide, ⟨by decide, by simp [wordAt]⟩, by decide⟩

end Oaks.Props
