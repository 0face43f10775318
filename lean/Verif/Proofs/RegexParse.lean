import Verif.Spec.Regex
import Verif.Proofs.Tree
import Verif.Proofs.ParserAt

/-! The parser of regular expressions. -/
namespace Oaks
open Spec

namespace Regex

/-- The leaf of a token, as it lies in the sink. -/
def leafEntry (t : Tok) : Entry := ⟨.leaf t.kind (t.length % 2 ^ 32) none, 0⟩

/-- A token moved to the sink. -/
def bumped (s : PState) (t : Tok) : PState := { s with sink := s.sink ++ [leafEntry t], index := s.index + 1 }

theorem skipTrivia_eq (s : PState) : s.skipTrivia ign = .ok s := by
  unfold PState.skipTrivia
  rw [skipTriviaLoop]
  cases s.current <;> simp [ign]

theorem advance_eq (s : PState) : s.advance ign = .ok s.tokenAdvance := skipTrivia_eq _

theorem bump_some {s : PState} {t : Tok} (h : s.current = some t) : s.bump ign = .ok (bumped s t) := by
  unfold PState.bump
  rw [h]
  exact skipTrivia_eq _

theorem bump_none {s : PState} (h : s.current = none) : s.bump ign = .ok s := by
  unfold PState.bump
  rw [h]

theorem expect_some {s : PState} {t : Tok} (h : s.current = some t) : s.expect ign t.kind = .ok (true, bumped s t) := by
  unfold PState.expect PState.eat
  have : s.atKind t.kind = true := by simp [PState.atKind, PState.peekKind, h]
  rw [if_pos this, bump_some h]
  rfl

theorem expect_other {s : PState} {k : Nat} (h : s.peekKind ≠ some k) : s.expect ign k = .ok (false, s.record 1) := by
  unfold PState.expect PState.eat
  have : s.atKind k = false := by simpa [PState.atKind] using h
  rw [if_neg (by simp [this])]
  rfl

theorem finishAt_ok {s : PState} {cp : Nat × Nat} {k : Nat} (h : cp.2 ≤ s.sink.length)
    (hl : lenSum ((s.sink.drop cp.2).map Entry.tree) < 2 ^ 32) :
    s.finishAt cp k = .ok (⟨.node k (lenSum ((s.sink.drop cp.2).map Entry.tree)) ((s.sink.drop cp.2).map Entry.tree), s.fresh⟩,
      { s with
        sink := s.sink.take cp.2 ++
          [⟨.node k (lenSum ((s.sink.drop cp.2).map Entry.tree)) ((s.sink.drop cp.2).map Entry.tree), s.fresh⟩]
        fresh := s.fresh + 1 }) := by
  unfold PState.finishAt
  rw [if_pos h, mkNode_ok.mpr ⟨rfl, hl⟩]
  rfl

theorem mkNode_panic {k : Nat} {cs : List Green} (h : 2 ^ 32 ≤ lenSum cs) : Green.mkNode k cs = .error .panic := by
  have hp : ∀ (cs : List Green) (acc : Nat), (∃ n, sumLen acc cs = .ok n) ∨ sumLen acc cs = .error .panic := by
    intro cs
    induction cs with
    | nil => exact fun acc => .inl ⟨acc, rfl⟩
    | cons c cs ih =>
      intro acc
      rw [sumLen]
      by_cases hl : acc + c.len < 2 ^ 32
      · rw [show addU32 acc c.len = .ok (acc + c.len) from addU32_ok.2 ⟨rfl, hl⟩, run_bind_ok]
        exact ih _
      · right
        have : addU32 acc c.len = .error .panic := by simp [addU32]; omega
        rw [this]; rfl
  unfold Green.mkNode
  rcases hp cs 0 with ⟨n, hn⟩ | hn
  · have := (sumLen_ok cs 0 n (by decide)).1 hn
    omega
  · rw [hn]; rfl

/-- What `finish_at` does with what lies in the sink from `σ` on. -/
theorem finishAt_cases {s : PState} {σ τ : List Entry} {i k : Nat} (h : s.sink = σ ++ τ) :
    s.finishAt (i, σ.length) k = if lenSum (τ.map Entry.tree) < 2 ^ 32 then
      .ok (⟨.node k (lenSum (τ.map Entry.tree)) (τ.map Entry.tree), s.fresh⟩,
        { s with sink := σ ++ [⟨.node k (lenSum (τ.map Entry.tree)) (τ.map Entry.tree), s.fresh⟩], fresh := s.fresh + 1 })
      else .error .panic := by
  have h1 : s.sink.drop σ.length = τ := by simp [h]
  have h2 : s.sink.take σ.length = σ := by simp [h]
  split
  · rename_i hl
    have := finishAt_ok (s := s) (cp := (i, σ.length)) (k := k) (by simp [h]) (by simpa [h1] using hl)
    simpa only [h1, h2] using this
  · rename_i hl
    unfold PState.finishAt
    simp only [h1]
    rw [if_pos (by simp [h]), mkNode_panic (by omega)]
    rfl

theorem finishAt_root {s : PState} {τ : List Entry} {i k : Nat} (h : s.sink = τ) :
    s.finishAt (i, 0) k = if lenSum (τ.map Entry.tree) < 2 ^ 32 then
      .ok (⟨.node k (lenSum (τ.map Entry.tree)) (τ.map Entry.tree), s.fresh⟩,
        { s with sink := [⟨.node k (lenSum (τ.map Entry.tree)) (τ.map Entry.tree), s.fresh⟩], fresh := s.fresh + 1 })
      else .error .panic := finishAt_cases (σ := []) (by simpa using h)

theorem checkpointBefore_last {s : PState} {σ : List Entry} {e : Entry} (h : s.sink = σ ++ [e]) (he : e.isNodeAt e.addr = true) :
    s.checkpointBefore e = (0, σ.length) := by
  unfold PState.checkpointBefore
  have : findNodeRev e.addr s.sink s.sink.length = some σ.length := by
    rw [h, List.length_append, List.length_singleton, findNodeRev]
    simp [he]
  rw [this]

/-! ### Alternatives -/

/-- Bytes of tokens. -/
def bytesOf (ts : List Tok) : Nat := (ts.map Tok.length).sum

@[simp] theorem bytesOf_nil : bytesOf [] = 0 := rfl
@[simp] theorem bytesOf_cons (t : Tok) (ts : List Tok) : bytesOf (t :: ts) = t.length + bytesOf ts := by simp [bytesOf]
@[simp] theorem bytesOf_append (ts us : List Tok) : bytesOf (ts ++ us) = bytesOf ts + bytesOf us := by simp [bytesOf]

/-- A pattern with exactly these tokens below it. -/
def Covers (e : Entry) (ts : List Tok) : Prop :=
  ∃ cs, e.tree = .node pattern (bytesOf ts) cs ∧ leavesOfList cs = ts.map Tok.kl

theorem Covers.isNode {e : Entry} {ts : List Tok} (h : Covers e ts) : e.isNodeAt e.addr = true := by
  obtain ⟨cs, h1, _⟩ := h
  simp [Entry.isNodeAt, h1]

theorem Covers.len {e : Entry} {ts : List Tok} (h : Covers e ts) : e.tree.len = bytesOf ts := by
  obtain ⟨cs, h1, _⟩ := h
  rw [h1]; rfl

theorem Covers.leaves {e : Entry} {ts : List Tok} (h : Covers e ts) : leavesOf e.tree = ts.map Tok.kl := by
  obtain ⟨cs, h1, h2⟩ := h
  rw [h1, leavesOf, h2]

theorem current_of_drop {s : PState} {t : Tok} {r : List Tok} (h : s.tokens.drop s.index = t :: r) : s.current = some t := by
  have := congrArg List.head? h
  rw [List.head?_drop] at this
  exact this

theorem drop_next {s : PState} {t : Tok} {r : List Tok} (h : s.tokens.drop s.index = t :: r) : s.tokens.drop (s.index + 1) = r := by
  rw [← List.drop_drop, h]; rfl

theorem current_of_drop_nil {s : PState} (h : s.tokens.drop s.index = []) : s.current = none := by
  unfold PState.current
  rw [List.getElem?_eq_none_iff]
  simpa using h

theorem peekKind_of {s : PState} {ts : List Tok} (h : s.tokens.drop s.index = ts) : s.peekKind = ts.head?.map (·.kind) := by
  unfold PState.peekKind
  cases ts with
  | nil => rw [current_of_drop_nil h]; rfl
  | cons t r => rw [current_of_drop h]; rfl

theorem leavesOfList_append (a b : List Green) : leavesOfList (a ++ b) = leavesOfList a ++ leavesOfList b := by
  induction a with
  | nil => rfl
  | cons g a ih => simp [leavesOfList, ih]

/-- The state after tokens, with one node more in the sink. -/
structure Took (s : PState) (σ : List Entry) (k : Nat) (left : Entry) (s' : PState) : Prop where
  tokens : s'.tokens = s.tokens
  index : s'.index = s.index + k
  sink : s'.sink = σ ++ [left]
  errors : s'.errors = s.errors

/-- No operator of at least this precedence comes next. -/
def Stops (min : Nat) (rest : List Tok) : Prop :=
  ∀ t, rest.head? = some t → (t.kind = pipe → 1 < min) ∧ (t.kind = question ∨ t.kind = star ∨ t.kind = plus → 10 < min)

theorem infix_stop {pe : PState → Nat → Run (Entry × PState)} {s : PState} {left : Entry} {min : Nat} {rest : List Tok}
    (h : s.tokens.drop s.index = rest) (hr : Stops min rest) : infix_ pe s left min = .ok none := by
  unfold infix_
  rw [peekKind_of h]
  cases rest with
  | nil => rfl
  | cons t r =>
    obtain ⟨h1, h2⟩ := hr t rfl
    simp only [List.head?_cons, Option.map_some]
    by_cases hp : t.kind = pipe
    · rw [if_pos hp, if_pos (h1 hp)]; rfl
    · rw [if_neg hp]
      by_cases hq : t.kind = question ∨ t.kind = star ∨ t.kind = plus
      · rw [if_pos hq, if_pos (h2 hq)]; rfl
      · rw [if_neg hq]; rfl

theorem while_stop {pe : PState → Nat → Run (Entry × PState)} {s : PState} {left : Entry} {min fuel : Nat} {rest : List Tok}
    (h : s.tokens.drop s.index = rest) (hr : Stops min rest) : whileInfix pe (fuel + 1) s left min = .ok (left, s) := by
  rw [whileInfix, infix_stop h hr]
  rfl

/-- One token wrapped into a pattern. -/
theorem wrap_one {s : PState} {t : Tok} (hl : t.length < 2 ^ 32) :
    ∃ left s', (bumped s t).finishAt s.checkpoint pattern = .ok (left, s') ∧ Took s s.sink 1 left s' ∧ Covers left [t] := by
  rw [PState.checkpoint, finishAt_cases (s := bumped s t) (σ := s.sink) (τ := [leafEntry t]) rfl, if_pos (by
    simp [leafEntry, Green.len]; omega)]
  refine ⟨_, _, rfl, ⟨rfl, rfl, rfl, rfl⟩, ?_⟩
  refine ⟨[(leafEntry t).tree], ?_, ?_⟩
  · simp [leafEntry, Green.len, Nat.mod_eq_of_lt hl]
  · simp [leafEntry, leavesOfList, leavesOf, Tok.kl, Nat.mod_eq_of_lt hl]

theorem alternatives_at {b : Bool} {ts : List Tok} (h : Alternatives b ts) :
    if b then
      ∀ (fuel wfuel : Nat) (s : PState) (σ : List Entry) (left : Entry) (us rest : List Tok), ts.length ≤ fuel → ts.length < wfuel →
        s.sink = σ ++ [left] → Covers left us → s.tokens.drop s.index = ts ++ rest → Stops 0 rest → bytesOf us + bytesOf ts < 2 ^ 32 →
        ∃ left' s', whileInfix (expr fuel) wfuel s left 0 = .ok (left', s') ∧ Took s σ ts.length left' s' ∧ Covers left' (us ++ ts)
    else
      ∀ (fuel : Nat) (s : PState) (rest : List Tok), ts.length ≤ fuel → s.tokens.drop s.index = ts ++ rest → bytesOf ts < 2 ^ 32 →
        ∃ left s', prefix_ (expr fuel) s = .ok (left, s') ∧ Took s s.sink ts.length left s' ∧ Covers left ts := by
  induction h with
  | @atom t hk =>
    intro fuel s rest hf hd hl
    have hc := current_of_drop hd
    have hpk : s.peekKind = some t.kind := by simp [PState.peekKind, hc]
    have hw := wrap_one (s := s) (t := t) (by simpa using hl)
    unfold prefix_ primary
    rw [hpk]
    simp only [List.mem_cons, List.not_mem_nil, or_false] at hk
    rcases hk with hk | hk | hk | hk <;> rw [hk] <;> simp +decide only [if_true, if_false, bump_some hc, run_bind_ok] <;> exact hw
  | @group l r u v hlk hu hv hrk ihu ihv =>
    intro fuel s rest hf hd hl
    simp only [Bool.false_eq_true, if_false, if_true] at ihu ihv
    obtain ⟨f, rfl⟩ : ∃ f, fuel = f + 1 := ⟨fuel - 1, by simp at hf; omega⟩
    simp only [List.cons_append, List.append_assoc, List.nil_append, bytesOf_cons, bytesOf_append, bytesOf_nil, List.length_cons,
      List.length_append, List.length_nil] at hf hd hl ⊢
    have hc := current_of_drop hd
    have hpk : s.peekKind = some lparen := by simp [PState.peekKind, hc, hlk]
    unfold prefix_ primary
    rw [hpk]
    simp +decide only [if_true, if_false, bump_some hc, run_bind_ok]
    have hd1 : (bumped s l).tokens.drop (bumped s l).index = u ++ (v ++ r :: rest) := drop_next hd
    obtain ⟨e1, s1, g1, t1, c1⟩ := ihu f (bumped s l) _ (by omega) hd1 (by omega)
    have hd2 : s1.tokens.drop s1.index = v ++ r :: rest := by
      rw [t1.tokens, t1.index, ← List.drop_drop, hd1]; simp
    have hstop : Stops 0 (r :: rest) := by
      intro t ht
      obtain rfl : r = t := by simpa using ht
      rw [hrk]; decide
    have hlen : v.length < s1.tokens.length + 1 := by
      have := congrArg List.length hd2
      simp at this
      omega
    obtain ⟨e2, s2, g2, t2, c2⟩ := ihv f (s1.tokens.length + 1) s1 _ e1 u _ (by omega) hlen t1.sink c1 hd2 hstop (by omega)
    have hx : expr (f + 1) (bumped s l) 0 = .ok (e2, s2) := by
      rw [expr, g1, run_bind_ok]; exact g2
    rw [hx, run_bind_ok]
    have hd3 : s2.tokens.drop s2.index = r :: rest := by
      rw [t2.tokens, t2.index, ← List.drop_drop, hd2]; simp
    have he := expect_some (current_of_drop hd3)
    rw [hrk] at he
    simp only [he, run_bind_ok]
    have hsink : (bumped s2 r).sink = s.sink ++ [leafEntry l, e2, leafEntry r] := by
      simp [bumped, t2.sink]
    have hlen' : lenSum ([leafEntry l, e2, leafEntry r].map Entry.tree) = l.length + (bytesOf u + (bytesOf v + r.length)) := by
      have := c2.len
      simp at this
      simp [leafEntry, Green.len] at this ⊢
      rw [this, Nat.mod_eq_of_lt (by omega), Nat.mod_eq_of_lt (by omega)]
      omega
    rw [PState.checkpoint, finishAt_cases hsink, if_pos (by rw [hlen']; omega)]
    refine ⟨_, _, rfl, ⟨?_, ?_, rfl, ?_⟩, [(leafEntry l).tree, e2.tree, (leafEntry r).tree], ?_, ?_⟩
    · simp [bumped, t2.tokens, t1.tokens]
    · simp [bumped, t2.index, t1.index]; omega
    · simp [bumped, t2.errors, t1.errors]
    · rw [hlen']; simp
    · simp [leavesOfList, c2.leaves, leafEntry, leavesOf, Tok.kl, Nat.mod_eq_of_lt (show l.length < 2 ^ 32 by omega),
        Nat.mod_eq_of_lt (show r.length < 2 ^ 32 by omega)]
  | none =>
    intro fuel wfuel s σ left us rest hf hw hs hc hd hr hl
    obtain ⟨w, rfl⟩ : ∃ w, wfuel = w + 1 := ⟨wfuel - 1, by omega⟩
    exact ⟨left, s, while_stop hd hr, ⟨rfl, rfl, hs, rfl⟩, by simpa using hc⟩
  | @more p u v hpk hu hv ihu ihv =>
    intro fuel wfuel s σ left us rest hf hw hs hc hd hr hl
    simp only [Bool.false_eq_true, if_false, if_true] at ihu ihv
    simp only [List.cons_append, List.append_assoc, bytesOf_cons, bytesOf_append, List.length_cons, List.length_append] at hf hw hd hl ⊢
    obtain ⟨w, rfl⟩ : ∃ w, wfuel = w + 1 := ⟨wfuel - 1, by omega⟩
    obtain ⟨f, rfl⟩ : ∃ f, fuel = f + 1 := ⟨fuel - 1, by omega⟩
    have hcur := current_of_drop hd
    have hk : s.peekKind = some pipe := by simp [PState.peekKind, hcur, hpk]
    have hd1 : (bumped s p).tokens.drop (bumped s p).index = u ++ (v ++ rest) := drop_next hd
    obtain ⟨e1, s1, g1, t1, c1⟩ := ihu f (bumped s p) _ (by omega) hd1 (by omega)
    have hd2 : s1.tokens.drop s1.index = v ++ rest := by
      rw [t1.tokens, t1.index, ← List.drop_drop, hd1]; simp
    have hstop : Stops 2 (v ++ rest) := by
      cases hv with
      | none => exact fun t ht => ⟨fun _ => by omega, fun h => absurd ((hr t ht).2 h) (by omega)⟩
      | more hp =>
        intro t ht
        simp at ht
        subst ht
        rw [hp]; decide
    have hx : expr (f + 1) (bumped s p) 2 = .ok (e1, s1) := by
      rw [expr, g1, run_bind_ok]; exact while_stop hd2 hstop
    have hsink : s1.sink = σ ++ [left, leafEntry p, e1] := by
      simp [t1.sink, bumped, hs]
    have hlen' : lenSum ([left, leafEntry p, e1].map Entry.tree) = bytesOf us + (p.length + bytesOf u) := by
      have h1 := c1.len
      have h2 := hc.len
      simp [leafEntry, Green.len] at h1 h2 ⊢
      rw [h1, h2, Nat.mod_eq_of_lt (by omega)]
    have hb : prattBinary ign (expr (f + 1)) s left pipe 1 .left pattern =
        .ok (⟨.node pattern (bytesOf us + (p.length + bytesOf u)) ([left, leafEntry p, e1].map Entry.tree), s1.fresh⟩,
          { s1 with sink := σ ++ [⟨.node pattern (bytesOf us + (p.length + bytesOf u)) ([left, leafEntry p, e1].map Entry.tree), s1.fresh⟩],
                    fresh := s1.fresh + 1 }) := by
      unfold prattBinary
      have he := expect_some hcur
      rw [hpk] at he
      rw [checkpointBefore_last hs hc.isNode, he]
      simp only [run_bind_ok, nextPrec]
      rw [if_pos (by omega)]
      simp only [run_bind_ok, hx]
      rw [finishAt_cases hsink, hlen', if_pos (by omega)]
    rw [whileInfix]
    unfold infix_
    rw [hk]
    simp +decide only [if_true, if_false, hb, run_bind_ok]
    have hcov : Covers ⟨.node pattern (bytesOf us + (p.length + bytesOf u)) ([left, leafEntry p, e1].map Entry.tree), s1.fresh⟩ (us ++ p :: u) := by
      refine ⟨[left, leafEntry p, e1].map Entry.tree, by simp, ?_⟩
      simp [leavesOfList, hc.leaves, c1.leaves, leafEntry, leavesOf, Tok.kl, Nat.mod_eq_of_lt (show p.length < 2 ^ 32 by omega)]
    obtain ⟨e2, s2, g2, t2, c2⟩ := ihv (f + 1) w { s1 with
        sink := σ ++ [⟨.node pattern (bytesOf us + (p.length + bytesOf u)) ([left, leafEntry p, e1].map Entry.tree), s1.fresh⟩],
        fresh := s1.fresh + 1 } σ _ _ rest (by omega) (by omega) rfl hcov hd2 hr (by simp; omega)
    refine ⟨e2, s2, g2, ⟨?_, ?_, t2.sink, ?_⟩, by simpa using c2⟩
    · simp [t2.tokens, t1.tokens, bumped]
    · simp [t2.index, t1.index, bumped]; omega
    · simp [t2.errors, t1.errors, bumped]

/-- The parser on alternatives, whatever follows. -/
theorem parse_alternatives {u v rest : List Tok} {n : Nat} (hu : Alternatives false u) (hv : Alternatives true v) (hr : Stops 0 rest)
    (hl : bytesOf (u ++ v) < 2 ^ 32) :
    ∃ cs, parseTokens (u ++ v ++ rest) n = .ok (.node pattern (bytesOf (u ++ v)) cs, []) ∧
      leavesOfList cs = (u ++ v).map Tok.kl := by
  unfold parseTokens PState.new
  rw [skipTrivia_eq, run_bind_ok]
  have h1 := alternatives_at hu
  have h2 := alternatives_at hv
  simp only [Bool.false_eq_true, if_false, if_true] at h1 h2
  rw [bytesOf_append] at hl
  obtain ⟨e1, s1, g1, t1, c1⟩ := h1 ((u ++ v ++ rest).length + 1) ⟨u ++ v ++ rest, 0, [], 0, none, [], n⟩ (v ++ rest)
    (by simp; omega) (by simp) (by omega)
  have hd2 : s1.tokens.drop s1.index = v ++ rest := by
    rw [t1.tokens, t1.index]; simp [List.drop_left']
  obtain ⟨e2, s2, g2, t2, c2⟩ := h2 ((u ++ v ++ rest).length + 1) (s1.tokens.length + 1) s1 [] e1 u rest (by simp; omega)
    (by rw [t1.tokens]; simp; omega) t1.sink c1 hd2 hr (by omega)
  rw [expr, g1, run_bind_ok]
  simp only [g2, run_bind_ok]
  have hcl := c2.len
  rw [PState.checkpoint, show ([] : List Entry).length = 0 from rfl,
    finishAt_root (s := s2) (τ := [e2]) (by simp [t2.sink]), if_pos (by simp [hcl] ; omega)]
  refine ⟨[e2.tree], ?_, ?_⟩
  · simp [hcl, t2.errors, t1.errors]
  · simp [leavesOfList, c2.leaves]

/-! ### Repetitions -/

theorem infix_quantifier {pe : PState → Nat → Run (Entry × PState)} {s : PState} {left : Entry} {q : Tok} {rest : List Tok}
    (hd : s.tokens.drop s.index = q :: rest) (hq : q.kind ∈ [question, star, plus]) :
    infix_ pe s left 0 = (if left.tree.len + q.length % 2 ^ 32 < 2 ^ 32 then
      .ok (some (⟨.node pattern (left.tree.len + q.length % 2 ^ 32) [left.tree, (leafEntry q).tree], s.fresh⟩,
        { s with
          index := s.index + 1
          sink := s.sink ++ [⟨.node pattern (left.tree.len + q.length % 2 ^ 32) [left.tree, (leafEntry q).tree], s.fresh⟩]
          fresh := s.fresh + 1 })) else .error .panic) := by
  have hc := current_of_drop hd
  have hne : q.kind ≠ pipe := by
    simp only [List.mem_cons, List.not_mem_nil, or_false] at hq
    rcases hq with h | h | h <;> rw [h] <;> decide
  unfold infix_ PState.peekKind
  rw [hc]
  simp only [Option.map_some]
  rw [if_neg hne, if_pos (by simpa using hq), if_neg (by omega)]
  unfold quantify
  have hb : (s.pushChild left).bump ign = .ok (bumped (s.pushChild left) q) := bump_some hc
  simp only [hb, run_bind_ok, PState.checkpoint]
  rw [finishAt_cases (σ := s.sink) (τ := [left, leafEntry q]) (by simp [bumped, PState.pushChild])]
  have : lenSum ([left, leafEntry q].map Entry.tree) = left.tree.len + q.length % 2 ^ 32 := by simp [leafEntry, Green.len]
  rw [this]
  split
  · simp [bumped, PState.pushChild]
  · rfl

/-- Bytes below the root of `n` groups with repetitions. -/
def blow : Nat → Nat
  | 0 => 3
  | n + 1 => 2 * blow n + 5

theorem blow_eq (n : Nat) : blow n + 5 = 8 * 2 ^ n := by
  induction n with
  | zero => rfl
  | succ n ih => rw [blow, Nat.pow_succ]; omega

theorem quantified {pe : PState → Nat → Run (Entry × PState)} {w : Nat} {s : PState} {left : Entry} {q : Tok} {rest : List Tok}
    (hd : s.tokens.drop s.index = q :: rest) (hq : q.kind ∈ [question, star, plus]) (hl : q.length < 2 ^ 32) (hr : Stops 0 rest) :
    whileInfix pe (w + 2) s left 0 = .error .panic ∨ ∃ node s', whileInfix pe (w + 2) s left 0 = .ok (node, s') ∧ s'.tokens = s.tokens ∧
      s'.index = s.index + 1 ∧ s'.sink = s.sink ++ [node] ∧ node.tree.len = left.tree.len + q.length := by
  rw [whileInfix, infix_quantifier hd hq, Nat.mod_eq_of_lt hl]
  by_cases ho : left.tree.len + q.length < 2 ^ 32
  · right
    rw [if_pos ho]
    simp only [run_bind_ok]
    rw [while_stop (s := { s with index := _, sink := _, fresh := _ }) (rest := rest) (drop_next hd) hr]
    exact ⟨_, _, rfl, rfl, rfl, rfl, rfl⟩
  · left; rw [if_neg ho]; rfl

theorem starred_at {n : Nat} {ts : List Tok} (h : Starred n ts) (hpos : ∀ t ∈ ts, 0 < t.length ∧ t.length < 2 ^ 32) (fuel : Nat) (s : PState)
    (rest : List Tok) (hf : ts.length < fuel) (hd : s.tokens.drop s.index = ts ++ rest) (hr : Stops 0 rest) :
    expr fuel s 0 = .error .panic ∨ ∃ left s' τ, expr fuel s 0 = .ok (left, s') ∧ s'.tokens = s.tokens ∧ s'.index = s.index + ts.length ∧
      s'.sink = s.sink ++ τ ∧ blow n ≤ lenSum (τ.map Entry.tree) := by
  induction h generalizing fuel s rest with
  | @zero t q ht hq =>
    obtain ⟨f, rfl⟩ : ∃ f, fuel = f + 1 := ⟨fuel - 1, by omega⟩
    have hc := current_of_drop hd
    have hpt := hpos t (by simp)
    have hpq := hpos q (by simp)
    have hpk : s.peekKind = some character := by simp [PState.peekKind, hc, ht]
    obtain ⟨e1, s1, g1, t1, c1⟩ := wrap_one (s := s) (t := t) hpt.2
    have hp : prefix_ (expr f) s = .ok (e1, s1) := by
      unfold prefix_ primary
      rw [hpk]
      simp +decide only [if_true, if_false, bump_some hc, run_bind_ok]
      exact g1
    have hd1 : s1.tokens.drop s1.index = q :: rest := by
      rw [t1.tokens, t1.index]; exact drop_next hd
    have hlen : 1 ≤ e1.tree.len := by rw [c1.len]; simp; omega
    rw [expr, hp, run_bind_ok]
    simp only
    obtain ⟨w, hw⟩ : ∃ w, s1.tokens.length = w + 1 := ⟨s1.tokens.length - 1, by
      have := congrArg List.length hd1; simp at this; omega⟩
    rw [hw]
    rcases quantified (pe := expr f) (w := w) (left := e1) hd1 hq hpq.2 hr with he | ⟨e2, s2, g2, gt, gi, gs, gl⟩
    · exact .inl he
    · refine .inr ⟨e2, s2, [e1, e2], g2, gt.trans t1.tokens, by simp [gi, t1.index], by simp [gs, t1.sink], ?_⟩
      simp [blow, gl]; omega
  | @succ n l ts r q hlk hts hrk hq ih =>
    obtain ⟨f, rfl⟩ : ∃ f, fuel = f + 1 := ⟨fuel - 1, by omega⟩
    simp only [List.cons_append, List.append_assoc, List.nil_append, List.length_cons, List.length_append, List.length_nil] at hf hd
    have hc := current_of_drop hd
    have hpl := hpos l (by simp)
    have hpr := hpos r (by simp)
    have hpq := hpos q (by simp)
    have hpk : s.peekKind = some lparen := by simp [PState.peekKind, hc, hlk]
    have hd1 : (bumped s l).tokens.drop (bumped s l).index = ts ++ (r :: q :: rest) := drop_next hd
    have hstop : Stops 0 (r :: q :: rest) := by
      intro t ht
      obtain rfl : r = t := by simpa using ht
      rw [hrk]; decide
    rw [expr]
    unfold prefix_ primary
    rw [hpk]
    simp +decide only [if_true, if_false, bump_some hc, run_bind_ok]
    rcases ih (fun t ht => hpos t (by simp [ht])) f (bumped s l) _ (by omega) hd1 hstop with he | ⟨e1, s1, τ, g1, gt, gi, gs, gl⟩
    · left; rw [he]; rfl
    rw [g1, run_bind_ok]
    have hd2 : s1.tokens.drop s1.index = r :: q :: rest := by
      rw [gt, gi, ← List.drop_drop, hd1]; simp
    have he := expect_some (current_of_drop hd2)
    rw [hrk] at he
    simp only [he, run_bind_ok]
    have hsink : (bumped s1 r).sink = s.sink ++ (leafEntry l :: τ ++ [leafEntry r]) := by simp [bumped, gs]
    have hlen' : lenSum ((leafEntry l :: τ ++ [leafEntry r]).map Entry.tree) = l.length + (lenSum (τ.map Entry.tree) + r.length) := by
      simp [lenSum_append, leafEntry, Green.len]
      rw [Nat.mod_eq_of_lt hpl.2, Nat.mod_eq_of_lt hpr.2]
    rw [PState.checkpoint, finishAt_cases hsink, hlen']
    by_cases ho : l.length + (lenSum (τ.map Entry.tree) + r.length) < 2 ^ 32
    swap
    · left; rw [if_neg ho]; rfl
    rw [if_pos ho]
    simp only [run_bind_ok]
    have hd3 : s1.tokens.drop (s1.index + 1) = q :: rest := drop_next hd2
    obtain ⟨w, hw⟩ : ∃ w, (bumped s1 r).tokens.length = w + 1 := ⟨(bumped s1 r).tokens.length - 1, by
      have := congrArg List.length hd3; simp [bumped] at this ⊢; omega⟩
    rw [hw]
    generalize hG : (⟨.node pattern (l.length + (lenSum (τ.map Entry.tree) + r.length)) ((leafEntry l :: τ ++ [leafEntry r]).map Entry.tree),
      (bumped s1 r).fresh⟩ : Entry) = G
    have hGl : G.tree.len = l.length + (lenSum (τ.map Entry.tree) + r.length) := by rw [← hG]; rfl
    rcases quantified (pe := expr f) (w := w) (s := { bumped s1 r with sink := s.sink ++ [G], fresh := (bumped s1 r).fresh + 1 }) (left := G)
      hd3 hq hpq.2 hr with he | ⟨e2, s2, g2, gt2, gi2, gs2, gl2⟩
    · exact .inl he
    · refine .inr ⟨e2, s2, [G, e2], g2, by simp [gt2, bumped, gt], ?_, by simp [gs2], ?_⟩
      · simp [gi2, bumped, gi]; omega
      · simp [blow, gl2, hGl]; omega

theorem parse_starred {n m : Nat} {ts rest : List Tok} (h : Starred n ts) (hn : 30 ≤ n) (hpos : ∀ t ∈ ts, 0 < t.length ∧ t.length < 2 ^ 32)
    (hr : Stops 0 rest) : parseTokens (ts ++ rest) m = .error .panic := by
  unfold parseTokens PState.new
  rw [skipTrivia_eq, run_bind_ok]
  rcases starred_at h hpos ((ts ++ rest).length + 2) ⟨ts ++ rest, 0, [], 0, none, [], m⟩ rest (by simp; omega) (by simp) hr with
    he | ⟨e1, s1, τ, g1, gt, gi, gs, gl⟩
  · rw [he]; rfl
  · rw [g1]
    simp only [run_bind_ok]
    have hb := blow_eq n
    have hp : 2 ^ 30 ≤ 2 ^ n := Nat.pow_le_pow_right (by omega) hn
    rw [PState.checkpoint, show ([] : List Entry).length = 0 from rfl,
      finishAt_root (s := s1) (τ := τ) (by simp [gs]), if_neg (by omega)]
    rfl

end Regex
end Oaks
