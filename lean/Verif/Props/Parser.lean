import Verif.Proofs.Parser

/-! # C21–C25: the parser state -/

namespace Oaks.Props
open Oaks Oaks.Spec

/-- In the examples kind 0 is white space. -/
def sampleIgn (k : Nat) : Bool := k == 0

/-- `" a b"` as tokens. -/
def sampleToks : List Tok := [⟨0, 0, 1⟩, ⟨10, 1, 2⟩, ⟨0, 2, 3⟩, ⟨11, 3, 4⟩]

theorem sampleToks_tile : TokTiles 0 sampleToks 4 :=
  .cons rfl (by decide) (.cons rfl (by decide) (.cons rfl (by decide) (.cons rfl (by decide) (.nil _))))

/-! ## C21 -/

/-- After any sequence of tree-building operations the leaves in the sink are the tokens passed, in
order, with their kinds and lengths; together they are as long as the current offset. -/
theorem C21_lossless (ign : Nat → Bool) (toks : List Tok) (e : Nat) (hT : TokTiles 0 toks e) (he : e < 2 ^ 32)
    (s0 s : PState) (h0 : PState.new ign toks e = .ok s0) (ops : List POp) (hops : ∀ op ∈ ops, op.building)
    (h : POp.runAll ign s0 ops = .ok s) :
    sinkLeaves s = (toks.take s.index).map (fun t => (t.kind, t.stop - t.start)) ∧
      ((sinkLeaves s).map (·.2)).sum = s.currentOffset := by
  obtain ⟨s1, h1, hc⟩ := Consumed.new (ign := ign) toks e
  rw [h0] at h1
  simp only [Except.ok.injEq] at h1
  subst h1
  have hc' := hc.runAll ops hops h
  obtain ⟨hv, hn, hinc, ht⟩ := Covers.new hT he h0
  obtain ⟨hv', hs⟩ := hv.runAll (root := .leaf 0 0 none) (.leaf 0 0 none (by decide)) (edits := []) hT he hn
    (by simp [hinc]) ops (fun op ho => by
      have := hops op ho
      cases op <;> first | exact this | trivial) h
  refine ⟨?_, ?_⟩
  · rw [hc'.leaves]
    apply List.map_congr_left
    intro t ht
    rw [hT.small he t (List.mem_of_mem_take ht)]; rfl
  · rw [hv'.offset hT (hs.srcLen.trans hn)]; rfl

/-- None of the tree-building operations fails: moving is always possible, and finishing a node at any
checkpoint inside the sink succeeds. -/
theorem C21_no_panic (ign : Nat → Bool) (toks : List Tok) (e : Nat) (hT : TokTiles 0 toks e) (he : e < 2 ^ 32)
    (s0 s : PState) (h0 : PState.new ign toks e = .ok s0) (ops : List POp) (hops : ∀ op ∈ ops, op.building)
    (h : POp.runAll ign s0 ops = .ok s) :
    (∃ s', s.bump ign = .ok s') ∧ (∃ s', s.skipTrivia ign = .ok s') ∧ (∀ k, ∃ r, s.eat ign k = .ok r) ∧
      (∀ k, ∃ r, s.expect ign k = .ok r) ∧
      (∀ cp k, cp.2 ≤ s.sink.length → ∃ r, s.finishAt cp k = .ok r) := by
  obtain ⟨s1, h1, hc⟩ := Consumed.new (ign := ign) toks e
  rw [h0] at h1
  simp only [Except.ok.injEq] at h1
  subst h1
  have hc' := hc.runAll ops hops h
  obtain ⟨hv, hn, hinc, ht⟩ := Covers.new hT he h0
  obtain ⟨hv', hs⟩ := hv.runAll (root := .leaf 0 0 none) (.leaf 0 0 none (by decide)) (edits := []) hT he hn
    (by simp [hinc]) ops (fun op ho => by
      have := hops op ho
      cases op <;> first | exact this | trivial) h
  refine ⟨?_, ?_, ?_, ?_, ?_⟩
  · obtain ⟨s', a, _⟩ := hc'.bump (ign := ign); exact ⟨s', a⟩
  · obtain ⟨s', a, _⟩ := hc'.skipTrivia (ign := ign); exact ⟨s', a⟩
  · intro k; obtain ⟨b, s', a, _⟩ := hc'.eat (ign := ign) k; exact ⟨_, a⟩
  · intro k; obtain ⟨b, s', a, _⟩ := hc'.expect (ign := ign) k; exact ⟨_, a⟩
  · intro cp k hcp
    obtain ⟨g, a, _⟩ := hv'.finish_ok hT he cp k hcp
    unfold PState.finishAt
    rw [if_pos hcp, a]
    exact ⟨_, rfl⟩

/-- With reuse of old nodes in the sequence: what has been collected is as long as the tokens passed,
which end at the current offset. Missing: that the leaves have the kinds of those tokens. -/
theorem C21_reuse_partial (ign : Nat → Bool) (toks : List Tok) (e : Nat) (hT : TokTiles 0 toks e) (he : e < 2 ^ 32)
    (root : Green) (hroot : Built root) (edits : List Change)
    (s0 s : PState) (h0 : PState.new ign toks e = .ok s0) (ops : List POp) (hops : ∀ op ∈ ops, op.buildingOrReuse)
    (h : POp.runAll ign (s0.setIncremental root edits) ops = .ok s) :
    ((sinkLeaves s).map (·.2)).sum = s.currentOffset ∧ TokTiles 0 (toks.take s.index) s.currentOffset := by
  obtain ⟨hv, hn, hinc, ht⟩ := Covers.new hT he h0
  have hv0 : Covers toks (s0.setIncremental root edits) := ⟨hv.tokens, hv.le, hv.built, hv.tiles⟩
  obtain ⟨hv', hs⟩ := hv0.runAll (s := s0.setIncremental root edits) hroot (edits := edits) hT he hn (by
    intro i hi
    simp only [PState.setIncremental, Option.some.injEq] at hi
    exact hi ▸ Inc.new_ok root edits) ops hops h
  have ho := hv'.offset hT (hs.srcLen.trans hn)
  exact ⟨by rw [ho]; rfl, by rw [ho]; exact hv'.tiles⟩

/-- The kinds really can differ: a node over a token of kind 10 is reused over a token of kind 99. -/
theorem C21_reuse_kinds_differ :
    ∃ (toks : List Tok) (root : Green) (s0 s : PState), TokTiles 0 toks 1 ∧ Built root ∧
      PState.new sampleIgn toks 1 = .ok s0 ∧
      POp.runAll sampleIgn (s0.setIncremental root []) [.reuse 5] = .ok s ∧
      s.index = 1 ∧ sinkLeaves s ≠ (toks.take s.index).map (fun t => (t.kind, t.stop - t.start)) :=
  ⟨[⟨99, 0, 1⟩], .node 5 1 [.leaf 10 1 none],
    ⟨[⟨99, 0, 1⟩], 0, [], 0, none, [], 1⟩,
    ⟨[⟨99, 0, 1⟩], 1, [⟨.node 5 1 [.leaf 10 1 none], 0⟩], 1,
      some ⟨⟨.node 5 1 [.leaf 10 1 none], 0, []⟩, []⟩, [], 1⟩,
    .cons rfl (by decide) (.nil _),
    .node (k := 5) (cs := [.leaf 10 1 none]) (by
      intro c hc; simp at hc; subst hc; exact .leaf _ _ _ (by decide)) rfl,
    rfl, rfl, rfl, by decide⟩

/-- A run over `" a b"`: both words are bumped into a node. -/
example : ∃ s0 s, PState.new sampleIgn sampleToks 4 = .ok s0 ∧
    POp.runAll sampleIgn s0 [.bump, .expect 11, .finish (1, 1) 7] = .ok s ∧
    sinkLeaves s = [(0, 1), (10, 1), (0, 1), (11, 1)] ∧ s.currentOffset = 4 :=
  ⟨_, _, rfl, rfl, by decide, by decide⟩

/-! ## C22 -/

/-- When the body of `try_parse` fails, position and children are what they were before, whatever the
body did with operations that stay above its starting point; the errors recorded inside are kept. -/
theorem C22_backtrack {α : Type} (ign : Nat → Bool) (s : PState) (ops : List POp)
    (hops : ∀ op ∈ ops, op.above s.sink.length) (s1 : PState) (hrun : POp.runAll ign s ops = .ok s1)
    (body : PState → Run (Except PErr α × PState)) (err : PErr) (hbody : body s = .ok (.error err, s1)) :
    ∃ s2, s.tryParse body = .ok (.error err, s2) ∧ s2.index = s.index ∧ s2.sink = s.sink ∧
      s2.tokens = s.tokens ∧ s2.currentOffset = s.currentOffset ∧ s2.errors = s1.errors ∧
      ∃ new, s2.errors = s.errors ++ new := by
  have hk := runAll_keeps (base := s.sink) ⟨[], by simp⟩ ops hops hrun
  have hlen : s1.srcLen = s.srcLen := by
    have gen : ∀ (ops : List POp) (s s1 : PState), POp.runAll ign s ops = .ok s1 → s1.srcLen = s.srcLen := by
      intro ops
      induction ops with
      | nil => intro s s1 h; simp only [POp.runAll, Except.ok.injEq] at h; rw [h]
      | cons op ops ih =>
        intro s s1 h
        rw [POp.runAll] at h
        cases h1 : op.run ign s with
        | error x => rw [h1] at h; simp at h
        | ok s2 =>
          rw [h1, run_bind_ok] at h
          rw [ih s2 s1 h]
          exact run_srcLen op h1
    exact gen ops s s1 hrun
  refine ⟨s1.restore s.checkpoint, ?_, rfl, ?_, hk.tokens, ?_, rfl, hk.errors⟩
  · unfold PState.tryParse
    rw [hbody]
    rfl
  · obtain ⟨es, hes⟩ := hk.sink
    simp [PState.restore, PState.checkpoint, hes]
  · simp [PState.currentOffset, PState.current, PState.restore, PState.checkpoint, hk.tokens, hlen]

/-- When the body succeeds, its effects stay. -/
theorem C22_success {α : Type} (s s1 : PState) (v : α) (body : PState → Run (Except PErr α × PState))
    (hbody : body s = .ok (.ok v, s1)) : s.tryParse body = .ok (.ok v, s1) := by
  unfold PState.tryParse
  rw [hbody]; rfl

/-- The state used for the witness: two `5`-nodes to reuse, no edits. -/
def reuseState : PState :=
  (PState.mk [⟨10, 0, 1⟩, ⟨11, 1, 2⟩] 0 [] 0 none [] 2).setIncremental
    (.node 1 2 [.node 5 1 [.leaf 10 1 none], .node 5 1 [.leaf 11 1 none]]) []

/-- What is not restored: the cursor into the old tree. A node that could be reused before a failed
attempt cannot be reused after it, although position and children are the same. -/
theorem C22_reuse_lost :
    (∃ s1, reuseState.tryReuse 5 = .ok (true, s1)) ∧
    ∃ s2, reuseState.tryParse (α := Unit) (fun s => do return (.error ⟨9, 0⟩, (← s.tryReuse 5).2)) =
        .ok (.error ⟨9, 0⟩, s2) ∧
      s2.index = reuseState.index ∧ s2.sink = reuseState.sink ∧
      ∃ s3, s2.tryReuse 5 = .ok (false, s3) :=
  ⟨⟨_, rfl⟩, _, rfl, rfl, rfl, _, rfl⟩

/-- A failing body over `" a b"` that bumps, fails an expectation, finishes a node and gives up. -/
example : ∃ s0 s1, PState.new sampleIgn sampleToks 4 = .ok s0 ∧
    POp.runAll sampleIgn s0 [.bump, .expect 77, .finish (1, 1) 7] = .ok s1 ∧ s1.index = 3 ∧
    s1.sink.length = 2 ∧ s1.errors.length = 1 ∧
    (∀ op ∈ [POp.bump, .expect 77, .finish (1, 1) 7], op.above s0.sink.length) := by
  refine ⟨_, _, rfl, rfl, by decide, by decide, by decide, ?_⟩
  intro op h
  simp at h
  rcases h with rfl | rfl | rfl
  · trivial
  · trivial
  · show 1 ≤ 1; omega

/-! ## C23 -/

/-- `peek_non_trivia_at(n)` is the n-th token from the current one on that is not trivia. -/
theorem C23_lookahead (ign : Nat → Bool) (s : PState) (n : Nat) :
    s.peekNonTriviaAt ign n = .ok (((s.tokens.drop s.index).filter (fun t => !ign t.kind))[n]?) :=
  peekNonTriviaLoop_spec s _ n 0 (by omega)

example : ((sampleToks.drop 1).filter (fun t => !sampleIgn t.kind))[1]? = some ⟨11, 3, 4⟩ := by decide

/-! ## C24 -/

/-- A position of the new text maps back exactly when it is not inside inserted text. -/
theorem C24_defined (root : Green) (old new : Str) (edits : List Change) (h : Batch old edits new) (p : Nat)
    (hp : p ≤ blen new) :
    ∃ r, (Inc.new root edits).mapNewToOld p = .ok r ∧
      ∃ sorted, SameChanges edits sorted ∧ Spliced 0 old sorted new ∧
        (r = none ↔ ∃ x ∈ insertedAt 0 0 sorted, x.1 ≤ p ∧ p < x.2) := by
  obtain ⟨sorted, hs, hsp⟩ := h
  obtain ⟨r, h1, h2, _⟩ := mapLoop_spec hsp 0 p (by omega) (by omega)
  refine ⟨r, ?_, sorted, hs, hsp, h2⟩
  simp only [Inc.mapNewToOld, Inc.new, byStart_sort hs hsp]
  simpa using h1

/-- The position it maps to is a position of the old text, and from there up to the next edit the two
texts agree. -/
theorem C24_text_agrees (root : Green) (old new : Str) (edits : List Change) (h : Batch old edits new) (p q : Nat)
    (hp : p ≤ blen new) (hq : (Inc.new root edits).mapNewToOld p = .ok (some q)) :
    q ≤ blen old ∧ ∀ m, q + m ≤ blen old → (∀ e ∈ edits, e.stop ≤ q ∨ q + m ≤ e.start) →
      p + m ≤ blen new ∧ bytesAt new p m = bytesAt old q m := by
  obtain ⟨sorted, hs, hsp⟩ := h
  obtain ⟨r, h1, _, h3⟩ := mapLoop_spec hsp 0 p (by omega) (by omega)
  simp only [Inc.mapNewToOld, Inc.new, byStart_sort hs hsp] at hq
  have h4 : r = some q := by
    have h1' : mapLoop p (processEdits 0 sorted) 0 = .ok r := by simpa using h1
    rw [h1'] at hq
    simpa using hq
  obtain ⟨_, h5, h6⟩ := h3 q h4
  refine ⟨by simpa using h5, fun m hm he => ?_⟩
  obtain ⟨a, b⟩ := h6 m (by simpa using hm) (fun e hx => he e (by
    have : e ∈ sorted.filter (fun f => f.start == e.start) := by simp [hx]
    rw [← hs e.start] at this
    exact (List.mem_filter.1 this).1))
  exact ⟨by simpa using a, by simpa [bytesAt] using b⟩

/-- `"abcdef"` with `cd` replaced by `XYZ` and `!` put in front: `"!abXYZef"`. -/
example : Batch "abcdef".toList [⟨2, 4, "XYZ".toList⟩, ⟨0, 0, "!".toList⟩] "!abXYZef".toList := by
  refine ⟨[⟨0, 0, "!".toList⟩, ⟨2, 4, "XYZ".toList⟩], ?_, ?_⟩
  · intro p; 
    by_cases h2 : p = 2
    · subst h2; rfl
    · by_cases h0 : p = 0
      · subst h0; rfl
      · have a : (0 == p) = false := by simpa using fun h => h0 h.symm
        have b : (2 == p) = false := by simpa using fun h => h2 h.symm
        simp [List.filter, a, b]
  · exact Spliced.cons (o := 0) (gap := []) (del := []) (rest := "abcdef".toList) (new := "abXYZef".toList) rfl rfl
      (Spliced.cons (o := 0) (gap := "ab".toList) (del := "cd".toList) (rest := "ef".toList) (new := "ef".toList)
        rfl rfl (.nil _ _))

example : (Inc.new (.leaf 0 0 none) [⟨2, 4, "XYZ".toList⟩, ⟨0, 0, "!".toList⟩]).mapNewToOld 7 = .ok (some 5) := rfl
example : (Inc.new (.leaf 0 0 none) [⟨2, 4, "XYZ".toList⟩, ⟨0, 0, "!".toList⟩]).mapNewToOld 4 = .ok none := rfl

/-! ## C25 -/

/-- A reused node has the requested kind, comes from the old tree, covers in the new text the same bytes
as in the old text, and the tokens skipped tile its span; this holds at any point of any parse. Missing:
old trees whose root does not start at the beginning of the old text (then it is false, see
`C25_leading_trivia`). -/
theorem C25_reuse_partial (ign : Nat → Bool) (old new : Str) (edits : List Change) (hb : Batch old edits new)
    (root : Green) (hroot : Built root) (hcov : bytesBelow root ≤ blen old)
    (toks : List Tok) (hT : TokTiles 0 toks (blen new)) (hlt : blen new < 2 ^ 32)
    (s0 s s' : PState) (h0 : PState.new ign toks (blen new) = .ok s0) (ops : List POp)
    (hops : POp.runAll ign (s0.setIncremental root edits) ops = .ok s) (kind : Nat)
    (h : s.tryReuse kind = .ok (true, s')) :
    ∃ path g off k cs, atPath root path = some (g, off) ∧ g = .node kind (bytesBelow g) cs ∧
      s'.sink.map Entry.tree = s.sink.map Entry.tree ++ [g] ∧
      off + bytesBelow g ≤ blen old ∧ s.currentOffset + bytesBelow g ≤ blen new ∧
      bytesAt new s.currentOffset (bytesBelow g) = bytesAt old off (bytesBelow g) ∧
      s'.index = s.index + k ∧
      TokTiles s.currentOffset ((toks.drop s.index).take k) (s.currentOffset + bytesBelow g) := by
  obtain ⟨hv, hn, hinc, ht⟩ := Covers.new hT hlt h0
  have hi0 : ∀ i, (s0.setIncremental root edits).inc = some i → IncOk root edits i := by
    intro i hi
    simp only [PState.setIncremental, Option.some.injEq] at hi
    exact hi ▸ Inc.new_ok root edits
  have hst := runAll_steady hroot hi0 (by
    show ∀ t ∈ s0.tokens, _
    rw [ht]; exact hT.ord) ops hops
  have htok : s.tokens = toks := hst.tokens.trans ht
  obtain ⟨_, _, _, h5⟩ := tryReuse_spec hroot (hst.inc hi0) (by rw [htok]; exact hT.ord) h
  obtain ⟨target, hm, ⟨path, n, cs, k, r1, r2, r3, r4, r5, r6⟩⟩ := h5 rfl
  have hbn := atPath_built hroot r1
  have hln := hbn.len_eq.1
  simp only [Green.len] at hln
  have hbd := atPath_bounds r1
  rw [← hln] at hbd
  have hoff : s.currentOffset ≤ blen new := by
    unfold PState.currentOffset PState.current
    rw [htok]
    cases hc : toks[s.index]? with
    | none => exact Nat.le_of_eq (hst.srcLen.trans hn)
    | some t =>
      obtain ⟨hi, _⟩ := List.getElem?_eq_some_iff.1 hc
      have := hT.drop s.index (by omega)
      rw [hc] at this
      exact this.le
  obtain ⟨a, b⟩ := C24_text_agrees root old new edits hb s.currentOffset target hoff (by
    simpa [Inc.mapNewToOld, Inc.new] using hm)
  obtain ⟨c, d⟩ := b n (by omega) (fun e he => r6 e ((sortBy_perm byStart edits).mem_iff.2 he))
  rw [htok] at r5
  refine ⟨path, _, target, k, cs, r1, by rw [← hln], ?_, by rw [← hln]; omega, by rw [← hln]; exact c,
    by rw [← hln]; exact d, r3, by rw [← hln]; exact r5⟩
  rw [r2]; simp

/-- The same text, parsed twice without edits, with the root finished at a checkpoint taken at the start
of the parse as in the bundled grammars: because leading white space is already in the sink then, the old
root starts at byte 1, and the node built from the second word is reused over the first. -/
theorem C25_leading_trivia :
    ∃ (toks : List Tok) (s0 s1 s' : PState) (root : Entry), TokTiles 0 toks 3 ∧
      PState.new sampleIgn toks 3 = .ok s0 ∧
      POp.runAll sampleIgn s0 [.bump, .finish (1, 1) 5, .bump, .finish (2, 2) 5] = .ok s1 ∧
      s1.finishAt s0.checkpoint 1 = .ok (root, s') ∧
      ∃ s2, (s0.setIncremental root.tree []).tryReuse 5 = .ok (true, s2) ∧
        s0.peekKind = some 10 ∧ s2.index = s0.index + 1 ∧
        s2.sink.map Entry.tree = s0.sink.map Entry.tree ++ [.node 5 1 [.leaf 11 1 none]] :=
  ⟨[⟨0, 0, 1⟩, ⟨10, 1, 2⟩, ⟨11, 2, 3⟩], _, _, _, _,
    .cons rfl (by decide) (.cons rfl (by decide) (.cons rfl (by decide) (.nil _))),
    rfl, rfl, rfl, _, rfl, rfl, rfl, rfl⟩

/-- A reuse that happens: `"ab"` parsed into two nodes, then `!` put in front; the node over `a` is
reused at offset 1. -/
example : ∃ s s', POp.runAll sampleIgn
      ((PState.mk [⟨9, 0, 1⟩, ⟨10, 1, 2⟩, ⟨11, 2, 3⟩] 0 [] 0 none [] 3).setIncremental
        (.node 1 2 [.node 5 1 [.leaf 10 1 none], .node 5 1 [.leaf 11 1 none]]) [⟨0, 0, "!".toList⟩]) [.bump] = .ok s ∧
    s.tryReuse 5 = .ok (true, s') ∧ s.currentOffset = 1 ∧
    s'.sink.map Entry.tree = [.leaf 9 1 none, .node 5 1 [.leaf 10 1 none]] :=
  ⟨_, _, rfl, rfl, rfl, rfl⟩

end Oaks.Props
