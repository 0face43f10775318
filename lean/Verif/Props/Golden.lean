import Verif.Proofs.Golden

/-! # C79: tests against files of expected results -/

namespace Oaks.Props
open Oaks Oaks.Spec Oaks.Golden

variable {R : Type} [DecidableEq R]

/-- The ending of the expected results is one of the three. -/
def Ending (t : Tester R) : Prop := t.suffix = "lexed.json".toList ∨ t.suffix = "parsed.json".toList ∨ t.suffix = "built.json".toList

omit [DecidableEq R] in
private theorem ending_known {t : Tester R} (h : Ending t) : t.Known := by
  rcases h with h | h | h <;> simp [Tester.Known, h]

/-- Tested are the files with one of the extensions, in the order they are found, except those with the name of a result. -/
theorem C79_find (exts : List Str) (d : Files) (p : FPath) :
    p ∈ findFiles exts d ↔ (∃ text, d.get p = some text) ∧ TestName exts p.name := by
  rw [mem_find, mem_keys]

example : findFiles ["x".toList] [(⟨[], "a.x".toList⟩, []), (⟨[], "a.x.lexed.json".toList⟩, []), (⟨[], ".x".toList⟩, []),
    (⟨["d".toList], "b.y.x".toList⟩, [])] = [⟨[], "a.x".toList⟩, ⟨["d".toList], "b.y.x".toList⟩] := by decide

/-- When all tests pass — comparing, or writing the results anew — the sources are as before, the same files will be tested again, and
beside each of them is its result. -/
theorem C79_settles {t : Tester R} (ht : Ending t) (hl : ∀ r, t.dec (t.enc r) = some r) {exts : List Str} {force : Bool} {f : Str → R}
    {d d' : Files} (h : t.runTests exts force (fun s => .done (f s)) d = .ok (.ok (), d')) :
    findFiles exts d' = findFiles exts d ∧ (∀ q, ¬ ResultName q.name → d'.get q = d.get q) ∧ Settled t.dec ('.' :: t.suffix) f exts d' := by
  obtain ⟨h1, h2, _, h4⟩ := all_settle (exts := exts) (ending_known ht) hl (fun p hp => (mem_find.mp hp).2) h
  refine ⟨h1, h2, fun p text hn hg => ?_⟩
  have hm : p ∈ findFiles exts d := by rw [← h1, C79_find]; exact ⟨⟨text, hg⟩, hn⟩
  obtain ⟨text', s, g1, g2, g3⟩ := h4 p hm
  rw [hg] at g1
  cases g1
  rw [expected_eq hn] at g2
  exact ⟨s, g2, g3⟩

/-- When every tested file has an expected result, testing changes no file, and it passes exactly if the results are the expected ones. -/
theorem C79_check {t : Tester R} {exts : List Str} {g : Str → R} {d : Files}
    (h : ∀ p, TestName exts p.name → (∃ text, d.get p = some text) → ∃ s, d.get (beside p ('.' :: t.suffix)) = some s) :
    ∃ o, t.runTests exts false (fun s => .done (g s)) d = .ok (o, d) ∧ (o = .ok () ↔ Settled t.dec ('.' :: t.suffix) g exts d) := by
  obtain ⟨o, h1, h2⟩ := all_check (t := t) (g := g) (ps := findFiles exts d) (d := d) (fun p hp => by
    obtain ⟨⟨text, hg⟩, hn⟩ := (C79_find _ _ _).mp hp
    obtain ⟨s, hs⟩ := h p hn ⟨text, hg⟩
    exact ⟨text, s, hg, by rw [expected_eq hn]; exact hs⟩)
  refine ⟨o, h1, h2.trans ⟨fun hall p text hn hg => ?_, fun hset p hp text s hg hs => ?_⟩⟩
  · obtain ⟨s, hs⟩ := h p hn ⟨text, hg⟩
    exact ⟨s, hs, hall p ((C79_find _ _ _).mpr ⟨⟨text, hg⟩, hn⟩) text s hg (by rw [expected_eq hn]; exact hs)⟩
  · have hn := ((C79_find _ _ _).mp hp).2
    obtain ⟨s', h1, h2⟩ := hset p text hn hg
    rw [expected_eq hn, h1] at hs
    cases hs
    exact h2

/-- After all tests passed with one function, they pass with another exactly if it gives the same result on every tested file.

Missing for C79: that the results compared are all there is to compare (`C79_lexer_sees`, `C79_parser_sees`), that a test without an
expected result fails (`C79_unchecked`), and that a lexer that does not end is noticed (`C79_hang`). -/
theorem C79_regression_partial {t : Tester R} (ht : Ending t) (hl : ∀ r, t.dec (t.enc r) = some r) {exts : List Str} {force : Bool} {f g : Str → R}
    {d d' : Files} (h : t.runTests exts force (fun s => .done (f s)) d = .ok (.ok (), d')) :
    ∃ o, t.runTests exts false (fun s => .done (g s)) d' = .ok (o, d') ∧
      (o = .ok () ↔ ∀ p text, TestName exts p.name → d.get p = some text → g text = f text) := by
  obtain ⟨h1, h2, h3⟩ := C79_settles ht hl h
  obtain ⟨o, h4, h5⟩ := C79_check (t := t) (exts := exts) (g := g) (d := d') (fun p hn ⟨text, hg⟩ => by
    obtain ⟨s, hs, _⟩ := h3 p text hn hg; exact ⟨s, hs⟩)
  refine ⟨o, h4, h5.trans ⟨fun hs p text hn hg => ?_, fun hall p text hn hg => ?_⟩⟩
  · rw [← h2 p hn.2] at hg
    obtain ⟨s, a1, a2⟩ := h3 p text hn hg
    obtain ⟨s', b1, b2⟩ := hs p text hn hg
    rw [a1] at b1; cases b1
    rw [a2] at b2
    exact (Option.some.inj b2).symm
  · obtain ⟨s, a1, a2⟩ := h3 p text hn hg
    rw [h2 p hn.2] at hg
    exact ⟨s, a1, by rw [a2, hall p text hn hg]⟩

/-- Writing the results anew passes, whatever they are. -/
theorem C79_force {t : Tester R} (ht : Ending t) {exts : List Str} {f : Str → R} {d : Files} :
    ∃ d', t.runTests exts true (fun s => .done (f s)) d = .ok (.ok (), d') :=
  all_forced (exts := exts) (ending_known ht) (fun _ hp => (mem_find.mp hp).2) (fun _ hp => ((C79_find _ _ _).mp hp).1)

/-- Two files; then the second is read differently. -/
example : ((lexerTester id some).runTests ["x".toList] false (fun s => .done s) [(⟨[], "a.x".toList⟩, "1".toList), (⟨[], "b.x".toList⟩, "2".toList)]) =
    .ok (.ok (), [(⟨[], "a.x".toList⟩, "1".toList), (⟨[], "b.x".toList⟩, "2".toList), (⟨[], "a.x.lexed.json".toList⟩, "1".toList),
      (⟨[], "b.x.lexed.json".toList⟩, "2".toList)]) := by rfl

example : Ending (lexerTester (R := Str) id some) := .inl rfl

/-- Lexer and builder tests without an expected result pass, whatever the function does: the result is written and is the expected one
from then on. -/
theorem C79_unchecked {t : Tester R} (ht : Ending t) (hs : t.strict = false) (hl : ∀ r, t.dec (t.enc r) = some r) {exts : List Str} {d : Files}
    (h : ∀ p, ResultName p.name → d.get p = none) (f : Str → R) : ∃ d', t.runTests exts false (fun s => .done (f s)) d = .ok (.ok (), d') := by
  refine all_fresh (exts := exts) (ending_known ht) hs hl (fun p hp => (mem_find.mp hp).2) fun p hp => ?_
  obtain ⟨⟨text, hg⟩, hn⟩ := (C79_find _ _ _).mp hp
  refine ⟨text, hg, h _ (legacy_output p), fun s hs => ?_⟩
  rw [expected_eq hn, h _ ((ending_known ht).output p.name)] at hs
  cases hs

example : ∃ d', (lexerTester id some).runTests ["x".toList] false (fun _ => .done "wrong".toList) [(⟨[], "a.x".toList⟩, "1".toList)] = .ok (.ok (), d') :=
  C79_unchecked (.inl rfl) rfl (fun _ => rfl) (fun p hp => by
    have : p ≠ ⟨[], "a.x".toList⟩ := by
      rintro rfl
      obtain ⟨e, he, hs⟩ := hp
      simp only [List.mem_cons, List.not_mem_nil, or_false] at he
      rcases he with rfl | rfl | rfl | rfl <;> revert hs <;> decide
    rw [Files.get, if_neg (Ne.symm this), Files.get]) _

/-- Parser tests do not pass while a tested file has no expected result. -/
theorem C79_strict {t : Tester R} (ht : Ending t) (hs : t.strict = true) {exts : List Str} {d d' : Files} {p : FPath} {f : Str → R}
    (hn : TestName exts p.name) (hg : ∃ text, d.get p = some text) (h : ∀ q, ResultName q.name → q.dir = p.dir → d.get q = none) :
    t.runTests exts false (fun s => .done (f s)) d ≠ .ok (.ok (), d') := by
  refine all_strict (exts := exts) (ending_known ht) hs (fun p hp => (mem_find.mp hp).2) ((C79_find _ _ _).mpr ⟨hg, hn⟩) ⟨?_, ?_⟩
  · rw [expected_eq hn]
    exact h _ ((ending_known ht).output p.name) rfl
  · refine h _ (legacy_output p) ?_
    unfold withExtension; split <;> rfl

/-- The three testers: without any expected results, lexer and builder tests pass whatever the function does, and parser tests do not pass
if there is a file to test. -/
theorem C79_testers {enc : R → Str} {dec : Str → Option R} (hl : ∀ r, dec (enc r) = some r) {exts : List Str} {d : Files}
    (h : ∀ p, ResultName p.name → d.get p = none) (f : Str → R) :
    (∃ d', (lexerTester enc dec).runTests exts false (fun s => .done (f s)) d = .ok (.ok (), d')) ∧
    (∃ d', (builderTester enc dec).runTests exts false (fun s => .done (f s)) d = .ok (.ok (), d')) ∧
    ∀ p text d', TestName exts p.name → d.get p = some text →
      (parserTester enc dec).runTests exts false (fun s => .done (f s)) d ≠ .ok (.ok (), d') :=
  ⟨C79_unchecked (.inl rfl) rfl hl h f, C79_unchecked (.inr (.inr rfl)) rfl hl h f,
    fun _ text _ hn hg => C79_strict (.inr (.inl rfl)) rfl hn ⟨text, hg⟩ (fun q hq _ => h q hq)⟩

/-- The first time a parser test writes the result and says so; the second time it passes. -/
example : ((parserTester id some).runTests ["x".toList] false (fun s => .done s) [(⟨[], "a.x".toList⟩, "1".toList)]) =
    .ok (.error (.regenerated ⟨[], "a.x.parsed.json".toList⟩), [(⟨[], "a.x".toList⟩, "1".toList), (⟨[], "a.x.parsed.json".toList⟩, "1".toList)]) := by rfl

/-- A function that does not end on the first tested file holds up the tests for ever; the timeout is of no use. -/
theorem C79_hang {t : Tester R} {exts : List Str} {force : Bool} {run : Str → Job R} {d : Files} {p : FPath} {ps : List FPath} {text : Str}
    (hf : findFiles exts d = p :: ps) (hg : d.get p = some text) (hr : run text = .never) : t.runTests exts force run d = .error .spin := by
  unfold Tester.runTests
  rw [hf, Tester.testAll, Tester.testFile, hg]
  simp only [hr]

example : (lexerTester (R := Str) id some).runTests ["x".toList] false (fun _ => .never) [(⟨[], "a.x".toList⟩, "1".toList)] = .error .spin :=
  C79_hang (p := ⟨[], "a.x".toList⟩) (ps := []) (by decide) rfl rfl

/-- An expected result with an old name belongs to every file with that stem: the first one takes it, the other is not checked. -/
theorem C79_legacy : (lexerTester id some).runTests ["x".toList, "y".toList] false (fun s => .done s)
    [(⟨[], "a.x".toList⟩, "1".toList), (⟨[], "a.y".toList⟩, "2".toList), (⟨[], "a.expected.json".toList⟩, "1".toList)] =
    .ok (.ok (), [(⟨[], "a.x".toList⟩, "1".toList), (⟨[], "a.y".toList⟩, "2".toList), (⟨[], "a.x.lexed.json".toList⟩, "1".toList),
      (⟨[], "a.y.lexed.json".toList⟩, "2".toList)]) := by rfl

/-- Of a lexer, the tokens that are not ignored and the messages are compared, nothing else. -/
theorem C79_lexer_sees (ign : Nat → Bool) (text : Str) (out out' : Except Str (List Tok) × List Str) :
    lexerResult ign text out = lexerResult ign text out' ↔ lexerSeen ign out = lexerSeen ign out' := lexer_seen ign text out out'

/-- So a lexer that gives up with a message is like one that ends with no token and that message. -/
example (ign : Nat → Bool) (text m : Str) : lexerResult ign text (.error m, []) = lexerResult ign text (.ok [], [m]) :=
  (C79_lexer_sees _ _ _ _).mpr rfl

/-- Of a parser, what is compared are the nodes in order, with their kinds and lengths and how many nodes and leaves with how many bytes
each has, and the messages. -/
theorem C79_parser_sees {k n k' n' : Nat} {cs cs' : List Green} {ms ms' : List Str} :
    parserResult (.ok (.node k n cs), ms) = parserResult (.ok (.node k' n' cs'), ms') ↔
      outline (.node k n cs) = outline (.node k' n' cs') ∧ ms = ms' := by
  rw [← toAst_iff]
  simp only [parserResult, ParserResult.mk.injEq, true_and]
  exact ⟨fun h => h.2, fun h => ⟨by rw [h.1], h⟩⟩

private theorem outlineList_append (a b : List Green) : outlineList (a ++ b) = outlineList a ++ outlineList b := by
  induction a with
  | nil => simp [outlineList]
  | cons c a ih => simp [outlineList, ih]

private theorem outlineList_leaves (ls : List (Nat × Nat)) : outlineList (ls.map fun l => .leaf l.1 l.2 none) = [] := by
  induction ls with
  | nil => simp [outlineList]
  | cons c a ih => simp [outlineList, outline, ih]

private theorem here_leaves (ls : List (Nat × Nat)) (gs : List Green) :
    leavesHere ((ls.map fun l => .leaf l.1 l.2 none) ++ gs) = (ls.length + (leavesHere gs).1, (ls.map (·.2)).sum + (leavesHere gs).2) ∧
    nodesHere ((ls.map fun l => .leaf l.1 l.2 none) ++ gs) = nodesHere gs := by
  induction ls with
  | nil => simp
  | cons l ls ih =>
    simp only [leavesHere, nodesHere, Prod.mk.injEq] at ih
    simp only [List.map_cons, List.cons_append, leavesHere, nodesHere, List.filter_cons, if_true, List.length_cons, List.sum_cons, Green.len,
      Prod.mk.injEq, ih, Bool.false_eq_true, if_false, and_true]
    omega

private theorem here_append (a b : List Green) :
    leavesHere (a ++ b) = ((leavesHere a).1 + (leavesHere b).1, (leavesHere a).2 + (leavesHere b).2) ∧ nodesHere (a ++ b) = nodesHere a + nodesHere b := by
  simp [leavesHere, nodesHere]

/-- So the kinds of the leaves, their order, and where they are among the nodes are not compared: leaves before other trees may become
leaves after them, with other kinds, as long as there are as many with as many bytes. -/
theorem C79_parser_blind {k n : Nat} {ms : List Str} (gs : List Green) {ls ls' : List (Nat × Nat)} (hl : ls.length = ls'.length)
    (hb : (ls.map (·.2)).sum = (ls'.map (·.2)).sum) :
    parserResult (.ok (.node k n (ls.map (fun l => .leaf l.1 l.2 none) ++ gs)), ms) =
      parserResult (.ok (.node k n (gs ++ ls'.map (fun l => .leaf l.1 l.2 none))), ms) := by
  have h := here_leaves ls gs
  have h' := here_leaves ls' []
  rw [List.append_nil] at h'
  have h'' := here_append gs (ls'.map fun l => .leaf l.1 l.2 none)
  rw [h'.1, h'.2] at h''
  have h0 : leavesHere [] = (0, 0) ∧ nodesHere [] = 0 := ⟨rfl, rfl⟩
  rw [C79_parser_sees]
  simp only [outline, outlineList_append, outlineList_leaves, List.nil_append, List.append_nil, h.1, h.2, h''.1, h''.2, h0.1, h0.2, hl, hb,
    Nat.add_zero, and_true]
  simp only [Nat.add_comm]

/-- Two trees that differ in kind, order and place of the leaves. -/
example : parserResult (.ok (.node 1 7 [.leaf 2 1 none, .leaf 3 2 none, .node 4 4 []]), []) =
    parserResult (.ok (.node 1 7 [.node 4 4 [], .leaf 5 2 none, .leaf 6 1 none]), []) :=
  C79_parser_blind [.node 4 4 []] (ls := [(2, 1), (3, 2)]) (ls' := [(5, 2), (6, 1)]) rfl rfl

end Oaks.Props
