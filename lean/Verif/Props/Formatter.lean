import Verif.Proofs.Formatter
import Verif.Props.Printer

/-! # C56, C57, C58, C59: formatting a tree -/

namespace Oaks.Props
open Oaks Oaks.Spec

/-! ## C56 -/

/-- The built-in rules keep content, over every source and for every assignment of roles. -/
theorem C56_builtin_rules {E : Type} (R : FmtRoles) (src : Str) : ∀ r ∈ builtinRules (E := E) R, Keeps src r := by
  intro r hr
  simp only [builtinRules, List.mem_cons, List.not_mem_nil, or_false] at hr
  rcases hr with rfl | rfl | rfl
  · refine ⟨?_, fun _ _ _ _ _ _ h => by cases h⟩
    intro n ctx children t d _ hs hc h
    simp only [indentRule] at h
    cases hn : children n with
    | error e => rw [hn] at h; cases h
    | ok e =>
      rw [hn] at h
      cases h
      simp only [docText, List.nil_append, List.append_nil]
      exact hc n t e hs hn
  · refine ⟨?_, fun _ _ _ _ _ _ h => by cases h⟩
    intro n ctx children t d _ hs hc h
    simp only [statementRule] at h
    cases hn : children n with
    | error e => rw [hn] at h; cases h
    | ok e =>
      rw [hn] at h
      cases h
      simp only [docText, List.append_nil]
      exact hc n t e hs hn
  · refine ⟨fun n ctx children t d h => by simp [commaRule] at h, ?_⟩
    intro k a b ctx t d _ ht h
    simp only [commaRule, sliceOf, ht, liftRun, bind, Except.bind] at h
    split at h
    · next hc =>
      cases h
      rw [hc]
      simp [docText]
    · cases h

/-- Formatting keeps the program text: whatever rules that keep content are added to a new formatter,
and whatever conflicts they report, formatting a tree over a source succeeds only with the characters of
the source in their order, blanks and line endings aside; and `changed` tells whether the text differs. -/
theorem C56_content {E : Type} (cfg : FormatConfig) (hi : ∀ c ∈ cfg.indentText, isBlank c) (R : FmtRoles)
    (conflicts : FmtRule E → FmtRule E → Bool) (user : List (FmtRule E)) (root : RedNode) (src : Str)
    (hu : ∀ r ∈ user, Keeps src r) (hr : StandsOn src root src) (fuel : Nat) (out : FormatOutput)
    (h : formatTree cfg (formatterRules R conflicts user) fuel root src = .ok out) :
    solid out.content = solid src ∧ (out.changed = true ↔ out.content ≠ src) := by
  have hk : ∀ r ∈ formatterRules R conflicts user, Keeps src r := by
    have add : ∀ (conf : FmtRule E → FmtRule E → Bool) (rs s : List (FmtRule E)), (∀ r ∈ s, Keeps src r) →
        (∀ r ∈ rs, Keeps src r) →
        ∀ r ∈ rs.foldl (fun s r => (addRule (fun r => r.priority) conf s r).getD s) s, Keeps src r := by
      intro conf rs
      induction rs with
      | nil => intro s hs _; exact hs
      | cons q rs ih =>
        intro s hs hq
        refine ih _ ?_ fun r hr => hq r (List.mem_cons_of_mem _ hr)
        cases ha : addRule (fun r => r.priority) conf s q with
        | none => simpa only [ha, Option.getD_none] using hs
        | some s' =>
          intro r hr
          simp only [ha] at hr
          rw [addRule_some ha, Option.getD_some] at hr
          rw [(sortBy_perm _ _).mem_iff, List.mem_append, List.mem_singleton] at hr
          rcases hr with hr | rfl
          · exact hs r hr
          · exact hq r (List.mem_cons_self ..)
    exact add conflicts user _ (add _ _ [] (by simp) (C56_builtin_rules R src)) hu
  unfold formatTree at h
  cases hd : formatNode (formatterRules R conflicts user) src fuel root FmtCtx.new with
  | error e => rw [hd] at h; cases h
  | ok d =>
    rw [hd] at h
    cases h
    refine ⟨?_, by simp⟩
    rw [C34_content cfg hi, formatNode_content hk fuel root _ src d hr hd]

/-- A new formatter never fails: over a source that the leaves write out as `ps`, it prints exactly the
document that the built-in rules describe. -/
theorem C56_standard {E : Type} (cfg : FormatConfig) (R : FmtRoles) (conflicts : FmtRule E → FmtRule E → Bool)
    (k n : Nat) (cs : List Green) (ps : List Str) (hb : Built (.node k n cs))
    (hp : ps.map blen = (leavesOfList cs).map (·.2)) (fuel : Nat) (hf : sizeOf' (.node k n cs) ≤ fuel) :
    formatTree cfg (formatterRules (E := E) R conflicts []) fuel ⟨k, n, cs, 0⟩ ps.flatten =
      .ok ⟨printDoc cfg (standardDoc R (.node k n cs) ps),
        decide (printDoc cfg (standardDoc R (.node k n cs) ps) ≠ ps.flatten)⟩ := by
  have := standard_exact (E := E) R ps.flatten hb [] ps fuel FmtCtx.new ⟨hp, [], by simp⟩ hf
  simp only [Red.ofGreen, formatChild, blen_nil] at this
  unfold formatTree
  rw [formatterRules_nil, this]
  rfl

/-! ## C57 -/

theorem inert_text (R : FmtRoles) : ∀ (g : Green) (ps : List Str), Inert R g → ps.length = (leavesOf g).length →
    ∀ (cfg : FormatConfig) (p : Printer), (render cfg (standardDoc R g ps) false p).output = p.output ++ ps.flatten
  | .leaf k n m, ps, hi, hl => by
    intro cfg p
    obtain ⟨t, rfl⟩ : ∃ t, ps = [t] := List.length_eq_one_iff.1 hl
    rw [standardDoc, if_neg (by rw [show R.punctuation k = false from hi]; simp)]
    simp [render, Printer.put]
  | .node k n cs, ps, hi, hl => by
    intro cfg p
    obtain ⟨h1, h2, h3⟩ : R.container k = false ∧ R.statement k = false ∧ InertRow R cs := by
      simpa only [Inert] using hi
    rw [standardDoc, if_neg (by simp [h1]), if_neg (by simp [h2]), render]
    exact inert_row R cs ps h3 (by simpa only [leavesOf] using hl) cfg p
where
  inert_row (R : FmtRoles) : ∀ (cs : List Green) (ps : List Str), InertRow R cs → ps.length = (leavesOfList cs).length →
      ∀ (cfg : FormatConfig) (p : Printer), (renderAll cfg (standardDocs R cs ps) false p).output = p.output ++ ps.flatten
    | [], ps, _, hl => by
      intro cfg p
      have : ps = [] := List.eq_nil_of_length_eq_zero (by simpa [leavesOfList] using hl)
      subst this
      simp [standardDocs, renderAll]
    | c :: cs, ps, hi, hl => by
      intro cfg p
      obtain ⟨h1, h2⟩ : Inert R c ∧ InertRow R cs := by simpa only [InertRow] using hi
      simp only [leavesOfList, List.length_append] at hl
      rw [standardDocs, renderAll, inert_row R cs _ h2 (by rw [List.length_drop]; omega) cfg,
        inert_text R c _ h1 (by rw [List.length_take]; omega) cfg]
      rw [List.append_assoc, ← List.flatten_append, List.take_append_drop]

/-- Where no built-in rule has anything to do, formatting only sees to the end of the text; and doing
it again, over any such tree of the new text, changes nothing. Missing for the full property: trees in
which built-in rules act, where it is false (`C57_spaces_grow`). -/
theorem C57_settles_partial {E : Type} (cfg : FormatConfig) (R : FmtRoles) (conflicts : FmtRule E → FmtRule E → Bool)
    (k n : Nat) (cs : List Green) (ps : List Str) (hb : Built (.node k n cs)) (hi : Inert R (.node k n cs))
    (hp : ps.map blen = (leavesOfList cs).map (·.2)) (fuel : Nat) (hf : sizeOf' (.node k n cs) ≤ fuel) :
    ∃ out, formatTree cfg (formatterRules (E := E) R conflicts []) fuel ⟨k, n, cs, 0⟩ ps.flatten = .ok out ∧
      EndClosed cfg ps.flatten out.content ∧
      ∀ (k' n' : Nat) (cs' : List Green) (ps' : List Str) (fuel' : Nat), Built (.node k' n' cs') → Inert R (.node k' n' cs') → ps'.flatten = out.content →
        ps'.map blen = (leavesOfList cs').map (·.2) → sizeOf' (.node k' n' cs') ≤ fuel' →
        formatTree cfg (formatterRules (E := E) R conflicts []) fuel' ⟨k', n', cs', 0⟩ out.content =
          .ok ⟨out.content, false⟩ := by
  have doc : ∀ (k n : Nat) (cs : List Green) (ps : List Str), Inert R (.node k n cs) →
      ps.map blen = (leavesOfList cs).map (·.2) →
      printDoc cfg (standardDoc R (.node k n cs) ps) = finalize cfg ps.flatten := by
    intro k n cs ps hi hp
    unfold printDoc
    rw [inert_text R _ ps hi (by simpa [leavesOf] using congrArg List.length hp)]
    rfl
  refine ⟨_, C56_standard cfg R conflicts k n cs ps hb hp fuel hf, ?_, ?_⟩
  · simp only [doc k n cs ps hi hp]
    exact finalize_closed cfg ps.flatten
  · intro k' n' cs' ps' fuel' hb' hi' he hp' hf'
    have := C56_standard (E := E) cfg R conflicts k' n' cs' ps' hb' hp' fuel' hf'
    simp only [doc k n cs ps hi hp] at he ⊢
    rw [he] at this
    rw [this, doc k' n' cs' ps' hi' hp', he, finalize_idem]
    simp

/-- The roles of the cases below: kind 1 is a container, 2 a statement, 3 punctuation. -/
def demoRoles : FmtRoles := ⟨(· == 1), (· == 2), (· == 3)⟩

/-- The tree of `a,b` with `s` spaces between comma and `b`, and a line ending. -/
def commaTree (s : Nat) : List Green := [.leaf 7 1 none, .leaf 3 1 none, .leaf 8 s none, .leaf 7 1 none, .leaf 8 1 none]

/-- Counterexample to the full property: formatting `a, b` adds a space, formatting the result adds
another, and so on for ever; the tree of the result is that of the text with one space more. -/
theorem C57_spaces_grow {E : Type} (conflicts : FmtRule E → FmtRule E → Bool) (s : Nat) (hs : s + 4 < 2 ^ 32) :
    formatTree (.default false) (formatterRules (E := E) demoRoles conflicts []) 6 ⟨0, s + 4, commaTree s, 0⟩
      ("a,".toList ++ List.replicate s ' ' ++ "b\n".toList) =
      .ok ⟨"a,".toList ++ List.replicate (s + 1) ' ' ++ "b\n".toList, true⟩ := by
  have hb : Built (.node 0 (s + 4) (commaTree s)) := by
    refine .node (k := 0) (cs := commaTree s) ?_ (mkNode_ok.2 ⟨by simp [commaTree, lenSum, Green.len]; omega, by simp [commaTree, lenSum, Green.len]; omega⟩)
    intro c hc
    simp only [commaTree, List.mem_cons, List.not_mem_nil, or_false] at hc
    rcases hc with rfl | rfl | rfl | rfl | rfl <;> refine .leaf _ _ _ ?_ <;> omega
  have hr : blen (List.replicate s ' ') = s := by
    clear hb hs
    induction s with
    | zero => rfl
    | succ s ih => rw [List.replicate_succ, blen_cons, ih]; show 1 + s = s + 1; omega
  have := C56_standard (E := E) (.default false) demoRoles conflicts 0 (s + 4) (commaTree s)
    [['a'], [','], List.replicate s ' ', ['b'], ['\n']] hb (by simp [commaTree, leavesOfList, leavesOf, hr]; decide) 6
    (by simp [commaTree, sizeOf', sizeList])
  have e : printDoc (.default false) (standardDoc demoRoles (.node 0 (s + 4) (commaTree s))
      [['a'], [','], List.replicate s ' ', ['b'], ['\n']]) = "a,".toList ++ List.replicate (s + 1) ' ' ++ "b\n".toList := by
    simp [printDoc, standardDoc, standardDocs, commaTree, demoRoles, leavesOf, render, renderAll, Printer.put, Printer.new,
      finalize, FormatConfig.default, trimEnd, List.replicate_succ]
    intro h
    refine absurd ?_ h
    rw [show (' ' :: (List.replicate s ' ' ++ ['b', '\n'])) = (' ' :: (List.replicate s ' ' ++ ['b'])) ++ ['\n'] by simp,
      List.getLast?_concat]
  rw [e] at this
  have f : ([['a'], [','], List.replicate s ' ', ['b'], ['\n']] : List Str).flatten =
      "a,".toList ++ List.replicate s ' ' ++ "b\n".toList := by simp
  rw [f] at this
  rw [this]
  congr 2
  rw [decide_eq_true_iff]
  intro h
  have := congrArg List.length h
  simp at this

/-! ## C59 -/

/-- The statements directly in a row of elements. -/
def statementsIn (R : FmtRoles) (cs : List Green) : Nat :=
  (cs.filter fun c => match c with | .node k _ _ => R.statement k && !R.container k | .leaf _ _ _ => false).length

theorem statements_break (R : FmtRoles) (cs : List Green) (ps : List Str) :
    statementsIn R cs ≤ ownBreaks (.concat (standardDocs R cs ps)) := by
  induction cs generalizing ps with
  | nil => simp [statementsIn, standardDocs, ownBreaks]
  | cons c cs ih =>
    have := ih (ps.drop (leavesOf c).length)
    rw [standardDocs, ownBreaks]
    unfold statementsIn at this ⊢
    rw [List.filter_cons]
    cases c with
    | leaf k n m => simp only [Bool.false_eq_true, if_false]; omega
    | node k n ks =>
      simp only []
      split
      · next h =>
        simp at h
        rw [standardDoc, if_neg (by simp [h.2]), if_pos h.1]
        simp only [ownBreaks, List.length_cons]
        omega
      · omega

/-- In a container that does not fit on the line, every statement is followed by a line break: the
container takes at least one line break more than it has statements. Missing for the full property:
statements anywhere else, where it is false (`C59_one_line_witness`). -/
theorem C59_broken_partial (cfg : FormatConfig) (R : FmtRoles) (b : Bool) (p : Printer) (j : Nat) (l : PLine)
    (ls : List PLine) (k n : Nat) (cs : List Green) (ps : List Str) (hk : R.container k = true) (h : At cfg p j l ls)
    (hn : ¬ Fits cfg l (standardDoc R (.node k n cs) ps)) :
    ∃ l' ls', At cfg (render cfg (standardDoc R (.node k n cs) ps) b p) j l' ls' ∧
      (l :: ls).length + statementsIn R cs + 1 ≤ (l' :: ls').length := by
  rw [standardDoc, if_pos hk] at hn ⊢
  have hn' : ¬ Fits cfg l (.indent (.concat [.line, .concat (standardDocs R cs ps)])) := by
    rintro ⟨f, hf, hw⟩
    exact hn ⟨f, by simpa only [flatText] using hf, hw⟩
  obtain ⟨l', ls', h1, _, h3⟩ := C35_breaks cfg _ b p j l ls h hn'
  refine ⟨l', ls', h1, ?_⟩
  have := statements_break R cs ps
  simp only [ownBreaks] at h3
  omega

/-- Counterexample to the full property: the rule `statement_newline` puts two statements on one line. -/
theorem C59_one_line_witness :
    formatTree (E := Nat) (.default false) (formatterRules demoRoles (fun _ _ => false) []) 9
      ⟨0, 4, [.node 2 2 [.leaf 7 2 none], .node 2 2 [.leaf 7 2 none]], 0⟩ "a;b;".toList =
      .ok ⟨"a; b;\n".toList, true⟩ := by rfl

/-! ## C58 -/

/-- What a rule is told: for a node, the kinds of the node and of the nodes around it, innermost first,
with their number as depth; for a token, those of the nodes around it. For every rule that answers from
this without formatting children, over every tree. -/
theorem C58_context {E : Type} (cfg : FormatConfig) (f : RedNode → FmtCtx → Option Doc)
    (g : Nat × Nat × Nat → FmtCtx → Option Doc) (k n : Nat) (cs : List Green) (ps : List Str) (hb : Built (.node k n cs))
    (hp : ps.map blen = (leavesOfList cs).map (·.2)) (fuel : Nat) (hf : sizeOf' (.node k n cs) ≤ fuel) :
    formatTree (E := E) cfg [replacing f g] fuel ⟨k, n, cs, 0⟩ ps.flatten =
      .ok ⟨printDoc cfg (replaced f g [] 0 (.node k n cs) ps),
        decide (printDoc cfg (replaced f g [] 0 (.node k n cs) ps) ≠ ps.flatten)⟩ := by
  have := replaced_exact (E := E) f g ps.flatten hb [] ps fuel [] ⟨hp, [], by simp⟩ hf
  simp only [Red.ofGreen, formatChild, blen_nil] at this
  unfold formatTree
  rw [show FmtCtx.new = ⟨([] : List Nat).length, []⟩ from rfl, this]
  rfl

/-- `is_inside` tells whether a kind is among those of the node and the nodes around it, and
`parent_kind` gives the second of them: at a node, the kind of its parent. -/
theorem C58_questions_partial (depth : Nat) (path : List Nat) :
    (∀ k, (FmtCtx.mk depth path).isInside k = true ↔ k ∈ path) ∧ (FmtCtx.mk depth path).parentKind = path[1]? := by
  constructor
  · intro k
    show isInsideLoop k path = true ↔ _
    induction path with
    | nil => simp [isInsideLoop]
    | cons x xs ih =>
      rw [isInsideLoop]
      by_cases h : x = k
      · simp [h]
      · rw [if_neg h, ih, List.mem_cons]
        constructor
        · exact .inr
        · rintro (h' | h')
          · exact absurd h'.symm h
          · exact h'
  · match path with
    | [] => rfl
    | [_] => rfl
    | _ :: _ :: _ => rfl

/-- A rule that prints the parent's kind in front of every token. -/
def showParent (_ : Nat × Nat × Nat) (ctx : FmtCtx) : Option Doc :=
  some (.text (match ctx.parentKind with | some k => (toString k).toList | none => "none".toList))

/-- Counterexample to the full property: asked at a token, `parent_kind` is not the kind of the
token's parent (here 5, then 6) but of the node around that. -/
theorem C58_token_parent_witness :
    formatTree (E := Nat) (.default false) [replacing (fun _ _ => none) showParent] 4
      ⟨5, 2, [.leaf 7 1 none, .node 6 1 [.leaf 7 1 none]], 0⟩ "ab".toList = .ok ⟨"none5\n".toList, true⟩ := by
  rfl

/-- Non-trivial case: a container with two statements that does not fit, and one that does. -/
def demoTree : List Green :=
  [.leaf 3 1 none, .node 1 9 [.node 2 4 [.leaf 7 2 none, .leaf 3 1 none, .leaf 7 1 none], .node 2 5 [.leaf 7 5 none]], .leaf 3 1 none]

def demoPieces : List Str := ["{".toList, "fa".toList, ",".toList, "b".toList, "é+de".toList, "}".toList]

example : Built (.node 0 11 demoTree) ∧ demoPieces.map blen = (leavesOfList demoTree).map (·.2) := by
  refine ⟨?_, by decide⟩
  have leaf : ∀ k n, n < 2 ^ 32 → Built (.leaf k n none) := fun k n h => .leaf k n none h
  refine .node (k := 0) (cs := demoTree) ?_ rfl
  intro c hc
  simp only [demoTree, List.mem_cons, List.not_mem_nil, or_false] at hc
  rcases hc with rfl | rfl | rfl
  · exact leaf _ _ (by decide)
  · refine .node (k := 1) (cs := [.node 2 4 [.leaf 7 2 none, .leaf 3 1 none, .leaf 7 1 none],
      .node 2 5 [.leaf 7 5 none]]) ?_ rfl
    intro c hc
    simp only [List.mem_cons, List.not_mem_nil, or_false] at hc
    rcases hc with rfl | rfl
    · refine .node (k := 2) (cs := [.leaf 7 2 none, .leaf 3 1 none, .leaf 7 1 none]) ?_ rfl
      intro c hc
      simp only [List.mem_cons, List.not_mem_nil, or_false] at hc
      rcases hc with rfl | rfl | rfl <;> exact leaf _ _ (by decide)
    · refine .node (k := 2) (cs := [.leaf 7 5 none]) ?_ rfl
      intro c hc
      simp only [List.mem_cons, List.not_mem_nil, or_false] at hc
      rcases hc with rfl
      exact leaf _ _ (by decide)
  · exact leaf _ _ (by decide)

example : formatTree (E := Nat) demoCfg (formatterRules demoRoles (fun _ _ => false) []) 9 ⟨0, 11, demoTree, 0⟩ demoPieces.flatten =
    .ok ⟨"{\r\n  fa,\r\n  b\r\n  é+de\r\n  }\r\n".toList, true⟩ := by rfl

example : formatTree (E := Nat) (.default false) (formatterRules demoRoles (fun _ _ => false) []) 9 ⟨0, 11, demoTree, 0⟩ demoPieces.flatten =
    .ok ⟨"{ fa, b é+de }\n".toList, true⟩ := by rfl

end Oaks.Props
