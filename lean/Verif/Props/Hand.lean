import Verif.Proofs.HandJudge
import Verif.Proofs.HandSpin
import Verif.Proofs.ProgKinds
import Verif.Props.Flat

/-! C82, C83: hand-written example parsers end, and keep the tokens in their trees. -/
namespace Oaks.Props
open Spec

/-- The modelled parsers that always end. -/
def handEnd : List HandParser :=
  [Hand.Ada.parser, Hand.Apl.parser, Hand.Bash.parser, Hand.Bat.parser, Hand.Cmd.parser, Hand.Cobol.parser, Hand.Coq.parser,
   Hand.Css.parser, Hand.Dart.parser, Hand.Fsharp.parser, Hand.Handlebars.parser, Hand.Haskell.parser, Hand.Html.parser, Hand.J.parser,
   Hand.Jasmin.parser, Hand.Julia.parser, Hand.LlvmIr.parser, Hand.Matlab.parser, Hand.Msil.parser, Hand.Nginx.parser,
   Hand.Notedown.parser, Hand.ObjectiveC.parser, Hand.Ocaml.parser, Hand.OrgMode.parser, Hand.Perl.parser, Hand.Powershell.parser,
   Hand.Prolog.parser, Hand.Protobuf.parser, Hand.Svelte.parser, Hand.Tailwind.parser, Hand.Typst.parser, Hand.Vhdl.parser,
   Hand.Voc.parser, Hand.Wat.parser, Hand.Wgsl.parser]

/-- Those of them that never return an error in place of a tree. -/
def handTree : List HandParser :=
  [Hand.Ada.parser, Hand.Apl.parser, Hand.Bash.parser, Hand.Bat.parser, Hand.Cmd.parser, Hand.Css.parser, Hand.Dart.parser,
   Hand.Haskell.parser, Hand.Html.parser, Hand.J.parser, Hand.Jasmin.parser, Hand.Julia.parser, Hand.Matlab.parser, Hand.Msil.parser,
   Hand.Nginx.parser, Hand.Notedown.parser, Hand.ObjectiveC.parser, Hand.Ocaml.parser, Hand.OrgMode.parser, Hand.Perl.parser,
   Hand.Powershell.parser, Hand.Prolog.parser, Hand.Protobuf.parser, Hand.Svelte.parser, Hand.Typst.parser, Hand.Vhdl.parser,
   Hand.Wat.parser, Hand.Wgsl.parser]

/-- Parsers that keep every token. -/
def handWhole : List HandParser :=
  [Hand.Dart.parser, Hand.Fsharp.parser, Hand.Jasmin.parser, Hand.Julia.parser, Hand.Matlab.parser, Hand.Msil.parser,
   Hand.Notedown.parser, Hand.Prolog.parser, Hand.Protobuf.parser, Hand.Typst.parser, Hand.Wat.parser, Hand.Wgsl.parser]

/-- Parsers that keep every token from the first one that is not ignored. -/
def handAfter : List HandParser :=
  [Hand.Cobol.parser, Hand.Css.parser, Hand.Haskell.parser, Hand.Nginx.parser, Hand.ObjectiveC.parser, Hand.Ocaml.parser,
   Hand.OrgMode.parser, Hand.Perl.parser, Hand.Powershell.parser, Hand.Svelte.parser]

/-- Parsers that keep every token from the first one that is not ignored and stop before a token for the end of the file, with the kind
of this token. -/
def handEof : List (HandParser × Nat) :=
  [(Hand.Bash.parser, 17), (Hand.Bat.parser, 14), (Hand.Cmd.parser, 14), (Hand.Coq.parser, 142), (Hand.Voc.parser, 86)]

private theorem forall_cons {α : Type} {P : α → Prop} {a : α} {l : List α} (h : P a) (hl : ∀ x ∈ l, P x) : ∀ x ∈ a :: l, P x := by
  intro x hx
  rcases List.mem_cons.mp hx with rfl | hx
  · exact h
  · exact hl x hx
private theorem forall_nil {α : Type} {P : α → Prop} : ∀ x ∈ ([] : List α), P x := fun _ h => absurd h List.not_mem_nil

private theorem judged : ∀ h ∈ handEnd, ∃ b ks, h.sure b ks = true :=
  forall_cons ⟨_, _, Hand.ada_sure⟩ (forall_cons ⟨_, _, Hand.apl_sure⟩ (forall_cons ⟨_, _, Hand.bash_sure⟩ (forall_cons ⟨_, _,
  Hand.bat_sure⟩ (forall_cons ⟨_, _, Hand.cmd_sure⟩ (forall_cons ⟨_, _, Hand.cobol_sure⟩ (forall_cons ⟨_, _, Hand.coq_sure⟩
  (forall_cons ⟨_, _, Hand.css_sure⟩ (forall_cons ⟨_, _, Hand.dart_sure⟩ (forall_cons ⟨_, _, Hand.fsharp_sure⟩ (forall_cons ⟨_, _,
  Hand.handlebars_sure⟩ (forall_cons ⟨_, _, Hand.haskell_sure⟩ (forall_cons ⟨_, _, Hand.html_sure⟩ (forall_cons ⟨_, _, Hand.j_sure⟩
  (forall_cons ⟨_, _, Hand.jasmin_sure⟩ (forall_cons ⟨_, _, Hand.julia_sure⟩ (forall_cons ⟨_, _, Hand.llvmIr_sure⟩ (forall_cons ⟨_, _,
  Hand.matlab_sure⟩ (forall_cons ⟨_, _, Hand.msil_sure⟩ (forall_cons ⟨_, _, Hand.nginx_sure⟩ (forall_cons ⟨_, _, Hand.notedown_sure⟩
  (forall_cons ⟨_, _, Hand.objectiveC_sure⟩ (forall_cons ⟨_, _, Hand.ocaml_sure⟩ (forall_cons ⟨_, _, Hand.orgMode_sure⟩ (forall_cons
  ⟨_, _, Hand.perl_sure⟩ (forall_cons ⟨_, _, Hand.powershell_sure⟩ (forall_cons ⟨_, _, Hand.prolog_sure⟩ (forall_cons ⟨_, _,
  Hand.protobuf_sure⟩ (forall_cons ⟨_, _, Hand.svelte_sure⟩ (forall_cons ⟨_, _, Hand.tailwind_sure⟩ (forall_cons ⟨_, _,
  Hand.typst_sure⟩ (forall_cons ⟨_, _, Hand.vhdl_sure⟩ (forall_cons ⟨_, _, Hand.voc_sure⟩ (forall_cons ⟨_, _, Hand.wat_sure⟩
  (forall_cons ⟨_, _, Hand.wgsl_sure⟩ (forall_nil)))))))))))))))))))))))))))))))))))

private theorem judged_tree : ∀ h ∈ handTree, ∃ ks, h.sure true ks = true :=
  forall_cons ⟨_, Hand.ada_sure⟩ (forall_cons ⟨_, Hand.apl_sure⟩ (forall_cons ⟨_, Hand.bash_sure⟩ (forall_cons ⟨_, Hand.bat_sure⟩
  (forall_cons ⟨_, Hand.cmd_sure⟩ (forall_cons ⟨_, Hand.css_sure⟩ (forall_cons ⟨_, Hand.dart_sure⟩ (forall_cons ⟨_, Hand.haskell_sure⟩
  (forall_cons ⟨_, Hand.html_sure⟩ (forall_cons ⟨_, Hand.j_sure⟩ (forall_cons ⟨_, Hand.jasmin_sure⟩ (forall_cons ⟨_, Hand.julia_sure⟩
  (forall_cons ⟨_, Hand.matlab_sure⟩ (forall_cons ⟨_, Hand.msil_sure⟩ (forall_cons ⟨_, Hand.nginx_sure⟩ (forall_cons ⟨_,
  Hand.notedown_sure⟩ (forall_cons ⟨_, Hand.objectiveC_sure⟩ (forall_cons ⟨_, Hand.ocaml_sure⟩ (forall_cons ⟨_, Hand.orgMode_sure⟩
  (forall_cons ⟨_, Hand.perl_sure⟩ (forall_cons ⟨_, Hand.powershell_sure⟩ (forall_cons ⟨_, Hand.prolog_sure⟩ (forall_cons ⟨_,
  Hand.protobuf_sure⟩ (forall_cons ⟨_, Hand.svelte_sure⟩ (forall_cons ⟨_, Hand.typst_sure⟩ (forall_cons ⟨_, Hand.vhdl_sure⟩
  (forall_cons ⟨_, Hand.wat_sure⟩ (forall_cons ⟨_, Hand.wgsl_sure⟩ (forall_nil))))))))))))))))))))))))))))

private theorem judged_whole : ∀ h ∈ handWhole, ∃ b, h.sure b [] = true :=
  forall_cons ⟨_, Hand.dart_sure⟩ (forall_cons ⟨_, Hand.fsharp_sure⟩ (forall_cons ⟨_, Hand.jasmin_sure⟩ (forall_cons ⟨_,
  Hand.julia_sure⟩ (forall_cons ⟨_, Hand.matlab_sure⟩ (forall_cons ⟨_, Hand.msil_sure⟩ (forall_cons ⟨_, Hand.notedown_sure⟩
  (forall_cons ⟨_, Hand.prolog_sure⟩ (forall_cons ⟨_, Hand.protobuf_sure⟩ (forall_cons ⟨_, Hand.typst_sure⟩ (forall_cons ⟨_,
  Hand.wat_sure⟩ (forall_cons ⟨_, Hand.wgsl_sure⟩ (forall_nil))))))))))))

private theorem judged_after : ∀ h ∈ handAfter, ∃ b, h.sure b [] = true :=
  forall_cons ⟨_, Hand.cobol_sure⟩ (forall_cons ⟨_, Hand.css_sure⟩ (forall_cons ⟨_, Hand.haskell_sure⟩ (forall_cons ⟨_,
  Hand.nginx_sure⟩ (forall_cons ⟨_, Hand.objectiveC_sure⟩ (forall_cons ⟨_, Hand.ocaml_sure⟩ (forall_cons ⟨_, Hand.orgMode_sure⟩
  (forall_cons ⟨_, Hand.perl_sure⟩ (forall_cons ⟨_, Hand.powershell_sure⟩ (forall_cons ⟨_, Hand.svelte_sure⟩ (forall_nil))))))))))

private theorem judged_eof : ∀ h ∈ handEof, ∃ b, h.1.sure b [h.2] = true :=
  forall_cons ⟨_, Hand.bash_sure⟩ (forall_cons ⟨_, Hand.bat_sure⟩ (forall_cons ⟨_, Hand.cmd_sure⟩ (forall_cons ⟨_, Hand.coq_sure⟩
  (forall_cons ⟨_, Hand.voc_sure⟩ (forall_nil)))))

private theorem plain_whole : ∀ h ∈ handWhole, h.plain = true ∧ (h.fromStart = true ∨ h.ign = []) := by
  have : handWhole.all (fun h => h.plain && (h.fromStart || h.ign.isEmpty)) = true := by decide +kernel
  intro h hh
  have := List.all_eq_true.mp this h hh
  simpa using this
private theorem plain_after : ∀ h ∈ handAfter, h.plain = true ∧ h.fromStart = false := by
  have : handAfter.all (fun h => h.plain && !h.fromStart) = true := by decide +kernel
  intro h hh
  have := List.all_eq_true.mp this h hh
  simpa using this
private theorem plain_eof : ∀ h ∈ handEof, h.1.plain = true ∧ h.1.fromStart = false := by
  have : handEof.all (fun h => h.1.plain && !h.1.fromStart) = true := by decide +kernel
  intro h hh
  have := List.all_eq_true.mp this h hh
  simpa using this

private theorem parse_sure {h : HandParser} {b : Bool} {ks : List Nat} (hs : h.sure b ks = true) {src : Source} {toks : List Tok}
    (hl : tokBytes toks < 2 ^ 32) :
    ∃ o errs, (∀ slack, h.parse slack src toks = .ok (o, errs)) ∧ (b = true → o ≠ none) ∧
      ∀ g, o = some g → ∃ cs i, g = .node h.root (lenSum cs) cs ∧ lenSum cs = bytesBelowList cs ∧
        (∀ t, toks[i]? = some t → t.kind ∈ ks) ∧ (toks[i]? = none → i = toks.length) ∧
        (h.plain = true → leavesOfList cs = ((toks.take i).drop (h.lead toks)).map kindLen) := by
  unfold HandParser.sure at hs
  cases hj : h.judge (h.sums 6) with
  | none => rw [hj] at hs; simp at hs
  | some R =>
    rw [hj] at hs
    simp only [Bool.and_eq_true, Bool.or_eq_true, Bool.not_eq_true', List.all_eq_true] at hs
    obtain ⟨o, errs, h1, h2, h3⟩ := HandParser.parse_ends hj (slack := 0) (src := src) hl
    refine ⟨o, errs, fun slack => HandParser.parse_mono (Nat.zero_le _) h1, ?_, ?_⟩
    · rintro rfl
      exact h2 (by simpa using hs.1.1)
    · intro g hg
      obtain ⟨cs, i, e1, e2, e3, e4⟩ := h3 g hg
      obtain ⟨cs', f1, f2, _⟩ := (HandParser.parse_keeps (HandParser.judge_once hj) hl h1).2 g hg
      have hcs : cs = cs' := by rw [f1] at e1; injection e1 with _ _ e; exact e.symm
      subst hcs
      refine ⟨cs, i, e1, f2, ?_, e3, e4⟩
      intro t ht
      rw [ht] at e2
      simp only [Option.map_some, Prog.Head.has, hs.1.2, Bool.bne_false] at e2
      simpa using hs.2 t.kind (by simpa using e2)

private theorem bytes_of {toks : List Tok} {cs : List Green} (h : leavesOfList cs = toks.map kindLen) :
    bytesBelowList cs = tokBytes toks := by
  unfold bytesBelowList tokBytes
  rw [h, List.map_map]; rfl

private theorem drop_lead (p : Tok → Bool) (l : List Tok) : ∀ i, (l.take i).drop (l.takeWhile p).length = (l.take i).dropWhile p := by
  induction l with
  | nil => intro i; simp
  | cons a l ih =>
    intro i
    cases i with
    | zero => simp
    | succ i => by_cases h : p a = true <;> simp [h, ih]

/-! ### C82: parsers end -/

/-- On every token stream these parsers return a tree or nothing, and errors (`slack` only says how long we wait).

Missing for C82: three parsers that do not end (`C82_r_endless`, `C82_nix_endless`, `C82_tcl_endless`), and the parsers that are not
modelled. -/
theorem C82_parsers_end_partial {h : HandParser} (hh : h ∈ handEnd) (src : Source) {toks : List Tok} (hl : tokBytes toks < 2 ^ 32) :
    ∃ r, ∀ slack, h.parse slack src toks = .ok r := by
  obtain ⟨b, ks, hs⟩ := judged h hh
  obtain ⟨o, errs, h1, _⟩ := parse_sure hs (src := src) hl
  exact ⟨_, h1⟩

example : ∃ r, ∀ slack, Hand.Nginx.parser.parse slack (textSource "a }".toList) [⟨9, 0, 1⟩, ⟨0, 1, 2⟩, ⟨16, 2, 3⟩] = .ok r :=
  C82_parsers_end_partial (by simp [handEnd]) _ (by decide)

/-- These parsers never answer with an error in place of a tree.

Missing for C82: the seven others (`C82_refusals`). -/
theorem C82_always_a_tree_partial {h : HandParser} (hh : h ∈ handTree) (src : Source) {toks : List Tok} (hl : tokBytes toks < 2 ^ 32) :
    ∃ g errs, ∀ slack, h.parse slack src toks = .ok (some g, errs) := by
  obtain ⟨ks, hs⟩ := judged_tree h hh
  obtain ⟨o, errs, h1, h2, _⟩ := parse_sure hs (src := src) hl
  cases o with
  | none => exact absurd rfl (h2 rfl)
  | some g => exact ⟨g, errs, h1⟩

example : ∃ g errs, ∀ slack, Hand.Css.parser.parse slack (textSource "}}".toList) [⟨20, 0, 1⟩, ⟨20, 1, 2⟩] = .ok (some g, errs) :=
  C82_always_a_tree_partial (by simp [handTree]) _ (by decide)

/-- A token of this kind alone. -/
def oneTok (k : Nat) : List Tok := [⟨k, 0, 1⟩]

/-- These parsers give no tree if something is missing behind a token, such as the name behind `let`. -/
theorem C82_refusals {h : HandParser} {k : Nat}
    (hk : (h, k) ∈ [(Hand.Cobol.parser, Hand.Cobol.tProcedure), (Hand.Coq.parser, Hand.Coq.tTheorem), (Hand.Fsharp.parser, Hand.Fsharp.tLet),
      (Hand.Handlebars.parser, Hand.Handlebars.tOpen), (Hand.LlvmIr.parser, Hand.LlvmIr.tGlobalVar),
      (Hand.Tailwind.parser, Hand.Tailwind.tDoubleLeftBrace), (Hand.Voc.parser, Hand.Voc.tTagOpen)]) (slack : Nat) :
    ∃ errs, h.parse slack (textSource "a".toList) (oneTok k) = .ok (none, errs) ∧ errs ≠ [] := by
  have key : ∀ (p : HandParser) (j : Nat), (match p.parse 0 (textSource "a".toList) (oneTok j) with
      | .ok (none, e) => !e.isEmpty
      | _ => false) = true → ∃ errs, p.parse slack (textSource "a".toList) (oneTok j) = .ok (none, errs) ∧ errs ≠ [] := by
    intro p j hp
    split at hp
    · rename_i e he
      exact ⟨e, HandParser.parse_mono (Nat.zero_le _) he, by simpa using hp⟩
    · cases hp
  refine key h k ?_
  revert h k
  simp only [List.mem_cons, List.not_mem_nil, or_false, Prod.mk.injEq]
  rintro h k (⟨rfl, rfl⟩ | ⟨rfl, rfl⟩ | ⟨rfl, rfl⟩ | ⟨rfl, rfl⟩ | ⟨rfl, rfl⟩ | ⟨rfl, rfl⟩ | ⟨rfl, rfl⟩) <;> decide +kernel

/-- `RParser` never ends on `function(` followed by anything but a name, a comma or `)`, such as `function("a")`; a default value of a
parameter is such a case. -/
theorem C82_r_endless {f p x : Tok} {rest : List Tok} (hf : f.kind = Hand.R.tFunction) (hp : p.kind = Hand.R.tLeftParen)
    (hx : x.kind ≠ Hand.R.tRightParen ∧ x.kind ≠ Hand.R.tIdentifier ∧ x.kind ≠ Hand.R.tComma) (slack : Nat) (src : Source) :
    Hand.R.parser.parse slack src (f :: p :: x :: rest) = .error .spin := Hand.r_spins hf hp hx slack src

example (slack : Nat) : Hand.R.parser.parse slack (textSource "function(1)".toList) [⟨24, 0, 8⟩, ⟨54, 8, 9⟩, ⟨4, 9, 10⟩, ⟨55, 10, 11⟩] =
    .error .spin := C82_r_endless rfl rfl (by decide) slack _

/-- `NixParser` never ends on `{` followed by anything but blanks, a name, `=` or `}`, such as `{ "a" = 1; }`. -/
theorem C82_nix_endless {b x : Tok} {rest : List Tok} (hb : b.kind = Hand.Nix.tLeftBrace)
    (hx : x.kind ∉ [Hand.Nix.tWhitespace, Hand.Nix.tNewline, Hand.Nix.tComment, Hand.Nix.tRightBrace, Hand.Nix.tIdentifier, Hand.Nix.tAssign])
    (slack : Nat) (src : Source) : Hand.Nix.parser.parse slack src (b :: x :: rest) = .error .spin := Hand.nix_spins hb hx slack src

example (slack : Nat) : Hand.Nix.parser.parse slack (textSource "{1}".toList) [⟨Hand.Nix.tLeftBrace, 0, 1⟩, ⟨99, 1, 2⟩,
    ⟨Hand.Nix.tRightBrace, 2, 3⟩] = .error .spin := C82_nix_endless rfl (by decide) slack _

/-- `TclParser` never ends on `[` followed by a comment. -/
theorem C82_tcl_endless {b c : Tok} {rest : List Tok} (hb : b.kind = Hand.Tcl.tLeftBracket) (hc : c.kind = Hand.Tcl.tComment) (slack : Nat)
    (src : Source) : Hand.Tcl.parser.parse slack src (b :: c :: rest) = .error .spin := Hand.tcl_spins hb hc slack src

example (slack : Nat) : Hand.Tcl.parser.parse slack (textSource "[#a\n]".toList) [⟨43, 0, 1⟩, ⟨52, 1, 3⟩, ⟨51, 3, 4⟩, ⟨44, 4, 5⟩] =
    .error .spin := C82_tcl_endless rfl rfl slack _

/-! ### C83: trees keep the tokens -/

/-- What every tree of a modelled parser that never calls `push_child` holds is tokens, in order, each at most once; the root is as long
as them; without a tree there is an error. -/
theorem C83_only_tokens {h : HandParser} (ho : h.once = true) {slack : Nat} {src : Source} {toks : List Tok} (hl : tokBytes toks < 2 ^ 32)
    {o : Option Green} {errs : List PErr} (hr : h.parse slack src toks = .ok (o, errs)) :
    (o = none → errs ≠ []) ∧ ∀ g, o = some g → ∃ cs, g = .node h.root (bytesBelowList cs) cs ∧
      (leavesOfList cs).Sublist (toks.map kindLen) := by
  obtain ⟨h1, h2⟩ := HandParser.parse_keeps ho hl hr
  refine ⟨h1, fun g hg => ?_⟩
  obtain ⟨cs, e1, e2, e3, _⟩ := h2 g hg
  exact ⟨cs, e2 ▸ e1, e3⟩

example {g : Green} {errs : List PErr} (hr : Hand.Css.parser.parse 0 (textSource " a}".toList) [⟨0, 0, 1⟩, ⟨9, 1, 2⟩, ⟨20, 2, 3⟩] =
    .ok (some g, errs)) : ∃ cs, g = .node Hand.Css.parser.root (bytesBelowList cs) cs ∧
    (leavesOfList cs).Sublist [(0, 1), (9, 1), (20, 1)] :=
  (C83_only_tokens (by decide +kernel) (by decide) hr).2 g rfl

/-- The trees of these parsers hold all tokens.

Missing for C83: the other parsers. -/
theorem C83_every_token_partial {h : HandParser} (hh : h ∈ handWhole) {slack : Nat} {src : Source} {toks : List Tok}
    (hl : tokBytes toks < 2 ^ 32) {g : Green} {errs : List PErr} (hr : h.parse slack src toks = .ok (some g, errs)) :
    ∃ cs, g = .node h.root (tokBytes toks) cs ∧ leavesOfList cs = toks.map kindLen := by
  obtain ⟨b, hs⟩ := judged_whole h hh
  obtain ⟨hp, hi⟩ := plain_whole h hh
  obtain ⟨o, errs', h1, _, h3⟩ := parse_sure hs (src := src) hl
  have e := h1 slack
  rw [hr] at e
  injection e with e; injection e with e _
  obtain ⟨cs, i, e1, e2, e3, e4, e5⟩ := h3 g e.symm
  have hn : toks[i]? = none := by
    cases ht : toks[i]? with
    | none => rfl
    | some t => exact absurd (e3 t ht) List.not_mem_nil
  have hi' := e4 hn
  have hlead : h.lead toks = 0 := by
    unfold HandParser.lead
    rcases hi with hi | hi
    · simp [hi]
    · rw [hi]; cases toks <;> simp
  have hv := e5 hp
  rw [hlead, hi', List.take_length, List.drop_zero] at hv
  exact ⟨cs, by rw [e1, e2, bytes_of hv], hv⟩

example : ∃ errs g, Hand.Wat.parser.parse 0 (textSource "(a".toList) [⟨0, 0, 1⟩, ⟨3, 1, 2⟩] = .ok (some g, errs) ∧
    leavesOf g = [(0, 1), (3, 1)] := by
  obtain ⟨g, errs, h⟩ := C82_always_a_tree_partial (h := Hand.Wat.parser) (by simp [handTree]) (textSource "(a".toList)
    (toks := [⟨0, 0, 1⟩, ⟨3, 1, 2⟩]) (by decide)
  obtain ⟨cs, rfl, h2⟩ := C83_every_token_partial (by simp [handWhole]) (by decide) (h 0)
  exact ⟨errs, _, h 0, by simpa [leavesOf, kindLen] using h2⟩

/-- The trees of these parsers hold all tokens from the first one that is not ignored.

Missing for C83: the ignored tokens before (`C83_blanks_lost`). -/
theorem C83_after_blanks_partial {h : HandParser} (hh : h ∈ handAfter) {slack : Nat} {src : Source} {toks : List Tok}
    (hl : tokBytes toks < 2 ^ 32) {g : Green} {errs : List PErr} (hr : h.parse slack src toks = .ok (some g, errs)) :
    ∃ cs, g = .node h.root (tokBytes (toks.dropWhile (fun t => h.ign.contains t.kind))) cs ∧
      leavesOfList cs = (toks.dropWhile (fun t => h.ign.contains t.kind)).map kindLen := by
  obtain ⟨b, hs⟩ := judged_after h hh
  obtain ⟨hp, hi⟩ := plain_after h hh
  obtain ⟨o, errs', h1, _, h3⟩ := parse_sure hs (src := src) hl
  have e := h1 slack
  rw [hr] at e
  injection e with e; injection e with e _
  obtain ⟨cs, i, e1, e2, e3, e4, e5⟩ := h3 g e.symm
  have hn : toks[i]? = none := by
    cases ht : toks[i]? with
    | none => rfl
    | some t => exact absurd (e3 t ht) List.not_mem_nil
  have hv := e5 hp
  have hd := drop_lead (fun t => h.ign.contains t.kind) toks i
  unfold HandParser.lead at hv
  rw [hi, if_neg (by simp), hd, e4 hn, List.take_length] at hv
  exact ⟨cs, by rw [e1, e2, bytes_of hv], hv⟩

example : ∃ errs g, Hand.Css.parser.parse 0 (textSource " a}".toList) [⟨0, 0, 1⟩, ⟨9, 1, 2⟩, ⟨20, 2, 3⟩] = .ok (some g, errs) ∧
    leavesOf g = [(9, 1), (20, 1)] := by
  obtain ⟨g, errs, h⟩ := C82_always_a_tree_partial (h := Hand.Css.parser) (by simp [handTree]) (textSource " a}".toList)
    (toks := [⟨0, 0, 1⟩, ⟨9, 1, 2⟩, ⟨20, 2, 3⟩]) (by decide)
  obtain ⟨cs, rfl, h2⟩ := C83_after_blanks_partial (by simp [handAfter]) (by decide) (h 0)
  exact ⟨errs, _, h 0, h2⟩

/-- Ignored tokens a text begins with are lost: the root is shorter than the text. -/
theorem C83_blanks_lost {h : HandParser} (hh : h ∈ handAfter) {slack : Nat} {src : Source} {a : Tok} {toks : List Tok}
    (hl : tokBytes (a :: toks) < 2 ^ 32) (ha : a.kind ∈ h.ign) (h0 : a.start < a.stop) {g : Green} {errs : List PErr}
    (hr : h.parse slack src (a :: toks) = .ok (some g, errs)) : ∃ w cs, g = .node h.root w cs ∧ w < tokBytes (a :: toks) := by
  obtain ⟨cs, h1, _⟩ := C83_after_blanks_partial hh hl hr
  refine ⟨_, cs, h1, ?_⟩
  have hs : tokBytes ((a :: toks).dropWhile (fun t => h.ign.contains t.kind)) ≤ tokBytes toks := by
    rw [List.dropWhile_cons_of_pos (by simpa using ha)]
    have := Prs.sum_sublist (List.Sublist.map kindLen (List.dropWhile_sublist (l := toks) (fun t => h.ign.contains t.kind)))
    simpa [tokBytes, kindLen, Function.comp_def] using this
  have : tokBytes (a :: toks) = (a.stop - a.start) + tokBytes toks := by simp [tokBytes]
  omega

/-- The trees of these parsers hold all tokens from the first one that is not ignored up to the end or to a token for the end of the file.

Missing for C83: the ignored tokens before, and what is from that token on. -/
theorem C83_up_to_eof_partial {h : HandParser} {eof : Nat} (hh : (h, eof) ∈ handEof) {slack : Nat} {src : Source} {toks : List Tok}
    (hl : tokBytes toks < 2 ^ 32) {g : Green} {errs : List PErr} (hr : h.parse slack src toks = .ok (some g, errs)) :
    ∃ front back cs, toks = front ++ back ∧ (∀ t, back.head? = some t → t.kind = eof) ∧
      g = .node h.root (tokBytes (front.dropWhile (fun t => h.ign.contains t.kind))) cs ∧
      leavesOfList cs = (front.dropWhile (fun t => h.ign.contains t.kind)).map kindLen := by
  obtain ⟨b, hs⟩ := judged_eof (h, eof) hh
  obtain ⟨hp, hi⟩ := plain_eof (h, eof) hh
  obtain ⟨o, errs', h1, _, h3⟩ := parse_sure hs (src := src) hl
  have e := h1 slack
  rw [hr] at e
  injection e with e; injection e with e _
  obtain ⟨cs, i, e1, e2, e3, e4, e5⟩ := h3 g e.symm
  have hv := e5 hp
  have hd := drop_lead (fun t => h.ign.contains t.kind) toks i
  unfold HandParser.lead at hv
  simp only at hi
  rw [hi, if_neg (by simp), hd] at hv
  refine ⟨toks.take i, toks.drop i, cs, (List.take_append_drop i toks).symm, ?_, by rw [e1, e2, bytes_of hv], hv⟩
  intro t ht
  rw [List.head?_drop] at ht
  simpa using e3 t ht

/-- If that token is the last and has no bytes, as lexers make it, and the text does not begin with ignored tokens, nothing else is lost. -/
theorem C83_eof_last_partial {h : HandParser} {eof : Nat} (hh : (h, eof) ∈ handEof) {slack : Nat} {src : Source} {a : Tok} {toks : List Tok}
    {e : Tok} (hl : tokBytes (a :: toks ++ [e]) < 2 ^ 32) (he : e.stop = e.start) (ha : a.kind ∉ h.ign)
    (hn : ∀ t ∈ a :: toks, t.kind ≠ eof) {g : Green} {errs : List PErr}
    (hr : h.parse slack src (a :: toks ++ [e]) = .ok (some g, errs)) :
    ∃ cs, g = .node h.root (tokBytes (a :: toks)) cs ∧
      (leavesOfList cs = (a :: toks).map kindLen ∨ leavesOfList cs = (a :: toks ++ [e]).map kindLen) := by
  obtain ⟨front, back, cs, h1, h2, h3, h4⟩ := C83_up_to_eof_partial hh hl hr
  have hd : ∀ r, (a :: r).dropWhile (fun t => h.ign.contains t.kind) = a :: r := fun r =>
    List.dropWhile_cons_of_neg (by simpa using ha)
  rcases List.append_eq_append_iff.mp h1.symm with ⟨c, hc1, hc2⟩ | ⟨c, hc1, hc2⟩
  · cases c with
    | nil =>
      rw [List.append_nil] at hc1
      rw [← hc1, hd] at h3 h4
      exact ⟨cs, h3, .inl h4⟩
    | cons x c =>
      rw [hc2] at h2
      exact absurd (h2 x rfl) (hn x (by rw [hc1]; simp))
  · cases c with
    | nil =>
      rw [List.append_nil] at hc1
      rw [hc1, hd] at h3 h4
      exact ⟨cs, h3, .inl h4⟩
    | cons x c =>
      have hx : x = e ∧ c = [] := by
        cases c with
        | nil => exact ⟨(List.cons.inj hc2).1.symm, rfl⟩
        | cons y c => simp at hc2
      rw [hc1, hx.1, hx.2, List.cons_append, hd] at h3 h4
      refine ⟨cs, ?_, .inr h4⟩
      rw [h3]
      simp [tokBytes, he]

example : ∃ errs g, Hand.Bash.parser.parse 0 (textSource "a".toList) [⟨3, 0, 1⟩, ⟨17, 1, 1⟩] = .ok (some g, errs) ∧
    ∃ cs, g = .node Hand.Bash.parser.root 1 cs := by
  obtain ⟨g, errs, h⟩ := C82_always_a_tree_partial (h := Hand.Bash.parser) (by simp [handTree]) (textSource "a".toList)
    (toks := [⟨3, 0, 1⟩, ⟨17, 1, 1⟩]) (by decide)
  obtain ⟨cs, h1, _⟩ := C83_eof_last_partial (h := Hand.Bash.parser) (eof := 17) (a := ⟨3, 0, 1⟩) (toks := []) (e := ⟨17, 1, 1⟩) (by simp [handEof])
    (by decide) rfl (by decide) (by simp) (h 0)
  exact ⟨errs, g, h 0, cs, h1⟩

/-- Parsers that take tokens of a few kinds only, with these kinds. -/
def handLossy : List (HandParser × List Nat) :=
  [(Hand.Apl.parser, [Hand.Apl.tRightParen, Hand.Apl.tRightBrace]),
   (Hand.Handlebars.parser, [Hand.Handlebars.tClose, Hand.Handlebars.tCloseBlock, Hand.Handlebars.tCloseCommentBlock,
     Hand.Handlebars.tCloseRawBlock, Hand.Handlebars.tCloseUnescaped, Hand.Handlebars.tElse, Hand.Handlebars.tEqual, Hand.Handlebars.tIdentifier,
     Hand.Handlebars.tLeftParen, Hand.Handlebars.tOpen, Hand.Handlebars.tOpenBlock, Hand.Handlebars.tOpenComment, Hand.Handlebars.tOpenCommentBlock,
     Hand.Handlebars.tOpenEndRawBlock, Hand.Handlebars.tOpenInverseBlock, Hand.Handlebars.tOpenPartial, Hand.Handlebars.tOpenRawBlock,
     Hand.Handlebars.tOpenUnescaped, Hand.Handlebars.tRightParen]),
   (Hand.J.parser, [Hand.J.tIdentifier, Hand.J.tIsGlobal, Hand.J.tIsLocal, Hand.J.tLeftParen, Hand.J.tNumberLiteral, Hand.J.tRightParen,
     Hand.J.tStringLiteral]),
   (Hand.Tailwind.parser, [Hand.Tailwind.tDoubleLeftBrace, Hand.Tailwind.tDoubleRightBrace, Hand.Tailwind.tLeftBracePercent,
     Hand.Tailwind.tPercentRightBrace]),
   (Hand.Vhdl.parser, [Hand.Vhdl.tArchitectureKw, Hand.Vhdl.tBodyKw, Hand.Vhdl.tEntityKw, Hand.Vhdl.tIdentifier, Hand.Vhdl.tIsKw,
     Hand.Vhdl.tLibraryKw, Hand.Vhdl.tOfKw, Hand.Vhdl.tPackageKw, Hand.Vhdl.tSemicolon, Hand.Vhdl.tUseKw])]

/-- Trees of these parsers hold no token of another kind than these and the ignored ones, wherever it is in the text: the text between the
marks of a template, the numbers and names of APL, the operators of J, the `end` of VHDL. -/
theorem C83_kinds_lost {h : HandParser} {K : List Nat} (hh : (h, K) ∈ handLossy) {slack : Nat} {src : Source} {toks : List Tok} {g : Green}
    {errs : List PErr} (hr : h.parse slack src toks = .ok (some g, errs)) :
    (∀ x ∈ leavesOf g, x.1 ∈ K ∨ x.1 ∈ h.ign) ∧
    ((∃ t ∈ toks, t.kind ∉ K ∧ t.kind ∉ h.ign) → leavesOf g ≠ toks.map kindLen) := by
  have hk : ∀ x ∈ leavesOf g, x.1 ∈ K ∨ x.1 ∈ h.ign := by
    refine HandParser.parse_only ?_ hr
    have : handLossy.all (fun x => x.1.main.only x.2 && x.1.procs.all (Prog.only x.2)) = true := by decide +kernel
    exact List.all_eq_true.mp this _ hh
  refine ⟨hk, ?_⟩
  rintro ⟨t, ht, h1, h2⟩ he
  rcases hk (kindLen t) (by rw [he]; exact List.mem_map_of_mem ht) with h3 | h3
  · exact h1 h3
  · exact h2 h3

private theorem tree_of {h : HandParser} {src : Source} {toks : List Tok} {p : List (Nat × Nat) → Bool}
    (hp : (match h.parse 0 src toks with
      | .ok (some g, _) => p (leavesOf g)
      | _ => false) = true) (slack : Nat) : ∃ g errs, h.parse slack src toks = .ok (some g, errs) ∧ p (leavesOf g) = true := by
  split at hp
  · rename_i g e he
    exact ⟨g, e, HandParser.parse_mono (Nat.zero_le _) he, hp⟩
  · cases hp

example (slack : Nat) : ∃ g errs, Hand.Handlebars.parser.parse slack (textSource "hello".toList) [⟨33, 0, 5⟩] = .ok (some g, errs) ∧
    leavesOf g ≠ [(33, 5)] := by
  obtain ⟨g, errs, h, _⟩ := tree_of (h := Hand.Handlebars.parser) (src := textSource "hello".toList) (toks := [⟨33, 0, 5⟩])
    (p := fun l => l.isEmpty) (by decide +kernel) slack
  exact ⟨g, errs, h, (C83_kinds_lost (List.Mem.tail _ (List.Mem.head _)) h).2 ⟨_, List.mem_singleton.mpr rfl, by decide, by decide⟩⟩

/-- These parsers drop tokens too: `procedure` in Ada, the text in `<p>a` in HTML, an identifier at the top of LLVM IR. -/
theorem C83_dropped {h : HandParser} {ks : List Nat}
    (hk : (h, ks) ∈ [(Hand.Ada.parser, [Hand.Ada.tProcedure]), (Hand.Html.parser, [Hand.Html.tTagOpen, Hand.Html.tTagName, Hand.Html.tTagClose, 8]),
      (Hand.LlvmIr.parser, [1])]) (slack : Nat) :
    ∃ g errs, h.parse slack (textSource "abcd".toList) (ks.zipIdx.map (fun x => ⟨x.1, x.2, x.2 + 1⟩)) = .ok (some g, errs) ∧
      leavesOf g = (ks.take (ks.length - 1)).map (fun k => (k, 1)) := by
  have key : ∀ (p : HandParser) (js : List Nat), (match p.parse 0 (textSource "abcd".toList) (js.zipIdx.map (fun x => ⟨x.1, x.2, x.2 + 1⟩)) with
      | .ok (some g, _) => decide (leavesOf g = (js.take (js.length - 1)).map (fun k => (k, 1)))
      | _ => false) = true → ∃ g errs, p.parse slack (textSource "abcd".toList) (js.zipIdx.map (fun x => ⟨x.1, x.2, x.2 + 1⟩)) = .ok (some g, errs) ∧
      leavesOf g = (js.take (js.length - 1)).map (fun k => (k, 1)) := by
    intro p js hp
    obtain ⟨g, errs, h1, h2⟩ := tree_of (p := fun l => decide (l = (js.take (js.length - 1)).map (fun k => (k, 1)))) hp slack
    exact ⟨g, errs, h1, by simpa using h2⟩
  refine key h ks ?_
  revert h ks
  simp only [List.mem_cons, List.not_mem_nil, or_false, Prod.mk.injEq]
  rintro h ks (⟨rfl, rfl⟩ | ⟨rfl, rfl⟩ | ⟨rfl, rfl⟩) <;> decide +kernel

end Oaks.Props
