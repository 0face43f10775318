import Verif.Proofs.DiagnosticHtml
import Verif.Props.Source

/-! # C46, C39: diagnostics -/

namespace Oaks.Props
open Oaks Oaks.Spec

/-- The offset an error carries. -/
def errOffset : ErrKind → Option Nat
  | .syntaxError o | .unexpectedCharacter o | .unexpectedToken o | .expectedToken o | .expectedName o
  | .trailingComma o | .unexpectedEof o => some o
  | .other => none

/-- The label of an error lies within the source; when the error is inside the source, the label is the
byte at its offset, otherwise it is empty and at the end. -/
theorem C46_label (src : Source) (e : ErrKind) (l : DLabel) (h : l ∈ errorLabels src e) :
    l.start ≤ l.stop ∧ l.stop ≤ src.length ∧
    ∃ o, errOffset e = some o ∧ (o < src.length → l.start = o ∧ l.stop = o + 1) ∧
      (src.length ≤ o → l.start = src.length ∧ l.stop = src.length) := by
  have key : ∀ o, l = errorLabel src o → l.start ≤ l.stop ∧ l.stop ≤ src.length ∧
      (o < src.length → l.start = o ∧ l.stop = o + 1) ∧ (src.length ≤ o → l.start = src.length ∧ l.stop = src.length) := by
    rintro o rfl
    simp only [errorLabel]
    omega
  cases e with
  | unexpectedEof o => simp [errorLabels] at h
  | other => simp [errorLabels] at h
  | syntaxError o | unexpectedCharacter o | unexpectedToken o | expectedToken o | expectedName o | trailingComma o =>
    simp only [errorLabels, List.mem_singleton] at h
    obtain ⟨h1, h2, h3⟩ := key o h
    exact ⟨h1, h2, o, rfl, h3⟩

/-- Counterexample to the full property: an unexpected end of file has an offset but gets no label, so
the report names no place at all. -/
theorem C46_eof_without_place :
    renderPlain false (strSource (lit "(1")) ⟨none, lit "eof", .error, errorLabels (strSource (lit "(1")) (.unexpectedEof 2), none⟩ none =
      .ok (lit "[error] eof\n") := by decide +kernel

/-- The sources for strings answer every range. -/
theorem C46_total (s : Str) : TextTotal (strSource s) ∧ TextTotal (textSource s) :=
  ⟨fun _ _ => ⟨_, rfl⟩, fun _ _ => ⟨_, rfl⟩⟩

/-- The plain report of a diagnostic has, for every label within a line, the line and character column
of its start, the source line without its line break, and as many carets as the label has characters
(at least one), right under them; for labels over several lines, the place and the source lines.
Missing for the full property: an error at an unexpected end of file gets no label
(`C46_eof_without_place`), labels that end behind the last line break (`C46_end_of_file`), and the carets
of labels over several lines, which are misplaced (`C46_long_carets`). -/
theorem C46_plain_partial {src : Source} {t : Str} (h : Lawful src t) (htot : TextTotal src) (hbig : blen t < 2 ^ 32)
    (unicode : Bool) (d : Diag) (uri : Option Str) (snippets : List Str)
    (hs : List.Forall₂ (fun l s => SnippetOf unicode uri t l s ∨ LongSnippetOf unicode uri t l s) d.labels snippets) :
    renderPlain unicode src d uri = .ok (plainReport d snippets) := by
  have hm : d.labels.mapM (fun l => plainSnippet unicode src ⟨0 :: nls 0 t, blen t⟩ t (rustLines t) l uri) = .ok snippets := by
    refine mapM_forall₂ ?_
    generalize d.labels = ls at hs
    induction hs with
    | nil => exact .nil
    | cons h1 _ ih =>
      refine .cons ?_ ih
      rcases h1 with h1 | h1
      · exact plainSnippet_single h htot hbig unicode uri h1
      · exact plainSnippet_long h hbig unicode uri h1
  unfold renderPlain
  rw [fromSource_spec h, run_bind_ok, lawful_full h, run_bind_ok]
  simp only [hm, run_bind_ok, run_pure, plainReport]
  cases d.code with
  | some c => cases d.help <;> simp [lit]
  | none => cases d.severity <;> cases d.help <;> simp [lit, sevName]

/-- For an error on a character, whatever its width, that is: line, column, and one caret under it. -/
theorem C46_error_report {src : Source} {t : Str} (h : Lawful src t) (htot : TextTotal src) (hbig : blen t < 2 ^ 32)
    (unicode : Bool) (code : Option Str) (message : Str) (sev : Severity) (help : Option Str) (uri : Option Str)
    {k : Nat} {a before ln r text : Str} {c : Char}
    (e : ErrKind) (he : errOffset e = some (blen (a ++ before))) (hk : ∀ o, e ≠ .unexpectedEof o) (hl : IsLine t k a ln r) (hb : before ++ [c] <+: ln) (hn : '\n' ∉ before ++ [c])
    (hc : ChompedTo ln text) :
    renderPlain unicode src ⟨code, message, sev, errorLabels src e, help⟩ uri =
      .ok (plainReport ⟨code, message, sev, errorLabels src e, help⟩
        [singleSnippet (barOf unicode) (topOf unicode) (fileName uri) (k + 1) (before.length + 1) text 1 (some "here".toList)]) := by
  have hlab : errorLabels src e = [errorLabel src (blen (a ++ before))] := by
    cases e with
    | unexpectedEof o => exact absurd rfl (hk o)
    | other => cases he
    | syntaxError o | unexpectedCharacter o | unexpectedToken o | expectedToken o | expectedName o | trailingComma o =>
      cases he; rfl
  apply C46_plain_partial h htot hbig
  simp only [hlab]
  refine .cons (.inl ⟨k, before, [c], ln, text, ?_, ?_, hc, rfl⟩) .nil
  · refine ⟨a, r, hl, hb, hn, ?_⟩
    obtain ⟨s, hs⟩ := hb
    have hlen : blen t = blen (a ++ before) + c.utf8Size + blen s + blen r := by
      rw [hl.text, ← hs]; simp; omega
    have hpos := Char.utf8Size_pos c
    have hsz : blen (a ++ before ++ [c]) = blen (a ++ before) + c.utf8Size := by simp; omega
    have hst : (errorLabel src (blen (a ++ before))).start = blen (a ++ before) := by
      simp only [errorLabel, h.length_eq]; omega
    have hsp : (errorLabel src (blen (a ++ before))).stop = blen (a ++ before) + 1 := by
      simp only [errorLabel, h.length_eq]; omega
    refine ⟨by rw [hst]; omega, ?_⟩
    rw [hsp]
    by_cases h1 : c.utf8Size = 1
    · left; rw [hsz]; omega
    · right; exact ⟨c, rfl, by omega, by omega⟩
  · rintro rfl
    have := hb.length_le
    simp at this

/-- The console report without its colours is the plain report, for labels within a line and texts
without escape characters. Missing: as for `C46_plain_partial`. -/
theorem C46_console_partial {src : Source} {t : Str} (h : Lawful src t) (htot : TextTotal src) (hbig : blen t < 2 ^ 32)
    (unicode : Bool) (d : Diag) (uri : Option Str) (snippets : List Str)
    (hs : List.Forall₂ (SnippetOf unicode uri t) d.labels snippets)
    (ht : '\x1b' ∉ t) (hu : ∀ u, uri = some u → '\x1b' ∉ u) (hm : '\x1b' ∉ d.message)
    (hcode : ∀ c, d.code = some c → '\x1b' ∉ c) (hhelp : ∀ c, d.help = some c → '\x1b' ∉ c)
    (hl : ∀ l ∈ d.labels, (∀ m, l.message = some m → '\x1b' ∉ m) ∧ ∀ c, l.color = some c → AnsiColor c) :
    ∃ out, renderConsole unicode src d uri = .ok out ∧ stripAnsi .text out = plainReport d snippets := by
  have hx : ∃ outs, d.labels.mapM (fun l => consoleSnippet unicode src ⟨0 :: nls 0 t, blen t⟩ t (rustLines t) l uri) = .ok outs ∧
      List.Forall₂ Strips outs snippets := by
    clear hm hcode hhelp
    generalize d.labels = ls at hs hl
    induction hs with
    | nil => exact ⟨[], rfl, .nil⟩
    | @cons l s ls ss h1 h2 ih =>
      obtain ⟨outs, ho, hf⟩ := ih fun x hx => hl x (List.mem_cons_of_mem _ hx)
      obtain ⟨hlm, hlc⟩ := hl l (List.mem_cons_self ..)
      obtain ⟨out, ho1, hs1⟩ := consoleSnippet_single h htot hbig unicode uri h1 ht hu hlm hlc
      exact ⟨out :: outs, by rw [List.mapM_cons, ho1, run_bind_ok, ho, run_bind_ok]; rfl, .cons hs1 hf⟩
  obtain ⟨outs, ho, hf⟩ := hx
  unfold renderConsole
  rw [fromSource_spec h, run_bind_ok, lawful_full h, run_bind_ok]
  simp only [ho, run_bind_ok, run_pure]
  refine ⟨_, rfl, ?_⟩
  apply Strips.run
  have hsev : Strips (sevColor d.severity) [] := by
    cases d.severity
    · exact strips_color ⟨['3', '1', ';', '1'], rfl, by decide⟩
    · exact strips_color ⟨['3', '3', ';', '1'], rfl, by decide⟩
    · exact strips_color ⟨['3', '6', ';', '1'], rfl, by decide⟩
  have hname : Strips (d.code.getD (sevName d.severity)) (d.code.getD (sevName d.severity)) := by
    cases hc : d.code with
    | none => exact strips_plain (by cases d.severity <;> decide)
    | some c => exact strips_plain (hcode c hc)
  have hmid : Strips (lit "]\x1b[0m ") "] ".toList := fun r => rfl
  have hnl : Strips (lit "\n") (lit "\n") := strips_plain (by decide)
  have hh : Strips (match d.help with | some h => lit "\n\x1b[36;1mhelp\x1b[0m: " ++ h ++ lit "\n" | none => [])
      (match d.help with | some h => "\nhelp: ".toList ++ h ++ "\n".toList | none => []) := by
    cases hc : d.help with
    | none => exact strips_nil
    | some x =>
      have a : Strips (lit "\n\x1b[36;1mhelp\x1b[0m: ") "\nhelp: ".toList := fun r => rfl
      exact (a.append (strips_plain (hhelp x hc))).append hnl
  have := ((((((hsev.append (strips_plain (s := lit "[") (by decide))).append hname).append hmid).append (strips_plain hm)).append hnl).append
    (strips_flatten hf)).append hh
  refine cast (congrArg _ ?_) this
  unfold plainReport
  cases d.code with
  | some c => cases d.help <;> simp [lit]
  | none => cases d.severity <;> cases d.help <;> simp [lit, sevName]

/-- The HTML report shows the same places, lines and carets. Missing: as for `C46_plain_partial`, and
labels over several lines. -/
theorem C46_html_partial {src : Source} {t : Str} (h : Lawful src t) (htot : TextTotal src) (hbig : blen t < 2 ^ 32)
    (d : Diag) (uri : Option Str) (snippets : List Str) (hs : List.Forall₂ (PageSnippetOf uri t) d.labels snippets)
    (hcode : ∀ c, d.code = some c → ∀ x ∈ c, x ≠ '<' ∧ x ≠ '>' ∧ x ≠ '&') :
    ∃ out, renderHtml src d uri = .ok out ∧ pageText (readHtml .text out) = pageReport d snippets := by
  have hx : ∃ outs, d.labels.mapM (fun l => htmlSnippet src ⟨0 :: nls 0 t, blen t⟩ t (rustLines t) l uri) = .ok outs ∧
      List.Forall₂ HShows outs snippets := by
    clear hcode
    generalize d.labels = ls at hs
    induction hs with
    | nil => exact ⟨[], rfl, .nil⟩
    | @cons l s ls ss h1 h2 ih =>
      obtain ⟨outs, ho, hf⟩ := ih
      obtain ⟨out, ho1, hs1⟩ := htmlSnippet_single h htot hbig uri h1
      exact ⟨out :: outs, by rw [List.mapM_cons, ho1, run_bind_ok, ho, run_bind_ok]; rfl, .cons hs1 hf⟩
  obtain ⟨outs, ho, hf⟩ := hx
  unfold renderHtml
  rw [fromSource_spec h, run_bind_ok, lawful_full h, run_bind_ok]
  simp only [ho, run_bind_ok, run_pure]
  exact ⟨_, rfl, (html_page d hcode hf).run.2⟩

/-- The page of a diagnostic, whatever its source, message, labels, help and file name contain, is read
as template tags and text only, when its code has no special characters. Missing for the full property:
the code is not escaped (`C39_code_injection`). -/
theorem C39_diagnostic_page_partial (src : Source) (d : Diag) (uri : Option Str) (out : Str)
    (h : renderHtml src d uri = .ok out)
    (hcode : ∀ c, d.code = some c → ∀ x ∈ c, x ≠ '<' ∧ x ≠ '>' ∧ x ≠ '&') :
    OnlyTemplate (readHtml .text out) ∧ ∃ vs, vs.length = d.labels.length ∧ pageText (readHtml .text out) = pageReport d vs := by
  unfold renderHtml at h
  cases hm : LineMap.fromSource src src.length with
  | error e => rw [hm] at h; cases h
  | ok m =>
    rw [hm, run_bind_ok] at h
    cases ht : src.textIn 0 src.length with
    | error e => rw [ht] at h; cases h
    | ok full =>
      rw [ht, run_bind_ok] at h
      simp only [] at h
      cases hs : d.labels.mapM (fun l => htmlSnippet src m full (rustLines full) l uri) with
      | error e => rw [hs] at h; cases h
      | ok snips =>
        rw [hs, run_bind_ok] at h
        simp only [run_pure, Except.ok.injEq] at h
        subst h
        have hf : ∃ vs, vs.length = d.labels.length ∧ List.Forall₂ HShows snips vs := by
          clear hcode
          generalize d.labels = ls at hs
          induction ls generalizing snips with
          | nil => rw [List.mapM_nil] at hs; cases hs; exact ⟨[], rfl, .nil⟩
          | cons l ls ih =>
            rw [List.mapM_cons] at hs
            cases h1 : htmlSnippet src m full (rustLines full) l uri with
            | error e => rw [h1] at hs; cases hs
            | ok o =>
              rw [h1, run_bind_ok] at hs
              cases h2 : ls.mapM (fun l => htmlSnippet src m full (rustLines full) l uri) with
              | error e => rw [h2] at hs; cases hs
              | ok os =>
                rw [h2, run_bind_ok] at hs
                cases hs
                obtain ⟨vs, hv, hf⟩ := ih os h2
                obtain ⟨v, hv'⟩ := html_snippet h1
                exact ⟨v :: vs, by simp [hv], .cons hv' hf⟩
        obtain ⟨vs, hv, hf⟩ := hf
        have := (html_page d hcode hf).run
        exact ⟨this.1, vs, hv, this.2⟩

/-- Counterexample to the full property: the code of a diagnostic is put on the page as it is. -/
theorem C39_code_injection :
    ∃ out, renderHtml (strSource []) ⟨some (lit "<script>"), [], .error, [], none⟩ none = .ok out ∧
      HTok.tag (lit "script") ∈ readHtml .text out := by
  refine ⟨_, rfl, ?_⟩
  decide +kernel

/-- The numbers of the protocol for severities: error 1, warning 2, information 3. -/
def lspSeverity (s : Severity) : Nat :=
  if s = .error then 1 else if s = .warning then 2 else 3

/-- The LSP value has the zero-based line and UTF-16 column of the ends of the first label, and likewise
for every label with a message. Missing: labels that end inside a character (`C46_lsp_inverted`). -/
theorem C46_lsp_partial {src : Source} {t : Str} (h : Lawful src t) (hbig : blen t < 2 ^ 32) (d : Diag) (uri : Option Str)
    (pos : DLabel → (Nat × Nat) × (Nat × Nat))
    (hpos : ∀ l ∈ d.labels, ∃ k before k' before', PosAt t l.start k before ∧ PosAt t l.stop k' before' ∧
      pos l = ((k, utf16Count before), (k', utf16Count before'))) :
    ∃ out, renderLsp src d uri = .ok out ∧
      out.range = (match d.labels with | l :: _ => pos l | [] => ((0, 0), (0, 0))) ∧
      out.message = d.message ∧ out.severity = lspSeverity d.severity ∧ (∀ c, d.code = some c → out.code = c) ∧
      out.related = d.labels.filterMap fun l => l.message.map fun msg => (uri.getD [], pos l, msg) := by
  have hr : ∀ l ∈ d.labels, lspRange src ⟨0 :: nls 0 t, blen t⟩ l = .ok (pos l) := by
    intro l hl
    obtain ⟨k, b, k', b', h1, h2, h3⟩ := hpos l hl
    unfold lspRange
    rw [posAt_offset h hbig h1, run_bind_ok, posAt_offset h hbig h2, run_bind_ok, h3]; rfl
  have hrel : ∀ ls : List DLabel, (∀ l ∈ ls, lspRange src ⟨0 :: nls 0 t, blen t⟩ l = .ok (pos l)) →
      lspRelated src ⟨0 :: nls 0 t, blen t⟩ uri ls =
        .ok (ls.filterMap fun l => l.message.map fun msg => (uri.getD [], pos l, msg)) := by
    intro ls
    induction ls with
    | nil => intro _; rfl
    | cons l ls ih =>
      intro hls
      have ih := ih fun x hx => hls x (List.mem_cons_of_mem _ hx)
      unfold lspRelated
      cases hm : l.message with
      | none => simp [ih, hm]
      | some msg => simp only [hls l (List.mem_cons_self ..), run_bind_ok, ih, run_pure]; simp [hm]
  unfold renderLsp
  rw [fromSource_spec h, run_bind_ok]
  cases hd : d.labels with
  | nil => exact ⟨_, rfl, rfl, rfl, by cases d.severity <;> rfl, fun c hc => by simp [hc], rfl⟩
  | cons l ls =>
    have h1 := hrel d.labels hr
    rw [hd] at h1 hr
    simp only [hr l (List.mem_cons_self ..), run_bind_ok, h1, run_pure]
    exact ⟨_, rfl, rfl, rfl, by cases d.severity <;> rfl, fun c hc => by simp [hc], rfl⟩

/-! ## What goes wrong -/

/-- Counterexample to the full property: for an error at the end of a text that ends with a line break
(the most usual place for a missing token) neither a line nor a caret nor the message is shown. -/
theorem C46_end_of_file :
    renderPlain false (strSource (lit "a\n")) ⟨none, lit "m", .error, errorLabels (strSource (lit "a\n")) (.expectedToken 2), none⟩ none =
      .ok (lit "[error] m\n  / at <anonymous>:2:1\n  |\n  |\n") := by decide +kernel

/-- Counterexample to the full property: for a label over the lines of `ab\nc` in `ab\ncd` the caret is
drawn under `d`, which is not in the label. -/
theorem C46_long_carets :
    renderPlain false (strSource (lit "ab\ncd")) ⟨none, lit "m", .error, [⟨none, 0, 4, none⟩], none⟩ none =
      .ok (lit "[error] m\n  / at <anonymous>:1:1\n  |\n1 | /ab\n2 | |cd\n  | |_^\n  |\n") := by decide +kernel

/-- Counterexample to the full property: for an error on a character of two bytes the LSP range ends
before it begins. -/
theorem C46_lsp_inverted :
    ∃ out, renderLsp (strSource (lit "abé")) ⟨none, lit "m", .error,
        errorLabels (strSource (lit "abé")) (.unexpectedCharacter 2), none⟩ none = .ok out ∧
      out.range = ((0, 2), (0, 0)) := by
  refine ⟨_, rfl, ?_⟩
  decide +kernel

/-- Non-trivial cases. -/
example : renderPlain true (strSource (lit "x\r\nabéd\n")) ⟨some (lit "E1"), lit "m", .error,
      errorLabels (strSource (lit "x\r\nabéd\n")) (.unexpectedCharacter 5), some (lit "try")⟩ (some (lit "f.rs")) =
    .ok (lit "[E1] m\n  ┌ at f.rs:2:3\n  │\n2 │ abéd\n  │   ^ here\n  │\n\nhelp: try\n") := by decide +kernel

example : LabelOn (lit "x\r\nabéd\n") ⟨none, 5, 6, none⟩ 1 (lit "ab") (lit "é") (lit "abéd\n") :=
  ⟨lit "x\r\n", [], ⟨by decide, .inr ⟨lit "x\r", by decide⟩, by decide, .inr ⟨lit "abéd", by decide, by decide⟩⟩,
    ⟨lit "d\n", by decide⟩, by decide, by decide, .inr ⟨'é', by decide, by decide, by decide⟩⟩

end Oaks.Props
