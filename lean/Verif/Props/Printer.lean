import Verif.Proofs.Printer

/-! # C34, C35, C36: the document printer -/

namespace Oaks.Props
open Oaks Oaks.Spec

/-! ## C34 -/

/-- Every configuration made by the builder has an indentation text of blanks. -/
theorem C34_blank_indent (c : FormatConfig) (s : IndentStyle) (w : Bool) :
    (∀ x ∈ (c.withIndentStyle s).indentText, isBlank x) ∧
    (∀ x ∈ (FormatConfig.default w).indentText, isBlank x) := by
  refine ⟨?_, ?_⟩
  · cases s with
    | spaces n => intro x hx; exact .inl (List.mem_replicate.1 hx).2
    | tabs => intro x hx; exact .inr (List.mem_singleton.1 hx)
  · intro x hx; exact .inl (List.mem_replicate.1 hx).2

/-- The characters of the output that are not blanks or line endings are those of the document's
texts, in order. For every document and every configuration whose indentation text is of blanks. -/
theorem C34_content (cfg : FormatConfig) (hi : ∀ c ∈ cfg.indentText, isBlank c) (d : Doc) :
    solid (printDoc cfg d) = solid (docText d) := by
  obtain ⟨ls, t, h1, h2, h3⟩ := print_spec cfg d
  have ht : solid t = solid (docText d) := by
    rw [linesText_solid hi h2, lays_solid h1]
    simp [solidLines, solid]
  unfold Finished at h3
  split at h3
  · rw [h3, solid_append, solid_ending, ht, List.append_nil]
  · rw [h3, ht]

theorem docText_concat_append (a b : List Doc) : docText (.concat (a ++ b)) = docText (.concat a) ++ docText (.concat b) := by
  induction a with
  | nil => simp [docText]
  | cons d a ih => simp [docText, ih]

theorem joinedText_eq (sep t : Str) (ts : List Str) : joinedText sep (t :: ts) = t ++ (ts.map (sep ++ ·)).flatten := by
  induction ts generalizing t with
  | nil => simp [joinedText]
  | cons u ts ih => rw [joinedText, ih]; simp

/-- Joining documents puts the separator between any two neighbours and nowhere else. -/
theorem C34_join (cfg : FormatConfig) (hi : ∀ c ∈ cfg.indentText, isBlank c) (docs : List Doc) (sep : Doc) :
    docText (docJoin docs sep) = joinedText (docText sep) (docs.map docText) ∧
    solid (printDoc cfg (docJoin docs sep)) = solid (joinedText (docText sep) (docs.map docText)) := by
  have loop : ∀ (ds : List Doc) (i : Nat) (r : List Doc), 0 < i →
      docText (.concat (docJoinLoop sep i ds r)) = docText (.concat r) ++ ((ds.map docText).map (docText sep ++ ·)).flatten := by
    intro ds
    induction ds with
    | nil => intro i r _; simp [docJoinLoop]
    | cons d ds ih =>
      intro i r h
      rw [docJoinLoop, ih _ _ (Nat.succ_pos _), if_pos h, docText_concat_append, docText_concat_append]
      simp [docText]
  have key : docText (docJoin docs sep) = joinedText (docText sep) (docs.map docText) := by
    unfold docJoin
    cases docs with
    | nil => simp [docJoinLoop, docText, joinedText]
    | cons d ds =>
      rw [docJoinLoop, loop _ _ _ (Nat.succ_pos _), List.map_cons, joinedText_eq]
      simp [docText]
  exact ⟨key, by rw [C34_content cfg hi, key]⟩

example : printDoc (.default false) (docJoin [.text "a".toList, .nil, .text "b".toList] (.text ",".toList)) =
    "a,,b\n".toList := by rfl

/-! ## C35 -/

/-- The output is the layout: the lines that `Lays` gives, and only those. -/
theorem C35_layout (cfg : FormatConfig) (d : Doc) :
    ∃ ls t, Lays cfg false 0 d [(0, [])] ls ∧ LinesText cfg ls t ∧ Finished cfg t (printDoc cfg d) ∧
      ∀ ls', Lays cfg false 0 d [(0, [])] ls' → ls' = ls := by
  obtain ⟨ls, t, h1, h2, h3⟩ := print_spec cfg d
  exact ⟨ls, t, h1, h2, h3, fun ls' h => (lays_unique h1 h).symm⟩

/-- A group without forced breaks whose flat text fits is printed as that flat text, nested groups
included, and the line stays within the maximum width. From every state of the printer. -/
theorem C35_flat (cfg : FormatConfig) (d : Doc) (b : Bool) (p : Printer) (f : Str) (hf : flatText d = some f)
    (hw : p.column + blen f ≤ cfg.maxWidth) :
    (render cfg (.group d) b p).output = p.output ++ f ∧
    (render cfg (.group d) b p).column = p.column + blen f ∧
    (render cfg (.group d) b p).indentLevel = p.indentLevel := by
  have : render cfg (.group d) b p = p.put f := render_flat cfg (.group d) p f (by simpa only [flatText] using hf) hw
  rw [this]
  exact ⟨rfl, rfl, rfl⟩

/-- The column is the width of the line under construction, so the test of `C35_flat` is about what
is printed: from the state of any lines, any document leads to the state of the lines laid out. -/
theorem C35_column (cfg : FormatConfig) (d : Doc) (b : Bool) (p : Printer) (k : Nat) (l : PLine) (ls : List PLine)
    (h : At cfg p k l ls) : ∃ l' ls', At cfg (render cfg d b p) k l' ls' ∧ Lays cfg b k d (l :: ls) (l' :: ls') :=
  render_spec cfg d b h

/-- With an indentation of spaces from the builder, or the default, the width that is compared with the
maximum is the number of bytes written on the line: whatever was printed, the column is the length of
what stands behind the last line ending printed. (A tab counts as four.) -/
theorem C35_true_width (c : FormatConfig) (n : Nat) (w : Bool) (cfg : FormatConfig)
    (hc : cfg = c.withIndentStyle (.spaces n) ∨ cfg = .default w) (d : Doc) :
    ∃ pre line ls l, (render cfg d false Printer.new).output = pre ++ line ∧ Before cfg ls pre ∧
      (render cfg d false Printer.new).column = blen line ∧
      Lays cfg false 0 d [(0, [])] (l :: ls) := by
  have hs : cfg.indentSize = blen cfg.indentText := by
    have : ∀ n : Nat, blen (List.replicate n ' ') = n := by
      intro n
      induction n with
      | zero => rfl
      | succ n ih => rw [List.replicate_succ, blen_cons, ih]; show 1 + n = n + 1; omega
    rcases hc with rfl | rfl
    · simp only [FormatConfig.withIndentStyle, this]
    · simp only [FormatConfig.default, this]
  have hf : ∀ k : Nat, blen (List.replicate k cfg.indentText).flatten = k * cfg.indentSize := by
    intro k
    induction k with
    | zero => simp
    | succ k ih => rw [List.replicate_succ, List.flatten_cons, blen_append, ih, hs, Nat.succ_mul, Nat.add_comm]
  have h0 : At cfg Printer.new 0 (0, []) [] :=
    ⟨rfl, by simp [Printer.new, lineWidth], [], .inl ⟨rfl, rfl⟩, by simp [Printer.new]⟩
  obtain ⟨l, ls, h, hl⟩ := render_spec cfg d false h0
  obtain ⟨pre, hp, ho⟩ := h.output
  exact ⟨pre, _, ls, l, ho, hp, by rw [h.column, blen_append, hf]; rfl, hl⟩

/-- A group that does not fit, or contains a forced break, is printed with each of its own breaks
(those outside groups inside it) as a line break. -/
theorem C35_breaks (cfg : FormatConfig) (d : Doc) (b : Bool) (p : Printer) (k : Nat) (l : PLine) (ls : List PLine)
    (h : At cfg p k l ls) (hn : ¬ Fits cfg l d) :
    ∃ l' ls', At cfg (render cfg (.group d) b p) k l' ls' ∧ Lays cfg true k d (l :: ls) (l' :: ls') ∧
      (l :: ls).length + ownBreaks d ≤ (l' :: ls').length := by
  obtain ⟨l', ls', h1, h2⟩ := render_spec cfg (.group d) b h
  cases h2 with
  | fits hf _ => exact absurd hf hn
  | breaks _ h2 => exact ⟨l', ls', h1, h2, lays_broken h2 rfl⟩

/-! ## C36 -/

/-- The lines of the output, as printed: each begins with exactly one indentation text per enclosing
indent of the break that began it (the first with none), is trimmed when trimming is on, and lines are
separated by the configured line ending. A new line begins empty inside `k` indents (`Lays`), so the
count of indents of a line is that of its break. -/
theorem C36_lines (cfg : FormatConfig) (d : Doc) :
    ∃ ls t, Lays cfg false 0 d [(0, [])] ls ∧ LinesText cfg ls t ∧ Finished cfg t (printDoc cfg d) :=
  print_spec cfg d

/-- With trimming, no line that the printer ends has blanks at its end: the text before every line
ending the printer writes, and at the end, does not end in a blank. -/
theorem C36_trimmed (cfg : FormatConfig) (ht : cfg.trimTrailing = true) {ls : List PLine} {l : PLine} {t : Str}
    (hi : LinesText cfg (l :: ls) t) : ∀ c, t.getLast? = some c → ¬ isBlank c := by
  have key : ∀ {t'}, LineText cfg l t' → ∀ c, t'.getLast? = some c → ¬ isBlank c := by
    intro t' h
    unfold LineText at h
    rw [if_pos ht] at h
    exact h.2
  cases hi with
  | one h => exact key h
  | more _ h _ =>
    intro c hc
    rw [List.getLast?_append] at hc
    rename_i s t' _ _
    cases hl : t'.getLast? with
    | some x => rw [hl] at hc; exact key h c (by simpa [hl] using hc)
    | none =>
      rw [hl] at hc
      obtain ⟨e, he, _⟩ := ending_last cfg
      rw [he] at hc
      simp at hc
      subst hc
      simp [isBlank]

/-- With the final newline, a non-empty output ends with a newline; and with the configured line
ending when that is `\n`, or when no text of the document contains a newline. Missing for the full
property: texts that end in a newline themselves under `\r\n`, where it is false
(`C36_text_newline`). -/
theorem C36_final_newline_partial (cfg : FormatConfig) (hf : cfg.insertFinalNewline = true) (d : Doc)
    (hne : printDoc cfg d ≠ []) :
    (printDoc cfg d).getLast? = some '\n' ∧
    (cfg.ending = ['\n'] ∨ (∀ c ∈ docText d, c ≠ '\n') ∧ (∀ c ∈ cfg.indentText, c ≠ '\n') →
      cfg.ending <:+ printDoc cfg d) := by
  obtain ⟨ls, t, h1, h2, h3⟩ := print_spec cfg d
  obtain ⟨e, he, _⟩ := ending_last cfg
  unfold Finished at h3
  split at h3
  · rw [h3]
    exact ⟨by rw [he]; simp, fun _ => List.suffix_append _ _⟩
  · next hc =>
    rw [h3] at hne ⊢
    have hl : t.getLast? = some '\n' := by
      cases hx : t.getLast? with
      | none => exact absurd (List.getLast?_eq_none_iff.1 hx) hne
      | some c =>
        by_cases hcn : c = '\n'
        · rw [hcn]
        · exact absurd ⟨hf, hne, by rw [hx]; simpa using hcn⟩ hc
    refine ⟨hl, ?_⟩
    rintro (hu | ⟨ht, hi⟩)
    · rw [hu]
      obtain ⟨ys, hy⟩ := List.getLast?_eq_some_iff.1 hl
      exact ⟨ys, hy.symm⟩
    · have hchars := lays_chars h1 (fun c => c ≠ '\n') (by decide) ht (by simp)
      cases h2 with
      | one h =>
        have hm : '\n' ∈ t := List.mem_of_getLast? hl
        rcases lineText_chars h hm with hm | hm
        · exact absurd rfl (hi _ hm)
        · exact absurd rfl (hchars _ (List.mem_cons_self ..) _ hm)
      | @more l ls s t' h2 h hn =>
        have : t' = [] := by
          cases hl' : t'.getLast? with
          | none => exact List.getLast?_eq_none_iff.1 hl'
          | some x =>
            rw [List.getLast?_append, hl'] at hl
            simp at hl
            subst hl
            rcases lineText_chars h (List.mem_of_getLast? hl') with hm | hm
            · exact absurd rfl (hi _ hm)
            · exact absurd rfl (hchars _ (List.mem_cons_self ..) _ hm)
        rw [this, List.append_nil]
        exact List.suffix_append _ _

/-- The configuration of the cases below. -/
def demoCfg : FormatConfig := ⟨[' ', ' '], .windows, 10, true, true, 2⟩

/-- Counterexample to the full property: a text ending in `\n` is left so under `\r\n`. -/
theorem C36_text_newline : printDoc demoCfg (.text "a\n".toList) = "a\n".toList ∧
    ¬ demoCfg.ending <:+ printDoc demoCfg (.text "a\n".toList) := by
  have : printDoc demoCfg (.text "a\n".toList) = "a\n".toList := by decide +kernel
  rw [this]
  exact ⟨rfl, by decide⟩

/-- The example in the documentation of `Document::render` (document/mod.rs:70-77) says a line break
between two texts outside groups prints as a newline. It prints as a space. -/
theorem C35_doc_example : printDoc (.default false) (.concat [.text "hello".toList, .line, .text "world".toList]) =
    "hello world\n".toList := by decide +kernel

/-- Non-trivial case: the outer group breaks, the inner one fits. -/
def demoDoc : Doc :=
  .group (.concat [.text "f(".toList, .indent (.concat [.softLine,
    .group (.concat [.text "a,".toList, .line, .text "bc,".toList]), .line, .text "def ".toList]), .softLine, .text ")".toList])

example : printDoc demoCfg demoDoc = "f(\r\n  a, bc,\r\n  def\r\n)\r\n".toList := by decide +kernel

end Oaks.Props
