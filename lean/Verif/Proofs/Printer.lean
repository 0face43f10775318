import Verif.Spec.Printer

/-! The printer refines its specification in lines. -/

namespace Oaks
open Spec

/-! ### widths -/

/-- `r` is the answer of `check_width` from width `w` for a document with flat text `f`. -/
def WidthAnswer (maxWidth w : Nat) (f : Option Str) (r : Bool × Nat) : Prop :=
  match f with
  | some f => if w + blen f ≤ maxWidth then r = (false, w + blen f) else r.1 = true
  | none => r.1 = true

theorem widthAnswer_over {m w : Nat} (f : Option Str) {r : Bool × Nat} (h : w > m) (hr : r.1 = true) :
    WidthAnswer m w f r := by
  cases f with
  | none => exact hr
  | some f => simp only [WidthAnswer]; rw [if_neg (by omega)]; exact hr

mutual
theorem checkWidth_spec (m : Nat) (d : Doc) (w : Nat) : WidthAnswer m w (flatText d) (checkWidth m d w) := by
  by_cases hw : w > m
  · apply widthAnswer_over _ hw
    cases d <;> simp [checkWidth, hw]
  · cases d with
    | nil => simp only [checkWidth, if_neg hw, flatText, WidthAnswer]; simp; omega
    | text s =>
      simp only [checkWidth, if_neg hw, flatText, WidthAnswer]
      split <;> simp <;> omega
    | concat ds =>
      simp only [checkWidth, if_neg hw]
      exact checkWidthAll_spec m ds w (by omega)
    | group d =>
      simp only [checkWidth, if_neg hw, flatText]
      exact checkWidth_spec m d w
    | indent d =>
      simp only [checkWidth, if_neg hw, flatText]
      exact checkWidth_spec m d w
    | line =>
      simp only [checkWidth, if_neg hw, flatText, WidthAnswer, show blen [' '] = 1 from rfl]
      split <;> simp <;> omega
    | softLine => simp only [checkWidth, if_neg hw, flatText, WidthAnswer]; simp; omega
    | softLineSpace =>
      simp only [checkWidth, if_neg hw, flatText, WidthAnswer, show blen [' '] = 1 from rfl]
      split <;> simp <;> omega
    | hardLine => simp only [checkWidth, if_neg hw, flatText, WidthAnswer]
theorem checkWidthAll_spec (m : Nat) (ds : List Doc) (w : Nat) (hw : w ≤ m) :
    WidthAnswer m w (flatText (.concat ds)) (checkWidthAll m ds w) := by
  cases ds with
  | nil => simp only [checkWidthAll, flatText, WidthAnswer]; simp; omega
  | cons d ds =>
    have h1 := checkWidth_spec m d w
    simp only [checkWidthAll, flatText]
    cases hf : flatText d with
    | none =>
      rw [hf] at h1
      simp only [WidthAnswer] at h1 ⊢
      rcases hc : checkWidth m d w with ⟨b, w'⟩
      rw [hc] at h1; simp only at h1; subst h1; rfl
    | some f =>
      rw [hf] at h1
      simp only [WidthAnswer] at h1
      by_cases hle : w + blen f ≤ m
      · rw [if_pos hle] at h1
        rw [h1]
        simp only []
        have h2 := checkWidthAll_spec m ds (w + blen f) hle
        cases hg : flatText (.concat ds) with
        | none => rw [hg] at h2; exact h2
        | some g =>
          rw [hg] at h2
          simp only [WidthAnswer] at h2 ⊢
          rw [blen_append, ← Nat.add_assoc]
          exact h2
      · rw [if_neg hle] at h1
        rcases hc : checkWidth m d w with ⟨b, w'⟩
        rw [hc] at h1; simp only at h1; subst h1
        cases hg : flatText (.concat ds) with
        | none => rfl
        | some g =>
          simp only [WidthAnswer]
          rw [if_neg (by rw [blen_append]; omega)]
          trivial
end

theorem willBreak_iff {cfg : FormatConfig} {p : Printer} {l : PLine} (h : p.column = lineWidth cfg l)
    (d : Doc) : p.willBreak cfg d = false ↔ Fits cfg l d := by
  have := checkWidth_spec cfg.maxWidth d p.column
  unfold Printer.willBreak Fits
  cases hf : flatText d with
  | none => rw [hf] at this; simp only [WidthAnswer] at this; simp [this]
  | some f =>
    rw [hf] at this
    simp only [WidthAnswer] at this
    rw [← h]
    split at this
    · next hle => rw [this]; simp; omega
    · next hle => rw [this]; simp; omega

/-! ### lines -/

theorem ending_last (cfg : FormatConfig) : ∃ e, cfg.ending = e ++ ['\n'] ∧ (e = [] ∨ e = ['\r']) := by
  unfold FormatConfig.ending
  split
  · exact ⟨[], rfl, .inl rfl⟩
  · exact ⟨['\r'], rfl, .inr rfl⟩
  · exact ⟨['\r'], rfl, .inr rfl⟩
  · exact ⟨[], rfl, .inl rfl⟩

theorem trimEnd_spec (s : Str) : Trimmed s (trimEnd s) := by
  have h := List.takeWhile_append_dropWhile (p := fun c => decide (c = ' ') || decide (c = '\t')) (l := s.reverse)
  refine ⟨⟨(s.reverse.takeWhile fun c => decide (c = ' ') || decide (c = '\t')).reverse, ?_, ?_⟩, ?_⟩
  · unfold trimEnd
    rw [← List.reverse_append, h, List.reverse_reverse]
  · intro c hc
    rw [List.mem_reverse] at hc
    have : ∀ (l : List Char), c ∈ l.takeWhile (fun c => decide (c = ' ') || decide (c = '\t')) → isBlank c := by
      intro l
      induction l with
      | nil => simp
      | cons x l ih =>
        rw [List.takeWhile_cons]
        split
        · next hx =>
          intro hm
          rcases List.mem_cons.1 hm with rfl | hm
          · simpa [isBlank] using hx
          · exact ih hm
        · simp
    exact this _ hc
  · intro c hc
    unfold trimEnd at hc
    rw [List.getLast?_reverse] at hc
    have : ∀ (l : List Char), (l.dropWhile (fun c => decide (c = ' ') || decide (c = '\t'))).head? = some c → ¬ isBlank c := by
      intro l
      induction l with
      | nil => simp
      | cons x l ih =>
        rw [List.dropWhile_cons]
        split
        · exact ih
        · next hx => intro hm; simp at hm; subst hm; simpa [isBlank] using hx
    exact this _ hc

theorem trimEnd_append (a b : Str) (ha : a = [] ∨ ∃ a', a = a' ++ ['\n']) : trimEnd (a ++ b) = a ++ trimEnd b := by
  rcases ha with rfl | ⟨a', rfl⟩
  · simp
  · unfold trimEnd
    rw [List.reverse_append, List.dropWhile_append]
    split
    · next h =>
      have h' : b.reverse.dropWhile (fun c => decide (c = ' ') || decide (c = '\t')) = [] := by
        simpa using h
      rw [h']
      simp
    · simp

theorem Spec.At.put {cfg : FormatConfig} {p : Printer} {k : Nat} {l : PLine} {ls : List PLine}
    (h : At cfg p k l ls) (s : Str) : At cfg (p.put s) k (l.1, l.2 ++ s) ls := by
  obtain ⟨pre, h1, h2⟩ := h.output
  refine ⟨h.level, ?_, pre, h1, ?_⟩
  · simp only [Printer.put, h.column, lineWidth, blen_append]; omega
  · simp only [Printer.put, h2]; simp

theorem Spec.Before.linesText {cfg : FormatConfig} {ls : List PLine} {pre : Str} {l : PLine} {t : Str}
    (h : Before cfg ls pre) (ht : LineText cfg l t) : LinesText cfg (l :: ls) (pre ++ t) := by
  rcases h with ⟨rfl, rfl⟩ | ⟨h1, s, h2, rfl⟩
  · exact .one ht
  · exact .more h2 ht h1

theorem Spec.Before.last {cfg : FormatConfig} {ls : List PLine} {pre : Str} (h : Before cfg ls pre) :
    pre = [] ∨ ∃ a', pre = a' ++ ['\n'] := by
  rcases h with ⟨_, rfl⟩ | ⟨_, s, _, rfl⟩
  · exact .inl rfl
  · obtain ⟨e, he, _⟩ := ending_last cfg
    exact .inr ⟨s ++ e, by rw [he]; simp⟩

theorem Spec.At.newline {cfg : FormatConfig} {p : Printer} {k : Nat} {l : PLine} {ls : List PLine}
    (h : At cfg p k l ls) : At cfg (p.newline cfg) k (k, []) (l :: ls) := by
  obtain ⟨pre, h1, h2⟩ := h.output
  have key : ∃ t, LineText cfg l t ∧ (p.newline cfg).output =
      pre ++ t ++ cfg.ending ++ (List.replicate k cfg.indentText).flatten := by
    unfold Printer.newline LineText
    cases cfg.trimTrailing with
    | true =>
      refine ⟨_, trimEnd_spec _, ?_⟩
      simp only [if_true, Printer.writeIndent, h2, h.level]
      rw [trimEnd_append _ _ h1.last]
    | false =>
      refine ⟨_, rfl, ?_⟩
      simp only [Bool.false_eq_true, if_false, Printer.writeIndent, h2, h.level]
  obtain ⟨t, ht, ho⟩ := key
  refine ⟨?_, ?_, pre ++ t ++ cfg.ending, .inr ⟨by simp, pre ++ t, h1.linesText ht, rfl⟩, ?_⟩
  · unfold Printer.newline; cases cfg.trimTrailing <;> exact h.level
  · have : (p.newline cfg).column = p.indentLevel * cfg.indentSize := by
      unfold Printer.newline; cases cfg.trimTrailing <;> rfl
    rw [this, h.level]; simp [lineWidth]
  · rw [ho]; simp

theorem Spec.At.up {cfg : FormatConfig} {p : Printer} {k : Nat} {l : PLine} {ls : List PLine}
    (h : At cfg p k l ls) : At cfg { p with indentLevel := p.indentLevel + 1 } (k + 1) l ls :=
  ⟨by simp [h.level], h.column, h.output⟩

theorem Spec.At.down {cfg : FormatConfig} {p : Printer} {k : Nat} {l : PLine} {ls : List PLine}
    (h : At cfg p (k + 1) l ls) : At cfg { p with indentLevel := p.indentLevel - 1 } k l ls :=
  ⟨by simp [h.level], h.column, h.output⟩

mutual
theorem render_spec (cfg : FormatConfig) (d : Doc) (b : Bool) {p : Printer} {k : Nat} {l : PLine}
    {ls : List PLine} (h : At cfg p k l ls) :
    ∃ l' ls', At cfg (render cfg d b p) k l' ls' ∧ Lays cfg b k d (l :: ls) (l' :: ls') := by
  cases d with
  | nil => exact ⟨l, ls, h, .nil⟩
  | text s => exact ⟨_, ls, h.put s, .text⟩
  | concat ds =>
    obtain ⟨l', ls', g1, g2⟩ := renderAll_spec cfg ds b h
    exact ⟨l', ls', by simpa only [render] using g1, g2⟩
  | group d =>
    cases hb : p.willBreak cfg d with
    | false =>
      obtain ⟨l', ls', g1, g2⟩ := render_spec cfg d false h
      exact ⟨l', ls', by simpa only [render, hb] using g1, .fits ((willBreak_iff h.column d).1 hb) g2⟩
    | true =>
      obtain ⟨l', ls', g1, g2⟩ := render_spec cfg d true h
      refine ⟨l', ls', by simpa only [render, hb] using g1, .breaks (fun hf => ?_) g2⟩
      rw [(willBreak_iff h.column d).2 hf] at hb; cases hb
  | indent d =>
    obtain ⟨l', ls', g1, g2⟩ := render_spec cfg d b h.up
    exact ⟨l', ls', by simpa only [render] using g1.down, .indent g2⟩
  | line =>
    cases b with
    | true => exact ⟨_, _, by simpa [render] using h.newline, .lineBroken⟩
    | false => exact ⟨_, _, by simpa [render] using h.put [' '], .lineFlat⟩
  | softLine =>
    cases b with
    | true => exact ⟨_, _, by simpa [render] using h.newline, .softBroken⟩
    | false => exact ⟨_, _, by simpa [render] using h, .softFlat⟩
  | softLineSpace =>
    cases b with
    | true => exact ⟨_, _, by simpa [render] using h.newline, .spaceBroken⟩
    | false => exact ⟨_, _, by simpa [render] using h.put [' '], .spaceFlat⟩
  | hardLine => exact ⟨_, _, by simpa [render] using h.newline, .hard⟩
theorem renderAll_spec (cfg : FormatConfig) (ds : List Doc) (b : Bool) {p : Printer} {k : Nat} {l : PLine}
    {ls : List PLine} (h : At cfg p k l ls) :
    ∃ l' ls', At cfg (renderAll cfg ds b p) k l' ls' ∧ Lays cfg b k (.concat ds) (l :: ls) (l' :: ls') := by
  cases ds with
  | nil => exact ⟨l, ls, by simpa only [renderAll] using h, .none⟩
  | cons d ds =>
    obtain ⟨l1, ls1, g1, g2⟩ := render_spec cfg d b h
    obtain ⟨l2, ls2, g3, g4⟩ := renderAll_spec cfg ds b g1
    exact ⟨l2, ls2, by simpa only [renderAll] using g3, .more g2 g4⟩
end

theorem print_spec (cfg : FormatConfig) (d : Doc) :
    ∃ ls t, Lays cfg false 0 d [(0, [])] ls ∧ LinesText cfg ls t ∧ Finished cfg t (printDoc cfg d) := by
  have h0 : At cfg Printer.new 0 (0, []) [] := ⟨rfl, by simp [lineWidth, Printer.new], [], .inl ⟨rfl, rfl⟩, rfl⟩
  obtain ⟨l, ls, h1, h2⟩ := render_spec cfg d false h0
  obtain ⟨pre, g1, g2⟩ := h1.output
  have key : ∃ t, LineText cfg l t ∧
      (if cfg.trimTrailing then trimEnd (render cfg d false Printer.new).output
        else (render cfg d false Printer.new).output) = pre ++ t := by
    unfold LineText
    rw [g2]
    cases cfg.trimTrailing with
    | true => exact ⟨_, trimEnd_spec _, by simp only [if_true]; rw [trimEnd_append _ _ g1.last]⟩
    | false => exact ⟨_, rfl, rfl⟩
  obtain ⟨t, ht, ho⟩ := key
  refine ⟨l :: ls, pre ++ t, h2, g1.linesText ht, ?_⟩
  unfold printDoc finalize Finished
  simp only [ho]
  cases cfg.insertFinalNewline
  · simp
  · by_cases he : pre ++ t = []
    · simp [he]
    · have : (pre ++ t).isEmpty = false := by simpa using he
      by_cases hl : (pre ++ t).getLast? = some '\n'
      · simp [hl]
      · have hl' : ((pre ++ t).getLast? == some '\n') = false := by simpa using hl
        simp only [this, hl', Bool.not_false, Bool.and_self, if_true]
        have hc : True ∧ pre ++ t ≠ [] ∧ (pre ++ t).getLast? ≠ some '\n' := ⟨trivial, he, hl⟩
        rw [if_pos hc]
        trivial

/-! ### consequences for layouts -/

theorem Spec.Lays.ne_nil {cfg : FormatConfig} {b : Bool} {k : Nat} {d : Doc} {ls ls' : List PLine}
    (h : Lays cfg b k d ls ls') (hne : ls ≠ []) : ls' ≠ [] := by
  induction h with
  | more _ _ ih1 ih2 => exact ih2 (ih1 hne)
  | fits _ _ ih => exact ih (by simp)
  | breaks _ _ ih => exact ih (by simp)
  | indent _ ih => exact ih hne
  | nil => exact hne
  | none => exact hne
  | softFlat => exact hne
  | _ => simp

/-- What fits is laid out on the current line. -/
theorem lays_flat {cfg : FormatConfig} {b : Bool} {k : Nat} {d : Doc} {ls0 ls' : List PLine}
    (h : Lays cfg b k d ls0 ls') : ∀ {l ls f}, b = false → ls0 = l :: ls → flatText d = some f →
      lineWidth cfg l + blen f ≤ cfg.maxWidth → ls' = (l.1, l.2 ++ f) :: ls := by
  induction h with
  | nil => intro l ls f _ h1 h2 _; simp [flatText] at h2; subst h2; simp [h1]
  | text =>
    intro l ls f _ h1 h2 _
    cases h1
    simp [flatText] at h2; subst h2; rfl
  | none => intro l ls f _ h1 h2 _; simp [flatText] at h2; subst h2; simp [h1]
  | @more b k d ds _ _ _ _ _ ih1 ih2 =>
    intro l ls f hb h1 h2 h3
    simp only [flatText] at h2
    cases hf : flatText d with
    | none => rw [hf] at h2; simp at h2
    | some f1 =>
      cases hg : flatText (.concat ds) with
      | none => rw [hf, hg] at h2; simp at h2
      | some f2 =>
        rw [hf, hg] at h2
        simp only [Option.some.injEq] at h2
        subst h2
        rw [blen_append] at h3
        have a := ih1 hb h1 hf (by omega)
        have b := ih2 hb a hg (by simp only [lineWidth, blen_append] at *; omega)
        rw [b]; simp
  | fits hfit _ ih =>
    intro l ls f _ h1 h2 h3
    simp only [flatText] at h2
    exact ih rfl h1 h2 h3
  | breaks hfit _ ih =>
    intro l ls f _ h1 h2 h3
    cases h1
    simp only [flatText] at h2
    exact absurd ⟨f, h2, h3⟩ hfit
  | indent _ ih =>
    intro l ls f hb h1 h2 h3
    simp only [flatText] at h2
    exact ih hb h1 h2 h3
  | lineFlat => intro l ls f _ h1 h2 _; cases h1; simp [flatText] at h2; subst h2; rfl
  | lineBroken => intro l ls f hb; cases hb
  | softFlat => intro l ls f _ h1 h2 _; simp [flatText] at h2; subst h2; simp [h1]
  | softBroken => intro l ls f hb; cases hb
  | spaceFlat => intro l ls f _ h1 h2 _; cases h1; simp [flatText] at h2; subst h2; rfl
  | spaceBroken => intro l ls f hb; cases hb
  | hard => intro l ls f _ _ h2; simp [flatText] at h2

theorem lays_unique {cfg : FormatConfig} {b : Bool} {k : Nat} {d : Doc} {ls a : List PLine}
    (h : Lays cfg b k d ls a) : ∀ {c}, Lays cfg b k d ls c → a = c := by
  induction h with
  | more _ _ ih1 ih2 =>
    intro c hc
    cases hc with
    | more h1 h2 => have := ih1 h1; subst this; exact ih2 h2
  | fits hf _ ih =>
    intro c hc
    cases hc with
    | fits _ h2 => exact ih h2
    | breaks hn _ => exact absurd hf hn
  | breaks hf _ ih =>
    intro c hc
    cases hc with
    | fits hn _ => exact absurd hn hf
    | breaks _ h2 => exact ih h2
  | indent _ ih => intro c hc; cases hc with | indent h => exact ih h
  | _ => intro c hc; cases hc; rfl

theorem solid_append (a b : Str) : solid (a ++ b) = solid a ++ solid b := by simp [solid]

/-- The solid characters of lines, oldest line first. -/
def solidLines : List PLine → Str
  | [] => []
  | l :: ls => solidLines ls ++ solid l.2

theorem lays_solid {cfg : FormatConfig} {b : Bool} {k : Nat} {d : Doc} {ls ls' : List PLine}
    (h : Lays cfg b k d ls ls') : solidLines ls' = solidLines ls ++ solid (docText d) := by
  induction h with
  | more _ _ ih1 ih2 => rw [ih2, ih1]; simp only [docText, solid_append, List.append_assoc]
  | fits _ _ ih => rw [ih]; simp only [docText]
  | breaks _ _ ih => rw [ih]; simp only [docText]
  | indent _ ih => rw [ih]; simp only [docText]
  | text => simp [solidLines, solid_append, docText]
  | lineFlat => simp [solidLines, docText, solid]
  | spaceFlat => simp [solidLines, docText, solid]
  | _ => simp [solidLines, docText, solid]

theorem solid_blanks {b : Str} (h : ∀ c ∈ b, isBlank c) : solid b = [] := by
  simp only [solid, List.filter_eq_nil_iff]
  intro c hc
  rcases h c hc with rfl | rfl <;> simp

theorem solid_ending (cfg : FormatConfig) : solid cfg.ending = [] := by
  obtain ⟨e, he, h | h⟩ := ending_last cfg <;> rw [he, h] <;> rfl

theorem lineText_solid {cfg : FormatConfig} (hi : ∀ c ∈ cfg.indentText, isBlank c) {l : PLine} {t : Str}
    (h : LineText cfg l t) : solid t = solid l.2 := by
  have hind : solid (List.replicate l.1 cfg.indentText).flatten = [] := by
    apply solid_blanks
    intro c hc
    rw [List.mem_flatten] at hc
    obtain ⟨x, hx, hcx⟩ := hc
    rw [(List.mem_replicate.1 hx).2] at hcx
    exact hi c hcx
  unfold LineText at h
  split at h
  · obtain ⟨⟨b, h1, h2⟩, _⟩ := h
    have := congrArg solid h1
    rw [solid_append, solid_append, hind, solid_blanks h2] at this
    simpa using this.symm
  · rw [h, solid_append, hind]; rfl

theorem linesText_solid {cfg : FormatConfig} (hi : ∀ c ∈ cfg.indentText, isBlank c) {ls : List PLine} {t : Str}
    (h : LinesText cfg ls t) : solid t = solidLines ls := by
  induction h with
  | one h => simp [solidLines, lineText_solid hi h]
  | more _ h _ ih => simp only [solid_append, solid_ending, ih, lineText_solid hi h, solidLines]; simp

theorem lays_grows {cfg : FormatConfig} {b : Bool} {k : Nat} {d : Doc} {ls ls' : List PLine}
    (h : Lays cfg b k d ls ls') : ls.length ≤ ls'.length := by
  induction h with
  | more _ _ ih1 ih2 => omega
  | fits _ _ ih => exact ih
  | breaks _ _ ih => exact ih
  | indent _ ih => exact ih
  | _ => simp

theorem lays_broken {cfg : FormatConfig} {b : Bool} {k : Nat} {d : Doc} {ls ls' : List PLine}
    (h : Lays cfg b k d ls ls') : b = true → ls.length + ownBreaks d ≤ ls'.length := by
  induction h with
  | more _ _ ih1 ih2 => intro hb; have := ih1 hb; have := ih2 hb; simp only [ownBreaks]; omega
  | fits _ h _ => intro _; have := lays_grows h; simpa [ownBreaks] using this
  | breaks _ h _ => intro _; have := lays_grows h; simpa [ownBreaks] using this
  | indent _ ih => intro hb; simpa only [ownBreaks] using ih hb
  | lineFlat => intro hb; cases hb
  | softFlat => intro hb; cases hb
  | spaceFlat => intro hb; cases hb
  | _ => intro _; simp [ownBreaks]

theorem put_nil (p : Printer) : p.put [] = p := by simp [Printer.put]
theorem put_put (p : Printer) (a b : Str) : (p.put a).put b = p.put (a ++ b) := by
  simp [Printer.put, blen_append]; omega

mutual
/-- What fits is printed as its flat text, from any state of the printer. -/
theorem render_flat (cfg : FormatConfig) (d : Doc) (p : Printer) (f : Str) (hf : flatText d = some f)
    (hw : p.column + blen f ≤ cfg.maxWidth) : render cfg d false p = p.put f := by
  cases d with
  | nil => simp [flatText] at hf; subst hf; simp [render, put_nil]
  | text s => simp [flatText] at hf; subst hf; simp [render]
  | concat ds => simp only [render]; exact renderAll_flat cfg ds p f hf hw
  | group d =>
    simp only [flatText] at hf
    simp only [render]
    have : p.willBreak cfg d = false := by
      have h := checkWidth_spec cfg.maxWidth d p.column
      rw [hf] at h
      simp only [WidthAnswer, if_pos hw] at h
      simp [Printer.willBreak, h]
    rw [this]
    exact render_flat cfg d p f hf hw
  | indent d =>
    simp only [flatText] at hf
    simp only [render]
    rw [render_flat cfg d { p with indentLevel := p.indentLevel + 1 } f hf hw]
    simp [Printer.put]
  | line => simp [flatText] at hf; subst hf; simp [render]
  | softLine => simp [flatText] at hf; subst hf; simp [render, put_nil]
  | softLineSpace => simp [flatText] at hf; subst hf; simp [render]
  | hardLine => simp [flatText] at hf
theorem renderAll_flat (cfg : FormatConfig) (ds : List Doc) (p : Printer) (f : Str)
    (hf : flatText (.concat ds) = some f) (hw : p.column + blen f ≤ cfg.maxWidth) :
    renderAll cfg ds false p = p.put f := by
  cases ds with
  | nil => simp [flatText] at hf; subst hf; simp [renderAll, put_nil]
  | cons d ds =>
    simp only [flatText] at hf
    cases h1 : flatText d with
    | none => rw [h1] at hf; simp at hf
    | some a =>
      cases h2 : flatText (.concat ds) with
      | none => rw [h1, h2] at hf; simp at hf
      | some b =>
        rw [h1, h2] at hf
        simp only [Option.some.injEq] at hf
        subst hf
        rw [blen_append] at hw
        simp only [renderAll]
        rw [render_flat cfg d p a h1 (by omega), renderAll_flat cfg ds (p.put a) b h2 (by simp only [Printer.put]; omega),
          put_put]
end

theorem lays_chars {cfg : FormatConfig} {b : Bool} {k : Nat} {d : Doc} {ls ls' : List PLine}
    (h : Lays cfg b k d ls ls') (Q : Char → Prop) (hs : Q ' ') : (∀ c ∈ docText d, Q c) →
      (∀ l ∈ ls, ∀ c ∈ l.2, Q c) → ∀ l ∈ ls', ∀ c ∈ l.2, Q c := by
  induction h with
  | more _ _ ih1 ih2 =>
    intro h1 h2
    simp only [docText, List.mem_append] at h1
    exact ih2 (fun c hc => h1 c (.inr hc)) (ih1 (fun c hc => h1 c (.inl hc)) h2)
  | fits _ _ ih => intro h1 h2; simp only [docText] at h1; exact ih h1 h2
  | breaks _ _ ih => intro h1 h2; simp only [docText] at h1; exact ih h1 h2
  | indent _ ih => intro h1 h2; simp only [docText] at h1; exact ih h1 h2
  | text =>
    intro h1 h2 l hl c hc
    simp only [docText] at h1
    rcases List.mem_cons.1 hl with rfl | hl
    · rcases List.mem_append.1 hc with hc | hc
      · exact h2 _ (List.mem_cons_self ..) c hc
      · exact h1 c hc
    · exact h2 l (List.mem_cons_of_mem _ hl) c hc
  | lineFlat =>
    intro h1 h2 l hl c hc
    rcases List.mem_cons.1 hl with rfl | hl
    · rcases List.mem_append.1 hc with hc | hc
      · exact h2 _ (List.mem_cons_self ..) c hc
      · rw [List.mem_singleton] at hc; exact hc ▸ hs
    · exact h2 l (List.mem_cons_of_mem _ hl) c hc
  | spaceFlat =>
    intro h1 h2 l hl c hc
    rcases List.mem_cons.1 hl with rfl | hl
    · rcases List.mem_append.1 hc with hc | hc
      · exact h2 _ (List.mem_cons_self ..) c hc
      · rw [List.mem_singleton] at hc; exact hc ▸ hs
    · exact h2 l (List.mem_cons_of_mem _ hl) c hc
  | nil => intro _ h2; exact h2
  | none => intro _ h2; exact h2
  | softFlat => intro _ h2; exact h2
  | _ =>
    intro _ h2 l hl c hc
    rcases List.mem_cons.1 hl with rfl | hl
    · simp at hc
    · exact h2 l hl c hc

theorem lineText_chars {cfg : FormatConfig} {l : PLine} {t : Str} (h : LineText cfg l t) {c : Char} (hc : c ∈ t) :
    c ∈ cfg.indentText ∨ c ∈ l.2 := by
  have : c ∈ (List.replicate l.1 cfg.indentText).flatten ++ l.2 := by
    unfold LineText at h
    split at h
    · obtain ⟨⟨b, h1, _⟩, _⟩ := h
      rw [h1]; exact List.mem_append_left _ hc
    · rw [← h]; exact hc
  rcases List.mem_append.1 this with h | h
  · left
    obtain ⟨x, hx, hcx⟩ := List.mem_flatten.1 h
    rw [(List.mem_replicate.1 hx).2] at hcx
    exact hcx
  · exact .inr h

end Oaks
