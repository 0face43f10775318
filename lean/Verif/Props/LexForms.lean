import Verif.Proofs.LexFormsRightA
import Verif.Proofs.LexFormsRightB
import Verif.Props.LexWords

/-! C94: names, numbers, quotes and comments of any length are tokens of the lexers. -/
namespace Oaks.Props
open Spec Lc Forms

/-- Each lexer treats the forms as the table says. -/
theorem formLangs_right : ∀ r ∈ formLangs, r.lang.right = true ∧ r.right = true := by
  simp only [formLangs, List.forall_mem_cons]
  exact ⟨⟨javaLang_right, javaForms_right⟩, ⟨goLang_right, goForms_right⟩, ⟨kotlinLang_right, kotlinForms_right⟩, ⟨phpLang_right,
    phpForms_right⟩, ⟨typescriptLang_right, typescriptForms_right⟩, ⟨csharpLang_right, csharpForms_right⟩, ⟨swiftLang_right,
    swiftForms_right⟩, ⟨dartLang_right, dartForms_right⟩, ⟨dLang_right, dForms_right⟩, ⟨solidityLang_right, solidityForms_right⟩,
    ⟨valaLang_right, valaForms_right⟩, ⟨hlslLang_right, hlslForms_right⟩, ⟨objectiveCLang_right, objectiveCForms_right⟩, ⟨pascalLang_right,
    pascalForms_right⟩, ⟨delphiLang_right, delphiForms_right⟩, ⟨adaLang_right, adaForms_right⟩, ⟨vhdlLang_right, vhdlForms_right⟩,
    ⟨fortranLang_right, fortranForms_right⟩, ⟨ocamlLang_right, ocamlForms_right⟩, ⟨elmLang_right, elmForms_right⟩, ⟨perlLang_right,
    perlForms_right⟩, ⟨powershellLang_right, powershellForms_right⟩, ⟨smalltalkLang_right, smalltalkForms_right⟩, ⟨sqlLang_right,
    sqlForms_right⟩, ⟨verilogLang_right, verilogForms_right⟩, ⟨wolframLang_right, wolframForms_right⟩, ⟨nimLang_right, nimForms_right⟩,
    ⟨vlangLang_right, vlangForms_right⟩, ⟨leanLang_right, leanForms_right⟩, ⟨idlLang_right, idlForms_right⟩, ⟨graphqlLang_right,
    graphqlForms_right⟩, ⟨protobufLang_right, protobufForms_right⟩, ⟨watLang_right, watForms_right⟩, ⟨haskellLang_right,
    haskellForms_right⟩, ⟨coqLang_right, coqForms_right⟩, ⟨purescriptLang_right, purescriptForms_right⟩, ⟨crystalLang_right,
    crystalForms_right⟩, ⟨nixLang_right, nixForms_right⟩, ⟨cssLang_right, cssForms_right⟩, ⟨dhallLang_right, dhallForms_right⟩,
    ⟨texLang_right, texForms_right⟩, ⟨matlabLang_right, matlabForms_right⟩, ⟨actionscriptLang_right, actionscriptForms_right⟩, ⟨jLang_right,
    jForms_right⟩, ⟨cLang_right, cForms_right⟩, ⟨cppLang_right, cppForms_right⟩, ⟨luaLang_right, luaForms_right⟩, ⟨zigLang_right,
    zigForms_right⟩, ⟨prologLang_right, prologForms_right⟩, ⟨wgslLang_right, wgslForms_right⟩, ⟨juliaLang_right, juliaForms_right⟩,
    ⟨nginxLang_right, nginxForms_right⟩, ⟨witComponentLang_right, witComponentForms_right⟩, fun _ h => nomatch h⟩

/-! ### Lemmas -/

theorem inR_ascii {s : Chars} {c : Char} (hs : ascii s = true) (hc : inR s c) : c.toNat < 128 := by
  obtain ⟨e, he, _, h2⟩ := hc
  have := List.all_eq_true.mp hs e he
  simp only [decide_eq_true_eq] at this
  omega

theorem fits_ascii {f : List Chars} {w : Str} (hf : f.all ascii = true) (hw : Suits f w) : ∀ c ∈ w, c.toNat < 128 := by
  induction f generalizing w with
  | nil => cases w with
    | nil => intro c hc; cases hc
    | cons _ _ => cases hw
  | cons s f ih => cases w with
    | nil => cases hw
    | cons d w =>
      simp only [List.all_cons, Bool.and_eq_true] at hf
      intro c hc
      rcases List.mem_cons.mp hc with rfl | hc
      · exact inR_ascii hf.1 hw.1
      · exact ih hf.2 hw.2 c hc

theorem has_ascii {f : Form} {w : Str} (h1 : f.pre.all ascii = true) (h2 : ascii f.mid = true) (h3 : f.post.all ascii = true) (hw : f.Has w) :
    ∀ c ∈ w, c.toNat < 128 := by
  obtain ⟨a, m, b, rfl, g1, g2, g3⟩ := hw
  intro c hc
  simp only [List.mem_append] at hc
  rcases hc with (hc | hc) | hc
  · exact fits_ascii h1 g1 c hc
  · exact inR_ascii h2 (g2 c hc)
  · exact fits_ascii h3 g3 c hc

theorem has_first {f : Form} {w : Str} (h : f.pre ≠ []) (hw : f.Has w) : ∃ c cs, w = c :: cs ∧ inR (firsts f) c := by
  obtain ⟨a, m, b, rfl, g1, _, _⟩ := hw
  cases hp : f.pre with
  | nil => exact absurd hp h
  | cons s p =>
    rw [hp] at g1
    cases a with
    | nil => cases g1
    | cons c a =>
      refine ⟨c, a ++ m ++ b, by simp, ?_⟩
      simpa [firsts, hp] using g1.1

/-- The words of the language that its lexer does not cut, and the words of its forms; with the blanks that may follow. -/
def FormLang.Has (r : FormLang) (e : Str × Char) : Prop :=
  (e.1 ∈ r.lang.words ∧ e.1 ∉ r.lang.split.map (·.1) ∧ e.2 ∈ r.lang.blanks) ∨ ∃ f ∈ r.forms, f.1.Has e.1 ∧ e.2 ∈ f.2

/-- What the checks of a language say. -/
structure FormFacts (r : FormLang) (m : Parts) : Prop where
  parts : partsOf r.lang.code = some m
  quiet : m.quiet r.lang.whole = true
  ending : m.ending r.lang.whole = some (if r.lang.eof then [(0, 0)] else [])
  inB : ∀ e, r.Has e → e.2 ∈ r.lang.blanks
  good : ∀ e, r.Has e → e.1 ≠ [] ∧ (∀ c ∈ e.1, c.toNat < 128) ∧
    m.cutTo r.lang.whole e.1.length (e.1 ++ [e.2]) false e.1.length = some [(0, e.1.length)]
  blank : ∀ b ∈ r.lang.blanks, ∀ e, r.Has e → m.cutTo r.lang.whole 1 (b :: e.1.take 1) false 1 = some [(0, 1)]
  last : ∀ b ∈ r.lang.blanks, b.toNat < 128 ∧ m.cutTo r.lang.whole 1 [b] true 1 = some [(0, 1)]
  form : ∀ f ∈ r.forms, ∀ w, f.1.Has w → w ≠ [] ∧ ∀ c ∈ w, c.toNat < 128
  word : ∀ w ∈ r.lang.words, w ∉ r.lang.split.map (·.1) → ∀ c ∈ w, c.toNat < 128

theorem form_facts {r : FormLang} (hr : r ∈ formLangs) : ∃ m, FormFacts r m := by
  obtain ⟨hv, hf⟩ := formLangs_right r hr
  simp only [WordLang.right, Bool.and_eq_true] at hv
  obtain ⟨hv, _⟩ := hv
  obtain ⟨m, hm⟩ : ∃ m, partsOf r.lang.code = some m := by
    cases hm : partsOf r.lang.code with
    | none => simp [Vocab.right, hm] at hv
    | some m => exact ⟨m, rfl⟩
  simp only [Vocab.right, hm, Bool.and_eq_true, List.all_eq_true, beq_iff_eq, decide_eq_true_eq] at hv
  obtain ⟨⟨⟨hq, hend⟩, hwords⟩, hblanks⟩ := hv
  simp only [FormLang.right, hm, Bool.and_eq_true, List.all_eq_true (p := fun f : Form × List Char => _), List.all_eq_true (p := fun d : Char => _),
    beq_iff_eq, decide_eq_true_eq] at hf
  obtain ⟨hforms, hfirst⟩ := hf
  have kept : ∀ w, w ∈ r.lang.words → w ∉ r.lang.split.map (·.1) → (w, [(0, w.length)]) ∈ r.lang.vocab.words := by
    intro w h1 h2
    simp only [WordLang.vocab, List.mem_append]
    exact .inl (List.mem_map.mpr ⟨w, List.mem_filter.mpr ⟨h1, by simpa using h2⟩, rfl⟩)
  have blank : ∀ d ∈ r.lang.blanks, (d, [(0, 1)]) ∈ r.lang.vocab.blanks := fun d hd => List.mem_map.mpr ⟨d, hd, rfl⟩
  have inB : ∀ e, r.Has e → e.2 ∈ r.lang.blanks := by
    intro e he
    rcases he with ⟨_, _, h3⟩ | ⟨f, h1, _, h3⟩
    · exact h3
    · exact (hforms f h1).1.2 _ h3
  have good : ∀ e, r.Has e → e.1 ≠ [] ∧ (∀ c ∈ e.1, c.toNat < 128) ∧ m.cutTo r.lang.whole e.1.length (e.1 ++ [e.2]) false e.1.length = some [(0, e.1.length)] := by
    intro e he
    rcases he with ⟨h1, h2, h3⟩ | ⟨f, h1, h2, h3⟩
    · obtain ⟨⟨g1, g2⟩, g3⟩ := hwords _ (kept _ h1 h2)
      exact ⟨by simpa using g1, g2, g3 _ (blank _ h3)⟩
    · obtain ⟨⟨⟨⟨⟨g1, g2⟩, g3⟩, g4⟩, _⟩, g5⟩ := hforms f h1
      obtain ⟨c, cs, hc, _⟩ := has_first (by simpa using g1) h2
      have hne : e.1 ≠ [] := by rw [hc]; simp
      exact ⟨hne, has_ascii g2 g3 g4 h2, one_right g5 ⟨(e.2.toNat, e.2.toNat), List.mem_map.mpr ⟨e.2, h3, rfl⟩, Nat.le_refl _, Nat.le_refl _⟩ h2 hne⟩
  refine ⟨m, hm, hq, hend, inB, good, ?_, ?_, ?_, ?_⟩
  · intro b hb e he
    obtain ⟨_, g3⟩ := hblanks _ (blank _ hb)
    rcases he with ⟨h1, h2, _⟩ | ⟨f, h1, h2, _⟩
    · exact g3 _ (List.mem_dedup.mpr (List.mem_map_of_mem (f := fun w : Str × List (Nat × Nat) => w.1.take 1) (kept _ h1 h2)))
    · obtain ⟨⟨⟨⟨⟨k1, _⟩, _⟩, _⟩, _⟩, _⟩ := hforms f h1
      obtain ⟨c, cs, hc, hin⟩ := has_first (by simpa using k1) h2
      simp only [hc, List.take_succ_cons, List.take_zero]
      obtain ⟨k, hk, k2, k3⟩ := hin
      exact blank_right (hfirst _ hb) ⟨k, List.mem_flatMap.mpr ⟨f, h1, hk⟩, k2, k3⟩
  · intro b hb
    obtain ⟨⟨g1, g2⟩, _⟩ := hblanks _ (blank _ hb)
    exact ⟨g1, g2⟩
  · intro f h1 w hw
    obtain ⟨⟨⟨⟨⟨g1, g2⟩, g3⟩, g4⟩, _⟩, _⟩ := hforms f h1
    obtain ⟨c, cs, hc, _⟩ := has_first (by simpa using g1) hw
    exact ⟨by rw [hc]; simp, has_ascii g2 g3 g4 hw⟩
  · intro w h1 h2
    exact (hwords _ (kept _ h1 h2)).1.2

private def formLine (x : WordLine) : Line := x.map fun e => ((e.1, [(0, e.1.length)]), (e.2, [(0, 1)]))

private theorem formLine_text (x : WordLine) : Line.text (formLine x) = WordLine.text x := by
  induction x with
  | nil => rfl
  | cons e x ih =>
    show e.1 ++ e.2 :: Line.text (formLine x) = _
    rw [ih]
    rfl

private theorem formLine_toks (x : WordLine) (hx : ∀ e ∈ x, blen e.1 = e.1.length) (o : Nat) :
    (Line.toks o (formLine x)).map (fun t => (t.start, t.stop)) = x.spans o := by
  induction x generalizing o with
  | nil => rfl
  | cons e x ih =>
    have h1 := hx e (by simp)
    have h4 := ih (fun e he => hx e (by simp [he])) (o + e.1.length + 1)
    show (abs o _ ++ abs (o + e.1.length) [(0, 1)] ++ Line.toks (o + e.1.length + 1) (formLine x)).map _ = _
    rw [List.map_append, h4]
    simp [abs, WordLine.spans, h1]

/-! ### Theorems -/

/-- Words with blanks between them, in any order, of any length: operators and separators of the language, and names, numbers,
quotes and comments of its forms. The words and the blanks are the tokens, whatever the source. Missing: words of other forms
(quotes with escapes in the middle, decimals with exponents, comments inside comments), words without blanks between them. -/
theorem C94_forms_partial {r : FormLang} (hr : r ∈ formLangs) {x : WordLine} (hx : ∀ e ∈ x, r.Has e) {src : Source}
    (h : r.lang.Reads src x.text) (u : Uni) (ω : Nat → Nat) :
    ∃ toks, scanAll src u ω r.lang.code = .ok toks ∧
      toks.map (fun t => (t.start, t.stop)) = x.spans 0 ++ if r.lang.eof then [(blen x.text, blen x.text)] else [] := by
  obtain ⟨m, hm, hq, hend, inB, good, hblank, hlast, _, _⟩ := form_facts hr
  have hl : LineRight m r.lang.whole (formLine x) := by
    refine ⟨fun e he => ?_, fun e he => ?_⟩
    · obtain ⟨e, he', rfl⟩ := List.mem_map.mp he
      exact good e (hx e he')
    · obtain ⟨e, he', rfl⟩ := List.mem_map.mp he
      obtain ⟨g1, g2⟩ := hlast _ (inB e (hx e he'))
      refine ⟨g1, g2, fun e2 he2 => ?_⟩
      obtain ⟨e2, he2', rfl⟩ := List.mem_map.mp he2
      exact hblank _ (inB e (hx e he')) e2 (hx e2 he2')
  have hta : ∀ c ∈ x.text, c.toNat < 128 := by
    have hb : ∀ e ∈ x, e.2.toNat < 128 := fun e he => (hlast _ (inB e (hx e he))).1
    have good' : ∀ e ∈ x, ∀ c ∈ e.1, c.toNat < 128 := fun e he => (good e (hx e he)).2.1
    clear hx h hl
    induction x with
    | nil => intro c hc; cases hc
    | cons e x ih =>
      intro c hc
      simp only [WordLine.text, List.mem_append, List.mem_cons] at hc
      rcases hc with hc | rfl | hc
      · exact good' e (by simp) c hc
      · exact hb e (by simp)
      · exact ih (fun e he => hb e (by simp [he])) (fun e he => good' e (by simp [he])) c hc
  have hp : r.lang.whole = true → Piece src x.text := by
    intro hw
    rcases h.2 hw with rfl | rfl
    · exact strSource_piece _
    · exact textSource_piece hta
  refine ⟨_, lines_sound (u := u) (supply_linked h.1.1 h.1.2 (longChunks_zero _ _) (cutsAligned_zero h.1.1)) hp hm hq hend hl (formLine_text x).symm ω, ?_⟩
  rw [List.map_append, formLine_toks x fun e he => ascii_len (good e (hx e he)).2.1]
  congr 1
  split <;> simp [abs]

/-- Wgsl: the comment of `/* a */ x` does not end at `*/`; one token has the whole text, and `x` is lost in it. -/
theorem C94_wgsl_witness : ∃ toks, scanAll (strSource ['/', '*', ' ', 'a', ' ', '*', '/', ' ', 'x', '\n']) plain (fun _ => 0) HandLex.Wgsl.run_ = .ok toks ∧
    toks.map (fun t => (t.start, t.stop)) = [(0, 10)] := by
  refine ⟨_, rfl, ?_⟩
  decide +kernel

/-! ### Cases -/

theorem has_rep {f : Form} {a b : Str} {c : Char} (n : Nat) (h1 : Suits f.pre a) (h2 : inR f.mid c) (h3 : Suits f.post b) :
    f.Has (a ++ List.replicate n c ++ b) :=
  ⟨a, _, b, rfl, h1, fun d hd => by rw [List.eq_of_mem_replicate hd]; exact h2, h3⟩

/-- Java: a name of `n + 1` letters, `=`, a quote of `n` letters, `;`. -/
private def longLine (n : Nat) : WordLine :=
  [('k' :: List.replicate n 'a', ' '), (['='], ' '), ('"' :: List.replicate n 'b' ++ ['"'], ' '), ([';'], '\n')]

example (n : Nat) : ∃ toks, scanAll (strSource (longLine n).text) plain (fun _ => 0) HandLex.Java.run_ = .ok toks ∧
    toks.map (fun t => (t.start, t.stop)) =
      [(0, n + 1), (n + 1, n + 2), (n + 2, n + 3), (n + 3, n + 4), (n + 4, 2 * n + 6), (2 * n + 6, 2 * n + 7), (2 * n + 7, 2 * n + 8), (2 * n + 8, 2 * n + 9)] := by
  have hx : ∀ e ∈ longLine n, javaForms.Has e := by
    simp only [longLine, List.forall_mem_cons]
    refine ⟨.inr ⟨(anyName, javaLang.blanks), by simp [javaForms], ?_, by simp [javaLang]⟩, .inl (by decide +kernel),
      .inr ⟨(quote '"' inDouble, javaLang.blanks), by simp [javaForms], ?_, by simp [javaLang]⟩, .inl (by decide +kernel), fun _ h => nomatch h⟩
    · have := has_rep (f := anyName) (a := ['k']) (b := []) (c := 'a') n ⟨⟨(97, 122), by decide⟩, trivial⟩ ⟨(97, 122), by decide⟩ trivial
      simpa using this
    · exact has_rep (f := quote '"' inDouble) (a := ['"']) (b := ['"']) (c := 'b') n ⟨⟨(34, 34), by decide⟩, trivial⟩ ⟨(93, 126), by decide⟩
        ⟨⟨(34, 34), by decide⟩, trivial⟩
  obtain ⟨toks, h1, h2⟩ := C94_forms_partial (r := javaForms) (by simp [formLangs]) hx (src := strSource _)
    ⟨(C05_chunks_contiguous _).1, by intro h; cases h⟩ plain fun _ => 0
  refine ⟨toks, h1, h2.trans ?_⟩
  have hb : ∀ c : Char, c.utf8Size = 1 → blen (List.replicate n c) = n := by
    clear hx h1 h2
    intro c hc
    induction n with
    | zero => rfl
    | succ n ih => rw [List.replicate_succ, blen_cons, ih, hc, Nat.add_comm]
  have e1 := hb 'a' rfl
  have e2 := hb 'b' rfl
  simp only [longLine, WordLine.spans, List.cons_append, blen_cons, blen_append, e1, e2]
  simp [javaForms, javaLang, Char.utf8Size]
  omega

/-- How many languages and forms there are. -/
example : formLangs.length = 53 ∧ (formLangs.map fun r => r.forms.length).sum = 545 := by decide +kernel

end Oaks.Props
