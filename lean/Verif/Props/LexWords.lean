import Verif.Proofs.LexWordsRightA
import Verif.Proofs.LexWordsRightB
import Verif.Proofs.LexWordsRightC
import Verif.Proofs.LexWordsRightD

/-! C92: the operators, separators and numbers of a language are tokens of its lexer. -/
namespace Oaks.Props
open Spec Lc

/-- Each lexer treats its words as the table says. -/
theorem wordLangs_right : ∀ r ∈ wordLangs, r.right = true := by
  simp only [wordLangs, List.forall_mem_cons]
  exact ⟨javaLang_right, goLang_right, kotlinLang_right, phpLang_right, typescriptLang_right, csharpLang_right, swiftLang_right,
    dartLang_right, dLang_right, solidityLang_right, valaLang_right, hlslLang_right, objectiveCLang_right, pascalLang_right,
    delphiLang_right, adaLang_right, vhdlLang_right, fortranLang_right, ocamlLang_right, elmLang_right, perlLang_right,
    powershellLang_right, smalltalkLang_right, sqlLang_right, verilogLang_right, wolframLang_right, nimLang_right, vlangLang_right,
    leanLang_right, idlLang_right, graphqlLang_right, protobufLang_right, watLang_right, haskellLang_right, coqLang_right,
    purescriptLang_right, crystalLang_right, nixLang_right, cssLang_right, dhallLang_right, texLang_right, matlabLang_right,
    actionscriptLang_right, jLang_right, cLang_right, cppLang_right, luaLang_right, zigLang_right, prologLang_right, wgslLang_right,
    juliaLang_right, nginxLang_right, witComponentLang_right,
    fun _ h => nomatch h⟩

/-- The sources of a text: any for a lexer that reads character by character, a `str` or `SourceText` for one that looks at
`rest()`. -/
def WordLang.Reads (r : WordLang) (src : Source) (t : Str) : Prop :=
  AnySource src t ∧ (r.whole = true → src = strSource t ∨ src = textSource t)

/-- What the table says of a line of words. -/
def WordLang.cut (r : WordLang) (o : Nat) : WordLine → List (Nat × Nat)
  | [] => if r.eof then [(o, o)] else []
  | (w, _) :: x =>
    ((r.split.lookup w).getD [(0, blen w)]).map (fun s => (o + s.1, o + s.2)) ++
      (o + blen w, o + blen w + 1) :: r.cut (o + blen w + 1) x

/-! ### Lemmas -/

theorem strSource_piece (t : Str) : Piece (strSource t) t := by
  intro o c h
  simp only [strSource, strChunkAt] at h
  split at h
  · cases h; simp [Chunk.stop, blen]
  · split at h
    · rename_i x hx
      cases h
      obtain ⟨l, rfl, rfl⟩ := strFrom_eq_some.mp hx
      simp [Chunk.stop]
    · cases h

theorem textSource_piece {t : Str} (ht : ∀ c ∈ t, c.toNat < 128) : Piece (textSource t) t := by
  intro o c h
  simp only [textSource, textChunkAt] at h
  split at h
  · cases h; simp [Chunk.stop, blen]
  · rename_i ho
    cases h
    have h1 : blen (t.take o) = o := by
      rw [ascii_len fun c hc => ht c (List.mem_of_mem_take hc), List.length_take]
      rw [ascii_len ht] at ho
      omega
    have h2 : strFrom t o = some (t.drop o) := by
      conv_lhs => rw [← List.take_append_drop o t]; arg 2; rw [← h1]
      exact strFrom_append _ _
    have h3 : blen t = blen (t.take o) + blen (t.drop o) := by rw [← blen_append, List.take_append_drop]
    simp only [h2, Option.getD_some, Chunk.stop]
    omega

theorem lookup_mem {α β : Type} [BEq α] [LawfulBEq α] {l : List (α × β)} {a : α} {b : β} (h : l.lookup a = some b) : (a, b) ∈ l := by
  induction l with
  | nil => cases h
  | cons e l ih =>
    obtain ⟨c, d⟩ := e
    rw [List.lookup_cons] at h
    split at h
    · rename_i hc
      cases h
      rw [eq_of_beq hc]
      simp
    · exact List.mem_cons_of_mem _ (ih h)

theorem lookup_none {α β : Type} [BEq α] [LawfulBEq α] {l : List (α × β)} {a : α} (h : a ∉ l.map (·.1)) : l.lookup a = none := by
  induction l with
  | nil => rfl
  | cons e l ih =>
    obtain ⟨c, d⟩ := e
    simp only [List.map_cons, List.mem_cons, not_or] at h
    rw [List.lookup_cons]
    have h1 : (a == c) = false := by simpa using h.1
    rw [h1]
    exact ih h.2

theorem lookup_some {α β : Type} [BEq α] [LawfulBEq α] {l : List (α × β)} {a : α} (h : a ∈ l.map (·.1)) : ∃ b, l.lookup a = some b := by
  induction l with
  | nil => cases h
  | cons e l ih =>
    obtain ⟨c, d⟩ := e
    rw [List.lookup_cons]
    cases hc : a == c with
    | true => exact ⟨d, rfl⟩
    | false =>
      simp only [List.map_cons, List.mem_cons] at h
      rcases h with h | h
      · rw [h] at hc; simp at hc
      · exact ih h

/-- The line with the tokens of the table. -/
private def WordLang.line (r : WordLang) (x : WordLine) : Line :=
  x.map fun e => ((e.1, (r.split.lookup e.1).getD [(0, e.1.length)]), (e.2, [(0, 1)]))

private theorem line_text (r : WordLang) (x : WordLine) : Line.text (r.line x) = WordLine.text x := by
  induction x with
  | nil => rfl
  | cons e x ih =>
    show e.1 ++ e.2 :: Line.text (r.line x) = _
    rw [ih]
    rfl

private theorem line_toks (r : WordLang) (x : WordLine) (hx : ∀ e ∈ x, blen e.1 = e.1.length ∧ e.2.utf8Size = 1) (o : Nat) :
    (Line.toks o (r.line x) ++ abs (o + blen (WordLine.text x)) r.vocab.ending).map (fun t => (t.start, t.stop)) = r.cut o x := by
  induction x generalizing o with
  | nil =>
    show (abs (o + blen []) r.vocab.ending).map _ = _
    simp only [WordLang.vocab, WordLang.cut]
    split <;> simp [abs, blen]
  | cons e x ih =>
    obtain ⟨h1, h2⟩ := hx e (by simp)
    have h3 : o + blen (WordLine.text (e :: x)) = o + e.1.length + 1 + blen (WordLine.text x) := by
      simp only [WordLine.text, blen_append, blen_cons, h1, h2]
      omega
    have h4 := ih (fun e he => hx e (by simp [he])) (o + e.1.length + 1)
    show (abs o _ ++ abs (o + e.1.length) [(0, 1)] ++ Line.toks (o + e.1.length + 1) (r.line x) ++ _).map _ = _
    rw [h3, List.append_assoc, List.map_append, h4]
    simp [abs, WordLang.cut, h1]

/-! ### Theorems -/

/-- Words of the language with blanks between them, in any order: the lexer makes the tokens of the table of them, nothing
else, whatever the source. -/
theorem C92_cut {r : WordLang} (hr : r ∈ wordLangs) {x : WordLine} (hx : ∀ e ∈ x, e.1 ∈ r.words ∧ e.2 ∈ r.blanks) {src : Source}
    (h : r.Reads src x.text) (u : Uni) (ω : Nat → Nat) :
    ∃ toks, scanAll src u ω r.code = .ok toks ∧ toks.map (fun t => (t.start, t.stop)) = r.cut 0 x := by
  have hv := wordLangs_right r hr
  simp only [WordLang.right, Bool.and_eq_true] at hv
  obtain ⟨hv, _⟩ := hv
  have hl : ∀ e ∈ r.line x, e.1 ∈ r.vocab.words ∧ e.2 ∈ r.vocab.blanks := by
    intro e he
    obtain ⟨e, he', rfl⟩ := List.mem_map.mp he
    obtain ⟨h1, h2⟩ := hx e he'
    refine ⟨?_, List.mem_map.mpr ⟨e.2, h2, rfl⟩⟩
    simp only [WordLang.vocab, List.mem_append]
    cases hq : r.split.lookup e.1 with
    | some ks => exact .inr (lookup_mem hq)
    | none =>
      refine .inl (List.mem_map.mpr ⟨e.1, ?_, rfl⟩)
      refine List.mem_filter.mpr ⟨h1, ?_⟩
      simp only [decide_eq_true_eq]
      intro hm
      obtain ⟨b, hb⟩ := lookup_some hm
      rw [hb] at hq
      cases hq
  obtain ⟨m, hm⟩ : ∃ m, partsOf r.code = some m := by
    cases hm : partsOf r.code with
    | none => simp [Vocab.right, hm] at hv
    | some m => exact ⟨m, rfl⟩
  have hv' := hv
  simp only [Vocab.right, hm, Bool.and_eq_true, List.all_eq_true, decide_eq_true_eq] at hv'
  have hwa : ∀ e ∈ x, (∀ c ∈ e.1, c.toNat < 128) ∧ e.2.toNat < 128 := by
    intro e he
    have h1 := hl _ (List.mem_map_of_mem (f := fun e => ((e.1, (r.split.lookup e.1).getD [(0, e.1.length)]), (e.2, [(0, 1)]))) he)
    exact ⟨(hv'.1.2 _ h1.1).1.2, (hv'.2 _ h1.2).1.1⟩
  have hta : ∀ c ∈ x.text, c.toNat < 128 := by
    clear hx h hl
    induction x with
    | nil => intro c hc; cases hc
    | cons e x ih =>
      intro c hc
      simp only [WordLine.text, List.mem_append, List.mem_cons] at hc
      rcases hc with hc | rfl | hc
      · exact (hwa e (by simp)).1 c hc
      · exact (hwa e (by simp)).2
      · exact ih (fun e he => hwa e (by simp [he])) c hc
  have hp : r.whole = true → Piece src x.text := by
    intro hw
    rcases h.2 hw with rfl | rfl
    · exact strSource_piece _
    · exact textSource_piece hta
  refine ⟨_, vocab_sound (u := u) (supply_linked h.1.1 h.1.2 (longChunks_zero _ _) (cutsAligned_zero h.1.1)) hp hv (r.line x) hl (line_text r x).symm ω, ?_⟩
  have := line_toks r x (fun e he => ⟨ascii_len (hwa e he).1, by
    have := ascii_len (k := [e.2]) (by simpa using (hwa e he).2)
    simpa [blen] using this⟩) 0
  simpa using this

/-- Words of the language that its lexer does not cut, with blanks between them, in any order: the words and the blanks are
the tokens. Missing: the words listed in `split`; names, numbers and texts other than those listed; words without blanks
between them. -/
theorem C92_words_partial {r : WordLang} (hr : r ∈ wordLangs) {x : WordLine}
    (hx : ∀ e ∈ x, e.1 ∈ r.words ∧ e.1 ∉ r.split.map (·.1) ∧ e.2 ∈ r.blanks) {src : Source} (h : r.Reads src x.text) (u : Uni) (ω : Nat → Nat) :
    ∃ toks, scanAll src u ω r.code = .ok toks ∧
      toks.map (fun t => (t.start, t.stop)) = x.spans 0 ++ if r.eof then [(blen x.text, blen x.text)] else [] := by
  obtain ⟨toks, h1, h2⟩ := C92_cut hr (fun e he => ⟨(hx e he).1, (hx e he).2.2⟩) h u ω
  refine ⟨toks, h1, h2.trans ?_⟩
  have hd : ∀ d ∈ r.blanks, d.utf8Size = 1 := by
    intro d hd
    have : ∀ r ∈ wordLangs, ∀ d ∈ r.blanks, d.utf8Size = 1 := by decide +kernel
    exact this r hr d hd
  have key : ∀ o, r.cut o x = x.spans o ++ if r.eof then [(o + blen x.text, o + blen x.text)] else [] := by
    clear h h1 h2
    induction x with
    | nil => intro o; simp [WordLang.cut, WordLine.spans, WordLine.text, blen]
    | cons e x ih =>
      intro o
      obtain ⟨_, g1, g2⟩ := hx e (by simp)
      simp only [WordLang.cut, WordLine.spans, WordLine.text, blen_append, blen_cons, hd _ g2, lookup_none g1, ih (fun e he => hx e (by simp [he]))]
      simp [Nat.add_assoc]
  simpa using key 0

/-- Every word listed in `split` is a word of the language, and wherever it stands among the words of the language, no token
is that word. -/
theorem C92_split {r : WordLang} (hr : r ∈ wordLangs) {w : Str} {d : Char} {y z : WordLine} (hw : w ∈ r.split.map (·.1))
    (hx : ∀ e ∈ y ++ (w, d) :: z, e.1 ∈ r.words ∧ e.2 ∈ r.blanks) {src : Source} (h : r.Reads src (WordLine.text (y ++ (w, d) :: z)))
    (u : Uni) (ω : Nat → Nat) :
    ∃ toks, scanAll src u ω r.code = .ok toks ∧ ∀ t ∈ toks, ¬ (t.start = blen y.text ∧ t.stop = blen y.text + blen w) := by
  obtain ⟨toks, h1, h2⟩ := C92_cut hr hx h u ω
  refine ⟨toks, h1, fun t ht hc => ?_⟩
  have hm : (t.start, t.stop) ∈ r.cut 0 (y ++ (w, d) :: z) := by rw [← h2]; exact List.mem_map.mpr ⟨t, ht, rfl⟩
  rw [hc.1, hc.2] at hm
  have hv := wordLangs_right r hr
  simp only [WordLang.right, Bool.and_eq_true, List.all_eq_true, decide_eq_true_eq] at hv
  have hd : ∀ r ∈ wordLangs, (∀ d ∈ r.blanks, d.utf8Size = 1) ∧ (∀ w ∈ r.words, w ≠ [] ∧ blen w = w.length) := by decide +kernel
  obtain ⟨hd1, hd2⟩ := hd r hr
  have hpos : 0 < blen w := by
    obtain ⟨g1, g2⟩ := hd2 w (hx (w, d) (by simp)).1
    rw [g2]
    exact List.length_pos_of_ne_nil g1
  have hin : ∀ e ks, r.split.lookup e = some ks → ∀ s ∈ ks, s.1 < s.2 ∧ s.2 ≤ e.length ∧ s.2 - s.1 ≠ e.length := by
    intro e ks he s hs
    have := ((hv.2 _ (lookup_mem he)).2 s hs)
    exact ⟨this.1.1, this.1.2, this.2⟩
  have later : ∀ (z : WordLine) o s, s ∈ r.cut o z → o ≤ s.1 := by
    intro z
    induction z with
    | nil => intro o s hs; simp only [WordLang.cut] at hs; split at hs <;> simp_all
    | cons e z ih =>
      intro o s hs
      simp only [WordLang.cut, List.mem_append, List.mem_map, List.mem_cons] at hs
      rcases hs with ⟨k, _, rfl⟩ | rfl | hs
      · simp
      · simp
      · have := ih _ _ hs; omega
  have key : ∀ (y : WordLine) o, (∀ e ∈ y, e.1 ∈ r.words ∧ e.2 ∈ r.blanks) →
      (o + blen y.text, o + blen y.text + blen w) ∈ r.cut o (y ++ (w, d) :: z) → False := by
    intro y
    induction y with
    | nil =>
      intro o _ hs
      obtain ⟨ks, hks⟩ := lookup_some hw
      simp only [List.nil_append, WordLine.text, blen_nil, Nat.add_zero, WordLang.cut, List.mem_append, List.mem_map, List.mem_cons, hks, Option.getD_some,
        Prod.mk.injEq] at hs
      rcases hs with ⟨k, hk, e1, e2⟩ | ⟨e1, _⟩ | hs
      · have := hin w ks hks k hk
        have := (hd2 w (hx (w, d) (by simp)).1).2
        omega
      · omega
      · have := later _ _ _ hs
        simp only at this
        omega
    | cons e y ih =>
      intro o he hs
      obtain ⟨g1, g2⟩ := he e (by simp)
      have g3 := (hd2 _ g1).2
      have g4 := hd1 _ g2
      simp only [List.cons_append, WordLine.text, blen_append, blen_cons, g4, WordLang.cut, List.mem_append, List.mem_map, List.mem_cons, Prod.mk.injEq] at hs
      rcases hs with ⟨k, hk, e1, e2⟩ | ⟨e1, e2⟩ | hs
      · have : k.2 ≤ e.1.length ∧ k.1 ≤ k.2 := by
          cases hq : r.split.lookup e.1 with
          | none =>
            rw [hq] at hk
            simp at hk
            subst hk
            simp [g3]
          | some ks =>
            rw [hq] at hk
            have := hin _ _ hq k hk
            omega
        omega
      · omega
      · refine ih (o + blen e.1 + 1) (fun e h => he e (by simp [h])) ?_
        rw [show o + blen e.1 + 1 + blen (WordLine.text y) = o + (blen e.1 + (1 + blen (WordLine.text y))) by omega]
        exact hs
  exact key y 0 (fun e he => hx e (by simp [he])) (by simpa using hm)

/-- Java: `x >>>= 42 ;` and a line break. -/
private def javaLine : WordLine := [(['x'], ' '), (['>', '>', '>', '='], ' '), (['4', '2'], ' '), ([';'], '\n')]

example : ∃ toks, scanAll (strSource javaLine.text) plain (fun _ => 0) HandLex.Java.run_ = .ok toks ∧
    toks.map (fun t => (t.start, t.stop)) = [(0, 1), (1, 2), (2, 6), (6, 7), (7, 9), (9, 10), (10, 11), (11, 12)] :=
  C92_words_partial (r := javaLang) (by simp [wordLangs]) (x := javaLine) (by decide +kernel)
    ⟨(C05_chunks_contiguous _).1, by intro h; cases h⟩ plain fun _ => 0

example : javaLang.cut 0 javaLine = [(0, 1), (1, 2), (2, 6), (6, 7), (7, 9), (9, 10), (10, 11), (11, 12)] ∧
    csharpLang.cut 0 [(['x'], ' '), (['=', '>'], ' ')] = [(0, 1), (1, 2), (2, 3), (3, 4), (4, 5)] := by decide +kernel

/-- C#: in `x => 42 ` no token is `=>`. -/
example : ∃ toks, scanAll (textSource (WordLine.text [(['x'], ' '), (['=', '>'], ' '), (['4', '2'], ' ')])) plain (fun _ => 0) HandLex.Csharp.run_ = .ok toks ∧
    ∀ t ∈ toks, ¬ (t.start = 2 ∧ t.stop = 4) :=
  C92_split (r := csharpLang) (w := ['=', '>']) (d := ' ') (y := [(['x'], ' ')]) (z := [(['4', '2'], ' ')]) (by simp [wordLangs]) (by decide +kernel) (by decide +kernel)
    ⟨(C05_chunks_contiguous _).2.1, by intro h; cases h⟩ plain fun _ => 0

/-- How many languages there are, and how many of them have words that are cut. -/
example : wordLangs.length = 53 ∧ (wordLangs.filter fun r => !r.split.isEmpty).length = 44 := by decide +kernel

end Oaks.Props
