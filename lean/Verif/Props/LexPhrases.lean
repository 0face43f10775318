import Verif.Props.LexWords
import Verif.Proofs.LexPhrasesRightA
import Verif.Proofs.LexPhrasesRightB
import Verif.Proofs.LexPhrasesRightC
import Verif.Proofs.LexPhrasesRightD

/-! C93: code written without blanks falls into the lexical elements it is made of. -/
namespace Oaks.Props
open Spec Lc

/-- Each lexer treats its phrases as the table says. -/
private theorem phraseLangs_right : ∀ r ∈ phraseLangs, r.right = true := by
  simp only [phraseLangs, List.forall_mem_cons]
  exact ⟨javaPhr_right, csharpPhr_right, dartPhr_right, dPhr_right, solidityPhr_right, valaPhr_right, hlslPhr_right, objectiveCPhr_right,
    actionscriptPhr_right, cPhr_right, cppPhr_right, typescriptPhr_right, phpPhr_right, goPhr_right, vlangPhr_right, kotlinPhr_right,
    zigPhr_right, wgslPhr_right, swiftPhr_right, pascalPhr_right, delphiPhr_right, adaPhr_right, vhdlPhr_right, fortranPhr_right,
    ocamlPhr_right, elmPhr_right, perlPhr_right, sqlPhr_right, verilogPhr_right, wolframPhr_right, nimPhr_right, leanPhr_right,
    haskellPhr_right, coqPhr_right, purescriptPhr_right, crystalPhr_right, matlabPhr_right, luaPhr_right, prologPhr_right,
    juliaPhr_right, dhallPhr_right, nixPhr_right, smalltalkPhr_right, powershellPhr_right, graphqlPhr_right, protobufPhr_right,
    cssPhr_right, watPhr_right, idlPhr_right, nginxPhr_right, witComponentPhr_right, texPhr_right, jPhr_right,
    fun _ h => nomatch h⟩

/-- The sources of a text: any for a lexer that reads character by character, a `str` or `SourceText` for one that looks at
`rest()`. -/
def PhraseLang.Reads (r : PhraseLang) (src : Source) (t : Str) : Prop :=
  AnySource src t ∧ (r.whole = true → src = strSource t ∨ src = textSource t)

/-- What the table says of phrases. -/
def PhraseLang.cut (r : PhraseLang) (o : Nat) : List Phrase → List (Nat × Nat)
  | [] => if r.eof then [(o, o)] else []
  | p :: x =>
    ((r.odd.lookup p).getD (p.spans 0)).map (fun s => (o + s.1, o + s.2)) ++
      (o + blen p.text, o + blen p.text + 1) :: r.cut (o + blen p.text + 1) x

/-! ### Lemmas -/

/-- The line with the tokens of the table. -/
private def PhraseLang.line (r : PhraseLang) (x : List Phrase) : Line :=
  x.map fun p => ((p.text, (r.odd.lookup p).getD (p.spans 0)), ('\n', [(0, 1)]))

private theorem phrase_line_text (r : PhraseLang) (x : List Phrase) : Line.text (r.line x) = phraseText x := by
  induction x with
  | nil => rfl
  | cons p x ih =>
    show p.text ++ '\n' :: Line.text (r.line x) = _
    rw [ih]
    rfl

private theorem phrase_line_toks (r : PhraseLang) (x : List Phrase) (hx : ∀ p ∈ x, blen p.text = p.text.length) (o : Nat) :
    (Line.toks o (r.line x) ++ abs (o + blen (phraseText x)) r.vocab.ending).map (fun t => (t.start, t.stop)) = r.cut o x := by
  induction x generalizing o with
  | nil =>
    show (abs (o + blen []) r.vocab.ending).map _ = _
    simp only [PhraseLang.vocab, PhraseLang.cut]
    split <;> simp [abs, blen]
  | cons p x ih =>
    have h1 := hx p (by simp)
    have h3 : o + blen (phraseText (p :: x)) = o + p.text.length + 1 + blen (phraseText x) := by
      have : ('\n').utf8Size = 1 := by decide
      simp only [phraseText, blen_append, blen_cons, h1, this]
      omega
    have h4 := ih (fun e he => hx e (by simp [he])) (o + p.text.length + 1)
    show (abs o _ ++ abs (o + p.text.length) [(0, 1)] ++ Line.toks (o + p.text.length + 1) (r.line x) ++ _).map _ = _
    rw [h3, List.append_assoc, List.map_append, h4]
    simp [abs, PhraseLang.cut, h1]

private theorem spans_shift (p : Phrase) (o a : Nat) : (p.spans a).map (fun s => (o + s.1, o + s.2)) = p.spans (o + a) := by
  induction p generalizing a with
  | nil => rfl
  | cons w p ih => simp [Phrase.spans, ih, Nat.add_assoc]

private theorem spans_within (p : Phrase) (a : Nat) : ∀ s ∈ p.spans a, a ≤ s.1 ∧ s.1 ≤ s.2 ∧ s.2 ≤ a + blen p.text := by
  induction p generalizing a with
  | nil => intro s hs; cases hs
  | cons w p ih =>
    intro s hs
    have h1 : blen (Phrase.text (w :: p)) = blen w + blen (Phrase.text p) := by
      simp [Phrase.text, blen_append]
    simp only [Phrase.spans, List.mem_cons] at hs
    rcases hs with rfl | hs
    · simp only [h1]
      omega
    · have := ih _ s hs
      omega

private theorem spans_pos {p : Phrase} (hp : ∀ w ∈ p, 0 < blen w) (a : Nat) : ∀ s ∈ p.spans a, s.1 < s.2 := by
  induction p generalizing a with
  | nil => intro s hs; cases hs
  | cons w p ih =>
    intro s hs
    simp only [Phrase.spans, List.mem_cons] at hs
    rcases hs with rfl | hs
    · have := hp w (by simp)
      simp only
      omega
    · exact ih (fun w h => hp w (by simp [h])) _ s hs

/-! ### Theorems -/

/-- Phrases of the language on lines of their own, in any order: the lexer makes the tokens of the table of them, nothing
else, whatever the source. -/
theorem C93_cut {r : PhraseLang} (hr : r ∈ phraseLangs) {x : List Phrase} (hx : ∀ p ∈ x, p ∈ r.phrases) {src : Source}
    (h : r.Reads src (phraseText x)) (u : Uni) (ω : Nat → Nat) :
    ∃ toks, scanAll src u ω r.code = .ok toks ∧ toks.map (fun t => (t.start, t.stop)) = r.cut 0 x := by
  have hv := phraseLangs_right r hr
  simp only [PhraseLang.right, Bool.and_eq_true] at hv
  obtain ⟨⟨hv, _⟩, _⟩ := hv
  have hl : ∀ e ∈ r.line x, e.1 ∈ r.vocab.words ∧ e.2 ∈ r.vocab.blanks := by
    intro e he
    obtain ⟨p, hp, rfl⟩ := List.mem_map.mp he
    refine ⟨?_, by simp [PhraseLang.vocab]⟩
    simp only [PhraseLang.vocab, List.mem_append]
    cases hq : r.odd.lookup p with
    | some ks => exact .inr (List.mem_map.mpr ⟨(p, ks), lookup_mem hq, rfl⟩)
    | none =>
      refine .inl (List.mem_map.mpr ⟨p, ?_, rfl⟩)
      refine List.mem_filter.mpr ⟨hx p hp, ?_⟩
      simp only [decide_eq_true_eq]
      intro hm
      obtain ⟨b, hb⟩ := lookup_some hm
      rw [hb] at hq
      cases hq
  obtain ⟨m, hm⟩ : ∃ m, partsOf r.code = some m := by
    cases hm : partsOf r.code with
    | none => simp [Vocab.right, hm] at hv
    | some m => exact ⟨m, rfl⟩
  have hv' := hv
  simp only [Vocab.right, hm, Bool.and_eq_true, List.all_eq_true, decide_eq_true_eq] at hv'
  have hwa : ∀ p ∈ x, ∀ c ∈ p.text, c.toNat < 128 := by
    intro p hp
    have h1 := hl _ (List.mem_map_of_mem (f := fun p => ((Phrase.text p, (r.odd.lookup p).getD (Phrase.spans 0 p)), ('\n', [(0, 1)]))) hp)
    exact (hv'.1.2 _ h1.1).1.2
  have hta : ∀ c ∈ phraseText x, c.toNat < 128 := by
    clear hx h hl
    induction x with
    | nil => intro c hc; cases hc
    | cons p x ih =>
      intro c hc
      simp only [phraseText, List.mem_append, List.mem_cons] at hc
      rcases hc with hc | rfl | hc
      · exact hwa p (by simp) c hc
      · decide
      · exact ih (fun e he => hwa e (by simp [he])) c hc
  have hp : r.whole = true → Piece src (phraseText x) := by
    intro hw
    rcases h.2 hw with rfl | rfl
    · exact strSource_piece _
    · exact textSource_piece hta
  refine ⟨_, vocab_sound (u := u) (supply_linked h.1.1 h.1.2 (longChunks_zero _ _) (cutsAligned_zero h.1.1)) hp hv (r.line x) hl (phrase_line_text r x).symm ω, ?_⟩
  have := phrase_line_toks r x (fun p hp => ascii_len (hwa p hp)) 0
  simpa using this

/-- Phrases of the language that its lexer does not cut otherwise, on lines of their own, in any order: their elements and the
line breaks are the tokens. Missing: the phrases listed in `odd`, and phrases other than those of the tables. -/
theorem C93_phrases_partial {r : PhraseLang} (hr : r ∈ phraseLangs) {x : List Phrase}
    (hx : ∀ p ∈ x, p ∈ r.phrases ∧ p ∉ r.odd.map (·.1)) {src : Source} (h : r.Reads src (phraseText x)) (u : Uni) (ω : Nat → Nat) :
    ∃ toks, scanAll src u ω r.code = .ok toks ∧
      toks.map (fun t => (t.start, t.stop)) = phraseSpans 0 x ++ if r.eof then [(blen (phraseText x), blen (phraseText x))] else [] := by
  obtain ⟨toks, h1, h2⟩ := C93_cut hr (fun p hp => (hx p hp).1) h u ω
  refine ⟨toks, h1, h2.trans ?_⟩
  have key : ∀ o, r.cut o x = phraseSpans o x ++ if r.eof then [(o + blen (phraseText x), o + blen (phraseText x))] else [] := by
    clear h h1 h2
    induction x with
    | nil => intro o; simp [PhraseLang.cut, phraseSpans, phraseText, blen]
    | cons p x ih =>
      intro o
      have hn : ('\n').utf8Size = 1 := by decide
      simp only [PhraseLang.cut, phraseSpans, phraseText, blen_append, blen_cons, hn, lookup_none (hx p (by simp)).2, ih (fun e he => hx e (by simp [he])),
        Option.getD_none, spans_shift]
      simp [Nat.add_assoc]
  simpa using key 0

/-- Every phrase listed in `odd` is a phrase of the language, and wherever it stands among phrases of the language, there is an
element of it that is no token. -/
theorem C93_odd {r : PhraseLang} (hr : r ∈ phraseLangs) {p : Phrase} (hp : p ∈ r.odd.map (·.1)) :
    p ∈ r.phrases ∧ ∀ (y z : List Phrase), (∀ q ∈ y ++ p :: z, q ∈ r.phrases) → ∀ (src : Source), r.Reads src (phraseText (y ++ p :: z)) →
      ∀ (u : Uni) (ω : Nat → Nat), ∃ toks, scanAll src u ω r.code = .ok toks ∧
        ∃ s ∈ p.spans (blen (phraseText y)), ∀ t ∈ toks, ¬ (t.start = s.1 ∧ t.stop = s.2) := by
  have hv := phraseLangs_right r hr
  simp only [PhraseLang.right, Bool.and_eq_true, List.all_eq_true, decide_eq_true_eq, List.any_eq_true] at hv
  obtain ⟨⟨_, hn⟩, ho⟩ := hv
  have hn' : ∀ q ∈ r.phrases, ∀ w ∈ q, 0 < blen w := by
    intro q hq w hw
    obtain ⟨h1, h2⟩ := hn q hq w hw
    cases w with
    | nil => cases h1
    | cons c w => rw [h2]; simp
  have hpm : p ∈ r.phrases := by
    obtain ⟨e, he, rfl⟩ := List.mem_map.mp hp
    exact (ho e he).1.1
  refine ⟨hpm, fun y z hx src h u ω => ?_⟩
  obtain ⟨toks, h1, h2⟩ := C93_cut hr hx h u ω
  obtain ⟨ks, hks⟩ := lookup_some hp
  obtain ⟨⟨_, hin⟩, s, hs, hsn⟩ := ho _ (lookup_mem hks)
  have hb := spans_within p 0 s hs
  have hpos := spans_pos (hn' p hpm) 0 s hs
  refine ⟨toks, h1, (blen (phraseText y) + s.1, blen (phraseText y) + s.2), ?_, fun t ht hc => ?_⟩
  · rw [← Nat.add_zero (blen (phraseText y)), ← spans_shift]
    exact List.mem_map.mpr ⟨s, hs, rfl⟩
  have hm : (t.start, t.stop) ∈ r.cut 0 (y ++ p :: z) := by rw [← h2]; exact List.mem_map.mpr ⟨t, ht, rfl⟩
  rw [hc.1, hc.2] at hm
  have nl : ('\n').utf8Size = 1 := by decide
  have later : ∀ (z : List Phrase) o s, s ∈ r.cut o z → o ≤ s.1 := by
    intro z
    induction z with
    | nil => intro o s hs; simp only [PhraseLang.cut] at hs; split at hs <;> simp_all
    | cons e z ih =>
      intro o s hs
      simp only [PhraseLang.cut, List.mem_append, List.mem_map, List.mem_cons] at hs
      rcases hs with ⟨k, _, rfl⟩ | rfl | hs
      · simp
      · simp
      · have := ih _ _ hs; omega
  have key : ∀ (y : List Phrase) o, (o + blen (phraseText y) + s.1, o + blen (phraseText y) + s.2) ∈ r.cut o (y ++ p :: z) → False := by
    intro y
    induction y with
    | nil =>
      intro o hq
      simp only [List.nil_append, phraseText, blen_nil, Nat.add_zero, PhraseLang.cut, List.mem_append, List.mem_map, List.mem_cons, hks,
        Option.getD_some, Prod.mk.injEq] at hq
      rcases hq with ⟨k, hk, e1, e2⟩ | ⟨e1, _⟩ | hq
      · refine hsn ?_
        have : k = s := Prod.ext (by omega) (by omega)
        rwa [this] at hk
      · omega
      · have := later _ _ _ hq
        simp only at this
        omega
    | cons e y ih =>
      intro o hq
      simp only [List.cons_append, phraseText, blen_append, blen_cons, nl, PhraseLang.cut, List.mem_append, List.mem_map, List.mem_cons,
        Prod.mk.injEq] at hq
      rcases hq with ⟨k, hk, e1, e2⟩ | ⟨e1, e2⟩ | hq
      · have : k.1 ≤ k.2 ∧ k.2 ≤ blen e.text := by
          cases hl : r.odd.lookup e with
          | none =>
            rw [hl] at hk
            have := spans_within e 0 k hk
            omega
          | some ks' =>
            rw [hl] at hk
            have := (ho _ (lookup_mem hl)).1.2 k hk
            exact ⟨by omega, this.2⟩
        omega
      · omega
      · refine ih (o + blen e.text + 1) ?_
        rw [show o + blen e.text + 1 + blen (phraseText y) = o + (blen e.text + (1 + blen (phraseText y))) by omega]
        exact hq
  exact key y 0 (by simpa using hm)

/-- Java: `f(a,b)` and `a+=1`, each on its line. -/
private def javaPhrases : List Phrase := [[['f'], ['('], ['a'], [','], ['b'], [')']], [['a'], ['+', '='], ['1']]]

example : ∃ toks, scanAll (strSource (phraseText javaPhrases)) plain (fun _ => 0) HandLex.Java.run_ = .ok toks ∧
    toks.map (fun t => (t.start, t.stop)) = [(0, 1), (1, 2), (2, 3), (3, 4), (4, 5), (5, 6), (6, 7), (7, 8), (8, 10), (10, 11), (11, 12)] :=
  C93_phrases_partial (r := javaPhr) (by simp [phraseLangs]) (x := javaPhrases) (by decide +kernel)
    ⟨(C05_chunks_contiguous _).1, by intro h; cases h⟩ plain fun _ => 0

/-- C: `1+2` is one token; Lua: after `a ` the rest of `a - b` is a comment. -/
example : cPhr.cut 0 [[['1'], ['+'], ['2']]] = [(0, 3), (3, 4)] ∧
    luaPhr.cut 0 [[['a'], [' '], ['-'], [' '], ['b']]] = [(0, 1), (1, 2), (2, 5), (5, 6)] := by decide +kernel

end Oaks.Props
