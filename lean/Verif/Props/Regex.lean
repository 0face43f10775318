import Verif.Proofs.RegexLex
import Verif.Proofs.RegexBuild
import Verif.Proofs.Diagnostic
import Verif.Props.Cursor
import Verif.Props.Flat

/-! # C78: regular expressions -/

namespace Oaks.Props
open Oaks Oaks.Spec

/-- No operator comes next. -/
theorem stops_of {rest : List Tok} (h : ∀ d ∈ rest.head?, ¬ RegexOp d) : Regex.Stops 0 rest := by
  intro d hd
  have := h d hd
  simp [RegexOp] at this
  exact ⟨fun h => by tauto, fun h => by tauto⟩

/-- White space as in the examples: the blank alone. -/
def blankOnly (c : Char) : Bool := c == ' '

theorem blankOnly_ws : RegexWs blankOnly := by unfold RegexWs; decide

/-- A text in rows of regular expressions — white space, comments, signs, whole classes and repetitions, escapes, characters — gives one
token for each piece with a kind, where the piece is, and the end of the file.

Missing for C78: classes and repetitions that are not closed (`C78_overlap`); commas and closing braces outside of repetitions have no
token (`C78_lost`). -/
theorem C78_lex_partial {ws : Char → Bool} (hw : RegexWs ws) {src : Source} {t : Str} (h : AnySource src t) {ps : List (Option Nat × Str)}
    (hc : Rows (RegexRow ws) t ps) : Regex.lex ws src = .ok (tokensOf 0 ps ++ [⟨Regex.eof, blen t, blen t⟩]) := by
  have hs := supply_linked h.1 h.2 (longChunks_zero src t) (cutsAligned_zero h.1)
  obtain ⟨h1, h2⟩ := Scn.lex_at hs (Regex.step ws) Regex.eof (Scn.cut_rows (fun _ hb => Regex.row_turn hw hb) hc)
  rw [List.append_nil] at h1
  rw [← h1] at h2
  exact h2

/-- Every text without `[` and `{` is of that kind, so the lexer ends on it. -/
theorem C78_lex_total {ws : Char → Bool} (hw : RegexWs ws) {src : Source} {t : Str} (h : AnySource src t) (hb : '[' ∉ t ∧ '{' ∉ t) :
    ∃ ps, Rows (RegexRow ws) t ps ∧ Regex.lex ws src = .ok (tokensOf 0 ps ++ [⟨Regex.eof, blen t, blen t⟩]) := by
  obtain ⟨ps, hp⟩ := Regex.rows_exist (B := RegexRow ws) (G := fun t => ∀ c ∈ t, c ≠ '[' ∧ c ≠ '{')
    (fun m r hg c hc => hg c (List.mem_append_right _ hc)) (fun t h0 hg => Regex.row_exists h0 hg)
    (t := t) (fun c hc => ⟨fun h => hb.1 (h ▸ hc), fun h => hb.2 (h ▸ hc)⟩)
  exact ⟨ps, hp, C78_lex_partial hw h hp⟩

/-- A text is cut in one way only. -/
theorem C78_one_cut {ws : Char → Bool} (hw : RegexWs ws) {t : Str} {ps ps' : List (Option Nat × Str)} (h : Rows (RegexRow ws) t ps)
    (h' : Rows (RegexRow ws) t ps') : ps = ps' := by
  have := (Scn.cut_rows (fun _ hb => Regex.row_turn hw hb) h).symm.trans (Scn.cut_rows (fun _ hb => Regex.row_turn hw hb) h')
  simpa using this

/-- The text `[^é\]]{2}` is one of these. -/
theorem regexExample : Rows (RegexRow blankOnly) "[^é\\]]{2}".toList
    [(some Regex.lbrack, "[".toList), (some Regex.hat, "^".toList), (some Regex.character, "é".toList), (some Regex.backslash, "\\".toList),
      (some Regex.character, "]".toList), (some Regex.rbrack, "]".toList), (some Regex.lbrace, "{".toList), (some Regex.digit, "2".toList),
      (some Regex.rbrace, "}".toList)] :=
  Rows.cons (rest := "{2}".toList) (by decide)
    (RegexRow.notCls (row := [(some Regex.character, "é".toList), (some Regex.backslash, "\\".toList), (some Regex.character, "]".toList)])
      (.plain (by decide) (by decide) (.escaped .nil)))
    (Rows.cons (rest := []) (by decide) (RegexRow.brace (row := [(some Regex.digit, "2".toList)]) (.digit (by decide) (by decide) .nil)) .nil)

example {src : Source} (h : AnySource src "[^é\\]]{2}".toList) :
    Regex.lex blankOnly src = .ok [⟨Regex.lbrack, 0, 1⟩, ⟨Regex.hat, 1, 2⟩, ⟨Regex.character, 2, 4⟩, ⟨Regex.backslash, 4, 5⟩,
      ⟨Regex.character, 5, 6⟩, ⟨Regex.rbrack, 6, 7⟩, ⟨Regex.lbrace, 7, 8⟩, ⟨Regex.digit, 8, 9⟩, ⟨Regex.rbrace, 9, 10⟩, ⟨Regex.eof, 10, 10⟩] :=
  C78_lex_partial blankOnly_ws h regexExample

example : '[' ∉ "a|(é*)".toList ∧ '{' ∉ "a|(é*)".toList := by decide

/-- A class that is not closed has its tokens, and one more token over all of them. -/
theorem C78_overlap : Regex.lex blankOnly (textSource "[ab".toList) = .ok [⟨Regex.lbrack, 0, 1⟩, ⟨Regex.character, 1, 2⟩,
    ⟨Regex.character, 2, 3⟩, ⟨Regex.error, 0, 3⟩, ⟨Regex.eof, 3, 3⟩] := by decide +kernel

/-- Commas and closing braces have no token. -/
theorem C78_lost : Regex.lex blankOnly (textSource "a,b}".toList) = .ok [⟨Regex.character, 0, 1⟩, ⟨Regex.character, 2, 3⟩, ⟨Regex.eof, 4, 4⟩] := by
  decide +kernel

/-! ### The parser -/

/-- The parser always ends. -/
theorem C78_ends (toks : List Tok) (n : Nat) : Regex.parseTokens toks n ≠ .error .spin := Regex.parse_ends toks n

/-- Alternatives of characters and groups: the tree has their tokens as leaves, in order, no error is recorded, and what comes after them
is not in the tree.

Missing for C78: repetitions (`C78_repeat`, `C78_panic`), classes and escapes (`C78_class`), and that something was left out is not said. -/
theorem C78_alternatives_partial {u v rest : List Tok} {n : Nat} (hu : Alternatives false u) (hv : Alternatives true v)
    (hr : ∀ d ∈ rest.head?, ¬ RegexOp d) (hl : tokBytes (u ++ v) < 2 ^ 32) :
    ∃ cs, Regex.parseTokens (u ++ v ++ rest) n = .ok (.node Regex.pattern (tokBytes (u ++ v)) cs, []) ∧
      leavesOfList cs = (u ++ v).map kindLen :=
  Regex.parse_alternatives hu hv (stops_of hr) hl

/-- `(a|b)` and `c` after it: the `c` is dropped. -/
example : ∃ cs, Regex.parseTokens [⟨Regex.lparen, 0, 1⟩, ⟨Regex.character, 1, 2⟩, ⟨Regex.pipe, 2, 3⟩, ⟨Regex.character, 3, 4⟩,
    ⟨Regex.rparen, 4, 5⟩, ⟨Regex.character, 5, 6⟩] 6 = .ok (.node Regex.pattern 5 cs, []) ∧
    leavesOfList cs = [(Regex.lparen, 1), (Regex.character, 1), (Regex.pipe, 1), (Regex.character, 1), (Regex.rparen, 1)] :=
  C78_alternatives_partial (u := [⟨Regex.lparen, 0, 1⟩, ⟨Regex.character, 1, 2⟩, ⟨Regex.pipe, 2, 3⟩, ⟨Regex.character, 3, 4⟩,
    ⟨Regex.rparen, 4, 5⟩]) (v := []) (rest := [⟨Regex.character, 5, 6⟩])
    (.group (u := [⟨Regex.character, 1, 2⟩]) (v := [⟨Regex.pipe, 2, 3⟩, ⟨Regex.character, 3, 4⟩]) rfl (.atom (by decide))
      (.more (u := [⟨Regex.character, 3, 4⟩]) (v := []) rfl (.atom (by decide)) .none) rfl) .none (by decide) (by decide)

/-- What is repeated is in the tree twice: the tree is longer than the text. -/
theorem C78_repeat {u rest : List Tok} {q : Tok} {n : Nat} (hu : Alternatives false u) (hq : q.kind ∈ [Regex.question, Regex.star, Regex.plus])
    (hr : ∀ d ∈ rest.head?, ¬ RegexOp d) (hl : tokBytes u + tokBytes u + q.length < 2 ^ 32) :
    ∃ cs, Regex.parseTokens (u ++ q :: rest) n = .ok (.node Regex.pattern (tokBytes u + tokBytes u + q.length) cs, []) ∧
      leavesOfList cs = (u ++ u ++ [q]).map kindLen := by
  unfold Regex.parseTokens PState.new
  rw [Regex.skipTrivia_eq, run_bind_ok]
  have h1 := Regex.alternatives_at hu
  simp only [Bool.false_eq_true, if_false] at h1
  obtain ⟨e1, s1, g1, t1, c1⟩ := h1 ((u ++ q :: rest).length + 1) ⟨u ++ q :: rest, 0, [], 0, none, [], n⟩ (q :: rest)
    (by simp; omega) (by simp) (by change tokBytes u < _; omega)
  have hd : s1.tokens.drop s1.index = q :: rest := by
    rw [t1.tokens, t1.index]; simp
  have hlq : q.length < 2 ^ 32 := by omega
  have hcl : e1.tree.len = tokBytes u := c1.len
  rw [Regex.expr, g1, run_bind_ok]
  simp only
  obtain ⟨w, hw⟩ : ∃ w, s1.tokens.length = w + 1 := ⟨s1.tokens.length - 1, by
    have := congrArg List.length hd; simp at this; omega⟩
  rw [hw, Regex.whileInfix, Regex.infix_quantifier hd hq, Nat.mod_eq_of_lt hlq, if_pos (by omega)]
  simp only [run_bind_ok]
  rw [Regex.while_stop (s := { s1 with index := _, sink := _, fresh := _ }) (rest := rest) (Regex.drop_next hd) (stops_of hr), run_bind_ok]
  simp only
  rw [PState.checkpoint, show ([] : List Entry).length = 0 from rfl, Regex.finishAt_root rfl]
  simp only [t1.sink, List.nil_append, List.cons_append, List.map_cons, List.map_nil]
  have hsum : lenSum [e1.tree, Green.node Regex.pattern (e1.tree.len + q.length) [e1.tree, (Regex.leafEntry q).tree]] =
      tokBytes u + tokBytes u + q.length := by
    simp only [lenSum_cons, lenSum_nil, hcl]
    show tokBytes u + (tokBytes u + q.length + 0) = _
    omega
  rw [hsum, if_pos hl]
  refine ⟨_, by rw [run_bind_ok]; simp only [t1.errors]; rfl, ?_⟩
  simp [leavesOfList, leavesOf, c1.leaves, Regex.leafEntry, Nat.mod_eq_of_lt hlq]
  rfl

example : ∃ cs, Regex.parseTokens [⟨Regex.character, 0, 1⟩, ⟨Regex.star, 1, 2⟩] 2 = .ok (.node Regex.pattern 3 cs, []) ∧
    leavesOfList cs = [(Regex.character, 1), (Regex.character, 1), (Regex.star, 1)] :=
  C78_repeat (u := [⟨Regex.character, 0, 1⟩]) (rest := []) (.atom (by decide)) (by decide) (by decide) (by decide)

/-- `n` groups around `a`, each repeated: `((a*)*)*` for 2. -/
def starText : Nat → Str
  | 0 => ['a', '*']
  | n + 1 => '(' :: starText n ++ [')', '*']

/-- The kinds of the characters of such a text. -/
private def starKind (c : Char) : Nat :=
  if c = 'a' then Regex.character else if c = '*' then Regex.star else if c = '(' then Regex.lparen else Regex.rparen

private theorem star_chars (n : Nat) : ∀ c ∈ starText n, c = 'a' ∨ (c, starKind c) ∈ regexMarks := by
  induction n with
  | zero => decide
  | succ n ih =>
    intro c hc
    simp only [starText, List.cons_append, List.mem_cons, List.mem_append, List.not_mem_nil, or_false] at hc
    rcases hc with rfl | hc | rfl | rfl
    · decide
    · exact ih c hc
    · decide
    · decide

private theorem star_rows {ws : Char → Bool} (ha : ws 'a' = false) {t : Str} (ht : ∀ c ∈ t, c = 'a' ∨ (c, starKind c) ∈ regexMarks) :
    Rows (RegexRow ws) t (t.map fun c => (some (starKind c), [c])) := by
  induction t with
  | nil => exact .nil
  | cons c t ih =>
    have hb : RegexRow ws [(some (starKind c), [c])] t := by
      rcases ht c (by simp) with rfl | h
      · exact .plain ha (by decide)
      · exact .mark h
    exact Rows.cons (row := [(some (starKind c), [c])]) (by simp) hb (ih fun c hc => ht c (by simp [hc]))

private theorem one_kinds (f : Char → Nat) (t : Str) (p : Nat) :
    (tokensOf p (t.map fun c => (some (f c), [c]))).map (·.kind) = t.map f := by
  induction t generalizing p with
  | nil => rfl
  | cons c t ih => simp [tokensOf, ih]

private theorem one_lengths (f : Char → Nat) (t : Str) (p : Nat) :
    ∀ k ∈ tokensOf p (t.map fun c => (some (f c), [c])), 0 < k.length ∧ k.length < 2 ^ 32 := by
  induction t generalizing p with
  | nil => simp [tokensOf]
  | cons c t ih =>
    intro k hk
    simp only [List.map_cons, tokensOf, List.mem_cons] at hk
    rcases hk with rfl | hk
    · have := Char.utf8Size_pos c
      have := Char.utf8Size_le_four c
      simp [Tok.length, blen]
      omega
    · exact ih _ k hk

private theorem len_two {ts : List Tok} (h : ts.length = 2) : ∃ a b, ts = [a, b] := by
  match ts, h with
  | [a, b], _ => exact ⟨a, b, rfl⟩

private theorem star_starred (n : Nat) (ts : List Tok) (h : ts.map (·.kind) = (starText n).map starKind) : Starred n ts := by
  induction n generalizing ts with
  | zero =>
    obtain ⟨a, b, rfl⟩ : ∃ a b, ts = [a, b] := by
      have := congrArg List.length h
      simp [starText] at this
      exact len_two this
    simp [starText] at h
    exact .zero h.1 (by rw [h.2]; decide)
  | succ n ih =>
    rw [starText, List.cons_append, List.map_cons, List.map_eq_cons_iff] at h
    obtain ⟨l, us, rfl, hl, h⟩ := h
    rw [List.map_append, List.map_eq_append_iff] at h
    obtain ⟨vs, ws, rfl, hv, hx⟩ := h
    obtain ⟨a, b, rfl⟩ : ∃ a b, ws = [a, b] := by
      have := congrArg List.length hx
      simp at this
      exact len_two this
    simp at hx
    exact .succ hl (ih vs hv) hx.1 (by rw [hx.2]; decide)

/-- With thirty groups or more the parser panics. -/
theorem C78_panic {ws : Char → Bool} (hw : RegexWs ws) (ha : ws 'a' = false) {src : Source} {n : Nat} (hn : 30 ≤ n)
    (h : AnySource src (starText n)) : Regex.parse ws src = .error .panic := by
  unfold Regex.parse
  rw [C78_lex_partial hw h (star_rows ha (star_chars n)), run_bind_ok]
  exact Regex.parse_starred (star_starred n _ (one_kinds _ _ _)) hn (one_lengths _ _ _) (stops_of (by simp [RegexOp]; decide))

/-- That is a text of 92 characters. -/
example : blen (starText 30) = 92 := by decide

/-- The characters of a class are not in the tree. -/
theorem C78_class : Regex.parse blankOnly (textSource "[ab]".toList) = .ok (.node Regex.pattern 2 [.node Regex.pattern 2
    [.leaf Regex.lbrack 1 none, .leaf Regex.rbrack 1 none]], []) := by
  have h : Regex.lex blankOnly (textSource "[ab]".toList) = .ok [⟨Regex.lbrack, 0, 1⟩, ⟨Regex.character, 1, 2⟩, ⟨Regex.character, 2, 3⟩,
      ⟨Regex.rbrack, 3, 4⟩, ⟨Regex.eof, 4, 4⟩] := by decide +kernel
  unfold Regex.parse
  rw [h, run_bind_ok]
  rfl

/-! ### The builder -/

/-- The builder succeeds on tokens that begin with a character not followed by an operator, and no other; the result is that character,
whatever comes after it. -/
theorem C78_build {src : Source} {t : Str} (h : AnySource src t) (toks : List Tok) (ps : List Regex.Pat)
    (hlen : ∀ c ∈ toks.head?, c.length < 2 ^ 32) :
    Regex.buildTokens src toks = .ok (some ps) ↔ ∃ c rest, toks = c :: rest ∧ c.kind = Regex.character ∧ (∀ d ∈ rest.head?, ¬ RegexOp d) ∧
      ps = [⟨[.literal ((strGet t 0 c.length).getD []) 0 c.length], 0, c.length⟩] :=
  Regex.build_iff (lawful_full h.1) toks ps hlen

/-- Whatever tree it is given: a pattern is a child of the root and has its span; a literal is a character below it and has its span and its
text. -/
theorem C78_place {src : Source} {gs : List Green} {o : Nat} {ps : List Regex.Pat} (h : Regex.buildRoot src gs o = .ok (some ps)) :
    ∀ p ∈ ps, ∃ n cs, ChildAt gs o (.node Regex.pattern n cs) p.start ∧ p.stop = p.start + n ∧
      ∀ v a b, Regex.Element.literal v a b ∈ p.elements →
        ∃ n m, ChildAt cs p.start (.leaf Regex.character n m) a ∧ b = a + n ∧ src.textIn a b = .ok v :=
  Regex.root_place h

example : Regex.buildRoot (textSource " aé".toList) [.leaf Regex.whitespace 1 none, .node Regex.pattern 3 [.leaf Regex.character 1 none,
    .leaf Regex.character 2 none]] 0 = .ok (some [⟨[.literal "a".toList 1 2, .literal "é".toList 2 4], 1, 4⟩]) := by decide +kernel

/-- A text of two or more ordinary characters is built as its first one. -/
theorem C78_first {ws : Char → Bool} (hw : RegexWs ws) {src : Source} {a b : Char} {r : Str} (h : AnySource src (a :: b :: r))
    (ha : ws a = false ∧ a ∉ "#[*+?{()^$\\.|},".toList) (hb : ws b = false ∧ b ∉ "#[*+?{()^$\\.|},".toList) (hr : '[' ∉ r ∧ '{' ∉ r) :
    Regex.build ws src = .ok (some [⟨[.literal [a] 0 a.utf8Size], 0, a.utf8Size⟩]) := by
  obtain ⟨ps, hp⟩ := Regex.rows_exist (B := RegexRow ws) (G := fun t => ∀ c ∈ t, c ≠ '[' ∧ c ≠ '{')
    (fun m r hg c hc => hg c (List.mem_append_right _ hc)) (fun t h0 hg => Regex.row_exists h0 hg)
    (t := r) (fun c hc => ⟨fun h => hr.1 (h ▸ hc), fun h => hr.2 (h ▸ hc)⟩)
  have hrows : Rows (RegexRow ws) (a :: b :: r) ((some Regex.character, [a]) :: (some Regex.character, [b]) :: ps) :=
    Rows.cons (row := [(some Regex.character, [a])]) (by simp) (.plain ha.1 ha.2)
      (Rows.cons (row := [(some Regex.character, [b])]) (by simp) (.plain hb.1 hb.2) hp)
  unfold Regex.build
  rw [C78_lex_partial hw h hrows, run_bind_ok]
  have hs : blen [a] = a.utf8Size := by simp [blen]
  have hl : (⟨Regex.character, 0, 0 + blen [a]⟩ : Tok).length = a.utf8Size := by simp [Tok.length, hs]
  refine (C78_build h _ _ ?_).mpr ⟨⟨Regex.character, 0, 0 + blen [a]⟩, _, rfl, rfl, ?_, ?_⟩
  · intro c hc
    have := Char.utf8Size_le_four a
    simp [tokensOf] at hc
    rw [← hc]
    simp [Tok.length]
    omega
  · intro d hd
    simp [tokensOf] at hd
    rw [← hd]
    simp [RegexOp]
    decide
  · have hg : strGet (a :: b :: r) 0 a.utf8Size = some [a] := strGet_ok' (l := []) (m := [a]) (r := b :: r) rfl rfl (by simp [blen])
    rw [hl, hg]
    rfl

example : Regex.build blankOnly (textSource "abc".toList) = .ok (some [⟨[.literal "a".toList 0 1], 0, 1⟩]) :=
  C78_first blankOnly_ws (C05_chunks_contiguous _).2.1 (by decide) (by decide) (by decide)

/-- The comma has no token, and the literal is the comma. -/
theorem C78_comma : Regex.build blankOnly (textSource ",abc".toList) = .ok (some [⟨[.literal ",".toList 0 1], 0, 1⟩]) := by decide +kernel

end Oaks.Props
