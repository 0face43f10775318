import Verif.Proofs.IniParse
import Verif.Props.Cursor
import Verif.Props.Flat

/-! # C81: INI -/

namespace Oaks.Props
open Oaks Oaks.Spec

/-- A text that is cut, from left to right, into the pieces of INI gives one token for each piece with a kind, where the piece is, and
the end of the file.

Missing for C81: texts in which a backslash stands before a character of several bytes (`C81_escape`). -/
theorem C81_lex_partial {src : Source} {t : Str} (h : AnySource src t) {ps : List (Option Nat × Str)} (hc : Cut IniToken t ps) :
    Ini.lex src = .ok (tokensOf 0 ps ++ [⟨Ini.eof, blen t, blen t⟩]) := by
  have hs := supply_linked h.1 h.2 (longChunks_zero src t) (cutsAligned_zero h.1)
  obtain ⟨h1, h2⟩ := Scn.lex_at hs Ini.step Ini.eof (Scn.cut_of Ini.token_turn hc)
  rw [List.append_nil] at h1
  rw [← h1] at h2
  exact h2

/-- Every text without such a backslash is cut in that way, so the lexer ends on it. -/
theorem C81_cut {t : Str} (ha : IniEscapes t) : ∃ ps, Cut IniToken t ps := by
  refine cut_exists (P := IniToken) (G := IniEscapes) (fun m r hg => ?_) (fun t h0 hg => Ini.token_exists h0 hg) ha
  intro a e b hr
  exact hg (m ++ a) e b (by rw [hr]; simp)

/-- A text is cut in one way only. -/
theorem C81_one_cut {t : Str} {ps ps' : List (Option Nat × Str)} (h : Cut IniToken t ps) (h' : Cut IniToken t ps') : ps = ps' := by
  have := (Scn.cut_of Ini.token_turn h).symm.trans (Scn.cut_of Ini.token_turn h')
  simpa using this

/-- The text `[a]` `x = -1.5 ; é` is one of these. -/
theorem iniExample : Cut IniToken "[a]\nx = -1.5 ; é".toList
    [(some Ini.leftBracket, "[".toList), (some Ini.identifier, "a".toList), (some Ini.rightBracket, "]".toList), (some Ini.newline, "\n".toList),
      (some Ini.identifier, "x".toList), (some Ini.whitespace, " ".toList), (some Ini.equal, "=".toList), (some Ini.whitespace, " ".toList),
      (some Ini.float, "-1.5".toList), (some Ini.whitespace, " ".toList), (some Ini.comment, "; é".toList)] := by
  refine .step "a]\nx = -1.5 ; é".toList (by decide) (by decide) (IniToken.open1 (by decide)) ?_
  refine .step "]\nx = -1.5 ; é".toList (by decide) (by decide) (IniToken.word (c := 'a') (m := []) (by decide) (by decide)) ?_
  refine .step "\nx = -1.5 ; é".toList (by decide) (by decide) (IniToken.close1 (by decide)) ?_
  refine .step "x = -1.5 ; é".toList (by decide) (by decide) IniToken.newline ?_
  refine .step " = -1.5 ; é".toList (by decide) (by decide) (IniToken.word (c := 'x') (m := []) (by decide) (by decide)) ?_
  refine .step "= -1.5 ; é".toList (by decide) (by decide) (IniToken.blank (by decide) (by decide)) ?_
  refine .step " -1.5 ; é".toList (by decide) (by decide) (IniToken.mark (by decide)) ?_
  refine .step "-1.5 ; é".toList (by decide) (by decide) (IniToken.blank (by decide) (by decide)) ?_
  refine .step " ; é".toList (by decide) (by decide) (IniToken.number (sign := ['-']) (ds := ['1']) (fraction := ".5".toList) (exponent := [])
    (by decide) (by decide) (by unfold Digits; decide) (.inr ⟨['5'], rfl, by unfold Digits; decide⟩) (.inl rfl) (by unfold IniNumberEnds; decide)) ?_
  refine .step "; é".toList (by decide) (by decide) (IniToken.blank (by decide) (by decide)) ?_
  refine .step [] (by decide) (by decide) (IniToken.comment (m := " é".toList) (by decide) (by decide)) .nil

example {src : Source} (h : AnySource src "[a]\nx = -1.5 ; é".toList) :
    Ini.lex src = .ok [⟨Ini.leftBracket, 0, 1⟩, ⟨Ini.identifier, 1, 2⟩, ⟨Ini.rightBracket, 2, 3⟩, ⟨Ini.newline, 3, 4⟩, ⟨Ini.identifier, 4, 5⟩,
      ⟨Ini.whitespace, 5, 6⟩, ⟨Ini.equal, 6, 7⟩, ⟨Ini.whitespace, 7, 8⟩, ⟨Ini.float, 8, 12⟩, ⟨Ini.whitespace, 12, 13⟩, ⟨Ini.comment, 13, 17⟩,
      ⟨Ini.eof, 17, 17⟩] := C81_lex_partial h iniExample

/-- The colon between key and value has no token. -/
theorem C81_colon : Ini.lex (textSource "a:1".toList) = .ok [⟨Ini.identifier, 0, 1⟩, ⟨Ini.integer, 2, 3⟩, ⟨Ini.eof, 3, 3⟩] := by decide +kernel

/-- Nested arrays are taken for headers of tables. -/
theorem C81_nested : Ini.lex (textSource "a=[[1]]".toList) = .ok [⟨Ini.identifier, 0, 1⟩, ⟨Ini.equal, 1, 2⟩, ⟨Ini.doubleLeftBracket, 2, 4⟩,
    ⟨Ini.integer, 4, 5⟩, ⟨Ini.doubleRightBracket, 5, 7⟩, ⟨Ini.eof, 7, 7⟩] := by decide +kernel

/-- A string with an escaped accented letter ends before its quote, and the quote begins another string. -/
theorem C81_escape : Ini.lex (textSource "\"\\é\"".toList) = .ok [⟨Ini.string, 0, 4⟩, ⟨Ini.string, 4, 5⟩, ⟨Ini.eof, 5, 5⟩] := by decide +kernel

/-! ### The parser, from any tokens -/

private theorem ign_iff (k : Nat) : Ini.ign k = decide (IniTrivia k) := by
  unfold Ini.ign IniTrivia
  by_cases h1 : k = Ini.whitespace <;> by_cases h2 : k = Ini.newline <;> by_cases h3 : k = Ini.comment <;> simp [h1, h2, h3]

private theorem flat_kinds {gs : List Group} (hg : Grouped Ini.ign gs) :
    ((flat gs).map (·.1)).filter (fun k => decide (¬ IniTrivia k)) = Prs.kinds gs := by
  induction gs with
  | nil => rfl
  | cons g gs ih =>
    have h1 := (hg g List.mem_cons_self)
    have h2 : (g.2.map (·.1)).filter (fun k => decide (¬ IniTrivia k)) = [] := by
      rw [List.filter_eq_nil_iff]
      intro k hk
      obtain ⟨t, ht, rfl⟩ := List.mem_map.mp hk
      have := h1.2 t ht
      rw [ign_iff] at this
      simpa using this
    have h3 : ¬ IniTrivia g.1.1 := by have := h1.1; rw [ign_iff] at this; simpa using this
    rw [show flat (g :: gs) = g.1 :: (g.2 ++ flat gs) from rfl, List.map_cons, List.map_append, List.filter_cons_of_pos (by simpa using h3),
      List.filter_append, h2, ih hg.tail]
    rfl

private theorem significant_eq {toks : List Tok} {tri : List (Nat × Nat)} {gs : List Group} (h : toks.map Tok.kl = tri ++ flat gs)
    (ht : ∀ t ∈ tri, Ini.ign t.1 = true) (hg : Grouped Ini.ign gs) : iniSignificant toks = Prs.kinds gs := by
  have h1 : toks.map Tok.kind = (toks.map Tok.kl).map (·.1) := by simp [Tok.kl]
  have h2 : (tri.map (·.1)).filter (fun k => decide (¬ IniTrivia k)) = [] := by
    rw [List.filter_eq_nil_iff]
    intro k hk
    obtain ⟨t, ht', rfl⟩ := List.mem_map.mp hk
    have := ht t ht'
    rw [ign_iff] at this
    simpa using this
  rw [iniSignificant, h1, h, List.map_append, List.filter_append, h2, flat_kinds hg]
  rfl

private theorem leading {toks : List Tok} {tri : List (Nat × Nat)} {gs : List Group} (h : toks.map Tok.kl = tri ++ flat gs)
    (ht : ∀ t ∈ tri, Ini.ign t.1 = true) (hg : Grouped Ini.ign gs) :
    (toks.dropWhile (fun t => decide (IniTrivia t.kind))).map kindLen = flat gs := by
  have h1 : (toks.dropWhile (fun t => decide (IniTrivia t.kind))).map kindLen = (toks.map Tok.kl).dropWhile (fun t => decide (IniTrivia t.1)) := by
    rw [List.dropWhile_map]; rfl
  rw [h1, h, List.dropWhile_append]
  have h2 : tri.dropWhile (fun t => decide (IniTrivia t.1)) = [] := by
    clear h h1
    induction tri with
    | nil => rfl
    | cons t tri ih =>
      have := ht t (by simp)
      rw [ign_iff] at this
      rw [List.dropWhile_cons, if_pos this, ih fun x hx => ht x (by simp [hx])]
  rw [h2]
  simp only [List.isEmpty_nil, if_true]
  cases gs with
  | nil => rfl
  | cons g gs =>
    have := (hg g List.mem_cons_self).1
    rw [ign_iff] at this
    rw [show flat (g :: gs) = g.1 :: (g.2 ++ flat gs) from rfl, List.dropWhile_cons, if_neg (by simpa using this)]

private theorem groups_le {toks : List Tok} {tri : List (Nat × Nat)} {gs : List Group} (h : toks.map Tok.kl = tri ++ flat gs) : gs.length ≤ toks.length := by
  have h1 := length_le_flat gs
  have h2 := congrArg List.length h
  simp at h2
  omega

/-- From tokens that are a document, and only from these, the parser makes a tree: nothing is reported, and the leaves are the tokens in
order, from the first that is neither blank nor a comment. From all other tokens it makes none, and reports one error. -/
theorem C81_accepts {toks : List Tok} {n : Nat} (hl : tokBytes toks < 2 ^ 32) :
    (IniDocument (iniSignificant toks) → ∃ w cs, Ini.parseTokens toks n = .ok (some (.node Ini.root w cs), []) ∧
      leavesOfList cs = (toks.dropWhile (fun t => decide (IniTrivia t.kind))).map kindLen) ∧
    (¬ IniDocument (iniSignificant toks) → ∃ e, Ini.parseTokens toks n = .ok (none, [e])) := by
  obtain ⟨tri, r, a, rest, cs, es, h1, h2, h3, h4, h5, _, _, h6⟩ := Prs.parse_run (ign := Ini.ign) (strict := true) (root := Ini.root) (n := n)
    (p := Prs.loop_ (Ini.rootTurn (Ini.parseValue (toks.length + 1)))) hl
    (R := fun r a rest cs es => ((r = some () → es = [] ∧ rest = [] ∧ IniDocument (Prs.kinds a)) ∧ (r = none → es.length = 1)) ∧
      (IniDocument (Prs.kinds (a ++ rest)) → r = some ())) (by
        intro tri gs h1 h2 h3
        by_cases hd : IniDocument (Prs.kinds gs)
        · have hrun := Ini.root_exact (pre := tri) (value := Ini.parseValue (toks.length + 1)) (a0 := gs) (rest0 := []) hd (by simp [headKind])
            fun pre' a' rest' hlen hv => Ini.parseValue_exact _ _ _ _ (by have := groups_le h1; omega) hv
          rw [List.append_nil] at hrun
          refine .mono hrun ?_
          rintro r a rest cs es _ ⟨rfl, rfl, _, h⟩
          obtain ⟨rfl, rfl⟩ := h (by simp [headKind])
          exact ⟨⟨fun _ => ⟨rfl, rfl, hd⟩, by simp⟩, fun _ => rfl⟩
        · refine .mono (Ini.root_sound fun pre' gs' hlen => Ini.parseValue_sound _ _ _ (by have := groups_le h1; omega)) ?_
          intro r a rest cs es he h
          exact ⟨h, fun h' => absurd (he ▸ h') hd⟩)
  have hs := significant_eq h1 h2 h3
  unfold Ini.parseTokens
  rw [h4, hs]
  refine ⟨fun hd => ?_, fun hd => ?_⟩
  · obtain rfl := h5.2 hd
    obtain ⟨rfl, rfl, _⟩ := h5.1.1 rfl
    refine ⟨_, cs, rfl, ?_⟩
    rw [h6 rfl, leading h1 h2 h3, List.append_nil]
  · cases r with
    | some x =>
      obtain ⟨rfl, rfl, h⟩ := h5.1.1 rfl
      exact absurd (by simpa using h) hd
    | none =>
      obtain ⟨e, rfl⟩ := List.length_eq_one_iff.mp (h5.1.2 rfl)
      exact ⟨e, rfl⟩

/-- For example `[a]` `x = -1.5 ; é`, if there were no token for the end of the file. -/
example (n : Nat) : ∃ w cs, Ini.parseTokens [⟨Ini.leftBracket, 0, 1⟩, ⟨Ini.identifier, 1, 2⟩, ⟨Ini.rightBracket, 2, 3⟩, ⟨Ini.newline, 3, 4⟩,
      ⟨Ini.identifier, 4, 5⟩, ⟨Ini.equal, 6, 7⟩, ⟨Ini.float, 8, 12⟩] n = .ok (some (.node Ini.root w cs), []) ∧
      leavesOfList cs = [(Ini.leftBracket, 1), (Ini.identifier, 1), (Ini.rightBracket, 1), (Ini.newline, 1), (Ini.identifier, 1), (Ini.equal, 1),
        (Ini.float, 4)] := by
  refine (C81_accepts (by decide)).1 ⟨[], _, rfl, .noLine, IniSyntax.table (k := [Ini.identifier]) (ls := [Ini.identifier, Ini.equal, Ini.float]) (ts := [])
    (.key (.inl rfl)) (.line (p := [Ini.identifier, Ini.equal, Ini.float]) (ps := [])
      (.pair (k := [Ini.identifier]) (v := [Ini.float]) (.key (.inl rfl)) (.scalar (by decide))) .noLine) .noTable⟩

/-! ### The parser, from texts -/

private theorem syntax_no_eof {s : IniSort} {ks : List Nat} (h : IniSyntax s ks) : Ini.eof ∉ ks := by
  induction h with
  | key h => rcases h with rfl | rfl <;> decide
  | dotted h _ ih =>
    intro hm
    rcases List.mem_cons.mp hm with h' | hm
    · rcases h with rfl | rfl <;> cases h'
    · rcases List.mem_cons.mp hm with h' | hm
      · cases h'
      · exact ih hm
  | scalar h => intro hm; rw [List.mem_singleton] at hm; subst hm; revert h; decide
  | noValue | noPair | noLine | noTable => simp
  | _ => simp_all [Ini.eof, Ini.leftBracket, Ini.rightBracket, Ini.leftBrace, Ini.rightBrace, Ini.comma, Ini.equal, Ini.doubleLeftBracket,
      Ini.doubleRightBracket]

private theorem document_no_eof {ks : List Nat} (h : IniDocument ks) : Ini.eof ∉ ks := by
  obtain ⟨ls, ts, rfl, h1, h2⟩ := h
  simp [syntax_no_eof h1, syntax_no_eof h2]

private theorem tokens_le (ps : List (Option Nat × Str)) : ∀ n, tokBytes (tokensOf n ps) ≤ blen (ps.flatMap (·.2)) := by
  induction ps with
  | nil => intro n; simp [tokensOf, tokBytes]
  | cons x ps ih =>
    intro n
    obtain ⟨k, m⟩ := x
    have := ih (n + blen m)
    cases k <;> simp [tokensOf, tokBytes] at this ⊢ <;> omega

private theorem eof_le {t : Str} {ps : List (Option Nat × Str)} (hc : Cut IniToken t ps) (hl : blen t < 2 ^ 32) :
    tokBytes (tokensOf 0 ps ++ [⟨Ini.eof, blen t, blen t⟩]) < 2 ^ 32 := by
  have := tokens_le ps 0
  rw [hc.text] at this
  simp [tokBytes] at this ⊢
  omega

/-- No text is ever parsed: the token for the end of the file, which the lexer puts behind every text, is part of no document. -/
theorem C81_refused {src : Source} {t : Str} (h : AnySource src t) (he : IniEscapes t) (hl : blen t < 2 ^ 32) :
    ∃ e, Ini.parse src = .ok (none, [e]) := by
  obtain ⟨ps, hc⟩ := C81_cut he
  unfold Ini.parse
  rw [C81_lex_partial h hc]
  refine (C81_accepts (eof_le hc hl)).2 fun hd => document_no_eof hd ?_
  simp [iniSignificant, IniTrivia, Ini.eof, Ini.whitespace, Ini.newline, Ini.comment]

example {src : Source} (h : AnySource src "a=1\n".toList) : ∃ e, Ini.parse src = .ok (none, [e]) := by
  refine C81_refused h ?_ (by decide)
  intro a e b hs
  have : '\\' ∈ "a=1\n".toList := by rw [hs]; simp
  exact absurd this (by decide)

/-- The error for a document says that a key is expected, at an offset that is the number of the tokens before the end of the file. -/
theorem C81_where {src : Source} {t : Str} (h : AnySource src t) {ps : List (Option Nat × Str)} (hc : Cut IniToken t ps) (hl : blen t < 2 ^ 32)
    (hd : IniDocument (iniSignificant (tokensOf 0 ps))) : Ini.parse src = .ok (none, [⟨2, (ps.filter (·.1.isSome)).length⟩]) := by
  have hcount : ∀ n, (tokensOf n ps).length = (ps.filter (·.1.isSome)).length := by
    clear hc hd
    induction ps with
    | nil => intro n; rfl
    | cons x ps ih =>
      intro n
      obtain ⟨k, m⟩ := x
      cases k <;> simp [tokensOf, ih]
  unfold Ini.parse
  rw [C81_lex_partial h hc]
  show Ini.parseTokens _ _ = _
  have hcount0 := hcount 0
  have hle := eof_le hc hl
  generalize tokensOf 0 ps = toks at hd hcount0 hle ⊢
  obtain ⟨tri, r, a, rest, cs, es, h1, h2, h3, h4, h5, _, _, h6⟩ := Prs.parse_run (ign := Ini.ign) (strict := true) (root := Ini.root)
    (n := src.length) (p := Prs.loop_ (Ini.rootTurn (Ini.parseValue ((toks ++ [(⟨Ini.eof, blen t, blen t⟩ : Tok)]).length + 1)))) hle
    (R := fun r a rest cs es => r = none ∧ es = [⟨2, toks.length⟩]) (by
      intro tri gs h1 h2 h3
      obtain ⟨tri', gs', g1, g2, g3⟩ := groups_exist Ini.ign (toks.map Tok.kl)
      have hgs : tri = tri' ∧ gs = gs' ++ [((Ini.eof, 0), [])] := by
        have e : tri ++ flat gs = tri' ++ flat (gs' ++ [((Ini.eof, 0), [])]) := by
          rw [← h1, List.map_append, g1, flat_append]
          simp [flat, Tok.kl, Tok.length]
        have hg4 : Grouped Ini.ign (gs' ++ [((Ini.eof, 0), [])]) := by
          intro g hg
          rcases List.mem_append.mp hg with hg | hg
          · exact g3 g hg
          · rw [List.mem_singleton] at hg; subst hg; exact ⟨rfl, by simp⟩
        exact Ini.groups_unique e h2 g2 h3 hg4
      obtain ⟨rfl, rfl⟩ := hgs
      have hk : IniDocument (Prs.kinds gs') := by rw [← significant_eq g1 g2 g3]; exact hd
      refine .mono (Ini.root_exact (a0 := gs') (rest0 := [((Ini.eof, 0), [])]) hk (by simp [headKind]) fun pre' a' rest' hlen hv =>
            Ini.parseValue_exact _ _ _ _ (by have := groups_le h1; simp at this ⊢; omega) hv) ?_
      rintro r a rest cs es _ ⟨rfl, rfl, h, _⟩
      obtain ⟨rfl, rfl⟩ := h rfl
      refine ⟨rfl, ?_⟩
      rw [← g1]; simp)
  unfold Ini.parseTokens
  obtain ⟨rfl, rfl⟩ := h5
  rw [h4, hcount0]
  rfl

/-- In the example above: 11, though the text ends at byte 17. -/
example {src : Source} (h : AnySource src "[a]\nx = -1.5 ; é".toList) : Ini.parse src = .ok (none, [⟨2, 11⟩]) := by
  refine C81_where h iniExample (by decide) ⟨[], _, rfl, .noLine, IniSyntax.table (k := [Ini.identifier]) (ls := [Ini.identifier, Ini.equal, Ini.float]) (ts := [])
    (.key (.inl rfl)) (.line (p := [Ini.identifier, Ini.equal, Ini.float]) (ps := [])
      (.pair (k := [Ini.identifier]) (v := [Ini.float]) (.key (.inl rfl)) (.scalar (by decide))) .noLine) .noTable⟩

/-- Values without quotes are in no document: a name cannot be a value. -/
theorem C81_bare (ks : List Nat) : ¬ IniSyntax .value (Ini.identifier :: ks) := by
  intro h
  obtain ⟨k, ks', he, hk⟩ := Ini.value_first h
  cases he
  revert hk; decide

end Oaks.Props
