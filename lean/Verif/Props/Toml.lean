import Verif.Proofs.Toml
import Verif.Proofs.CsvDoc
import Verif.Props.Cursor
import Verif.Props.Flat

/-! # C76: TOML -/

namespace Oaks.Props
open Oaks Oaks.Spec

/-- A text that is cut, from left to right, into the pieces of TOML gives one token for each piece with a kind, where the piece is, and
the end of the file.

Missing for C76: texts with other than ASCII characters outside of comments (`C76_accent`, `C76_accented_key`). -/
theorem C76_lex_partial {src : Source} {t : Str} (h : AnySource src t) {ps : List (Option Nat × Str)} (hc : Cut TomlToken t ps) :
    Toml.lex src = .ok (tokensOf 0 ps ++ [⟨Toml.eof, blen t, blen t⟩]) := by
  have hs := supply_linked h.1 h.2 (longChunks_zero src t) (cutsAligned_zero h.1)
  obtain ⟨h1, h2⟩ := Scn.lex_at hs Toml.step Toml.eof (Scn.cut_of Toml.token_turn hc)
  rw [List.append_nil] at h1
  rw [← h1] at h2
  exact h2

/-- Every text of ASCII characters is cut in that way, so the lexer ends on it. -/
theorem C76_ascii {src : Source} {t : Str} (h : AnySource src t) (ha : ∀ c ∈ t, Ascii c) :
    ∃ ps, Cut TomlToken t ps ∧ Toml.lex src = .ok (tokensOf 0 ps ++ [⟨Toml.eof, blen t, blen t⟩]) := by
  obtain ⟨ps, hp⟩ := cut_exists (P := TomlToken) (G := fun t => ∀ c ∈ t, Ascii c)
    (fun m r hg c hc => hg c (List.mem_append_right _ hc)) (fun t h0 hg => Toml.token_exists h0 hg) ha
  exact ⟨ps, hp, C76_lex_partial h hp⟩

/-- A text is cut in one way only. -/
theorem C76_one_cut {t : Str} {ps ps' : List (Option Nat × Str)} (h : Cut TomlToken t ps) (h' : Cut TomlToken t ps') : ps = ps' := by
  have := (Scn.cut_of Toml.token_turn h).symm.trans (Scn.cut_of Toml.token_turn h')
  simpa using this

/-- The text `x = -1.5 # é` is one of these. -/
theorem tomlExample : Cut TomlToken "x = -1.5 # é".toList
    [(some Toml.bareKey, "x".toList), (some Toml.whitespace, " ".toList), (some Toml.equal, "=".toList), (some Toml.whitespace, " ".toList),
      (some Toml.float, "-1.5".toList), (some Toml.whitespace, " ".toList), (some Toml.comment, "# é".toList)] := by
  refine .step " = -1.5 # é".toList (by decide) (by decide) (TomlToken.word (c := 'x') (m := []) (by decide) (by decide)) ?_
  refine .step "= -1.5 # é".toList (by decide) (by decide) (TomlToken.blank (by decide) (by decide)) ?_
  refine .step " -1.5 # é".toList (by decide) (by decide) (TomlToken.mark (by decide)) ?_
  refine .step "-1.5 # é".toList (by decide) (by decide) (TomlToken.blank (by decide) (by decide)) ?_
  refine .step " # é".toList (by decide) (by decide) (TomlToken.float (sign := ['-']) (ds := ['1']) (fs := ['5']) (by decide) (by decide) (by decide)) ?_
  refine .step "# é".toList (by decide) (by decide) (TomlToken.blank (by decide) (by decide)) ?_
  refine .step [] (by decide) (by decide) (TomlToken.comment (m := " é".toList) (by decide)) .nil

example {src : Source} (h : AnySource src "x = -1.5 # é".toList) :
    Toml.lex src = .ok [⟨Toml.bareKey, 0, 1⟩, ⟨Toml.whitespace, 1, 2⟩, ⟨Toml.equal, 2, 3⟩, ⟨Toml.whitespace, 3, 4⟩, ⟨Toml.float, 4, 8⟩,
      ⟨Toml.whitespace, 8, 9⟩, ⟨Toml.comment, 9, 13⟩, ⟨Toml.eof, 13, 13⟩] := C76_lex_partial h tomlExample

/-- Only characters that begin nothing in TOML are left without a token: the tokens of a text without them lie side by side from the
first byte to the last. -/
theorem C76_tiles {t : Str} {ps : List (Option Nat × Str)} (hc : Cut TomlToken t ps)
    (ho : ∀ c ∈ t, TomlBlank c ∨ TomlKeyStart c ∨ AsciiDigit c ∨ c ∈ "#\"'+-[]{},.=".toList) :
    TokTiles 0 (tokensOf 0 ps) (blen t) := by
  have hsome : ∀ p ∈ ps, p.1.isSome := by
    intro p hp
    obtain ⟨_, r, h⟩ := hc.each p hp
    obtain ⟨k, m⟩ := p
    cases k with
    | some k => rfl
    | none =>
      cases h with
      | @other c r ha h1 h2 h3 h4 =>
        have : c ∈ t := by rw [← hc.text]; exact List.mem_flatMap.mpr ⟨_, hp, by simp⟩
        rcases ho c this with h | h | h | h <;> contradiction
  have := tokensOf_tiles hsome 0
  rwa [hc.text, Nat.zero_add] at this

example : TokTiles 0 (tokensOf 0 [(some Toml.bareKey, "ab".toList), (some Toml.equal, "=".toList)]) (blen "ab=".toList) :=
  C76_tiles (Cut.step "=".toList (by decide) (by decide) (TomlToken.word (c := 'a') (m := ['b']) (by decide) (by decide))
    (Cut.step [] (by decide) (by decide) (TomlToken.mark (by decide)) .nil)) (by decide)

/-- The colon of a time has no token. -/
theorem C76_gap : Toml.lex (textSource "a=1:2".toList) = .ok [⟨Toml.bareKey, 0, 1⟩, ⟨Toml.equal, 1, 2⟩, ⟨Toml.integer, 2, 3⟩,
    ⟨Toml.integer, 4, 5⟩, ⟨Toml.eof, 5, 5⟩] := by decide +kernel

/-- Nested arrays are taken for headers of tables. -/
theorem C76_nested : Toml.lex (textSource "a=[[1]]".toList) = .ok [⟨Toml.bareKey, 0, 1⟩, ⟨Toml.equal, 1, 2⟩, ⟨Toml.doubleLeftBracket, 2, 4⟩,
    ⟨Toml.integer, 4, 5⟩, ⟨Toml.doubleRightBracket, 5, 7⟩, ⟨Toml.eof, 7, 7⟩] := by decide +kernel

/-- A string with an accented letter ends before its quote, and the quote begins a string that takes the rest of the text. -/
theorem C76_accent : Toml.lex (textSource "a = \"é\" # x\nb=1".toList) = .ok [⟨Toml.bareKey, 0, 1⟩, ⟨Toml.whitespace, 1, 2⟩,
    ⟨Toml.equal, 2, 3⟩, ⟨Toml.whitespace, 3, 4⟩, ⟨Toml.basicString, 4, 7⟩, ⟨Toml.basicString, 7, 16⟩, ⟨Toml.eof, 16, 16⟩] := by
  decide +kernel

/-- Behind a key that begins with an accented letter the equals sign comes twice, the first time inside the letter. -/
theorem C76_accented_key : Toml.lex (textSource "é=1".toList) = .ok [⟨Toml.equal, 1, 2⟩, ⟨Toml.equal, 2, 3⟩, ⟨Toml.integer, 3, 4⟩,
    ⟨Toml.eof, 4, 4⟩] := by decide +kernel

/-- The parser ends on every text that can be cut, reports nothing, and keeps the tokens in order, from the first that is neither blank
nor a comment. -/
theorem C76_parse_partial {src : Source} {t : Str} (h : AnySource src t) {ps : List (Option Nat × Str)} (hc : Cut TomlToken t ps)
    (hl : blen t < 2 ^ 32) :
    ∃ w cs, Toml.parse src = .ok (.node Toml.parser.root w cs, []) ∧ leavesOfList cs =
      ((tokensOf 0 ps ++ [(⟨Toml.eof, blen t, blen t⟩ : Tok)]).dropWhile (fun k => k.kind == Toml.whitespace || k.kind == Toml.comment)).map kindLen := by
  have hsum : ∀ (ps : List (Option Nat × Str)) (n : Nat), tokBytes (tokensOf n ps) ≤ blen (ps.flatMap (·.2)) := by
    intro ps
    induction ps with
    | nil => intro n; simp [tokensOf, tokBytes]
    | cons x ps ih =>
      intro n
      obtain ⟨k, m⟩ := x
      have := ih (n + blen m)
      cases k <;> simp [tokensOf, tokBytes] at this ⊢ <;> omega
  have hb : tokBytes (tokensOf 0 ps ++ [⟨Toml.eof, blen t, blen t⟩]) < 2 ^ 32 := by
    have := hsum ps 0
    rw [hc.text] at this
    simp [tokBytes] at this ⊢
    omega
  obtain ⟨w, cs, h1, h2, _⟩ := C77_bump_partial (p := Toml.parser) rfl (n := src.length) hb
  refine ⟨w, cs, ?_, ?_⟩
  · unfold Toml.parse
    rw [C76_lex_partial h hc]
    exact h1
  · rw [h2]
    congr 1
    have hkind : ∀ k ∈ tokensOf 0 ps ++ [⟨Toml.eof, blen t, blen t⟩], k.kind ≠ 1 := by
      intro k hk
      rcases List.mem_append.mp hk with hk | hk
      · obtain ⟨p, hp, he⟩ := mem_tokensOf hk
        obtain ⟨_, r, ht⟩ := hc.each p hp
        intro h1
        rw [he, h1] at ht
        generalize ho : some 1 = o at ht
        generalize p.2 = m at ht
        cases ht with
        | mark h =>
          simp [tomlMarks] at h ho
          rcases h with ⟨_, rfl⟩ | ⟨_, rfl⟩ | ⟨_, rfl⟩ | ⟨_, rfl⟩ | ⟨_, rfl⟩ <;> exact absurd ho (by decide)
        | word => split at ho <;> exact absurd ho (by decide)
        | _ => exact absurd ho (by decide)
      · simp at hk; rw [hk]; exact (by decide : Toml.eof ≠ 1)
    generalize tokensOf 0 ps ++ [(⟨Toml.eof, blen t, blen t⟩ : Tok)] = l at hkind
    induction l with
    | nil => rfl
    | cons a l ih =>
      have : (a.kind == 1) = false := by simpa using hkind a (by simp)
      have hi : Toml.parser.ign a.kind = (a.kind == Toml.whitespace || a.kind == Toml.comment) := by simp [Toml.parser, this]
      rw [List.dropWhile_cons, List.dropWhile_cons, hi, ih (fun k hk => hkind k (List.mem_cons_of_mem _ hk))]

example {src : Source} (h : AnySource src "x = -1.5 # é".toList) :
    ∃ w cs, Toml.parse src = .ok (.node Toml.parser.root w cs, []) ∧ leavesOfList cs =
      [(Toml.bareKey, 1), (Toml.whitespace, 1), (Toml.equal, 1), (Toml.whitespace, 1), (Toml.float, 4), (Toml.whitespace, 1),
        (Toml.comment, 4), (Toml.eof, 0)] := C76_parse_partial h tomlExample (by decide)

end Oaks.Props
