import Verif.Proofs.CsvDoc
import Verif.Props.Cursor

/-! # C50: CSV -/

namespace Oaks.Props
open Oaks Oaks.Spec

/-- The lexer ends on every text, whatever the separator and the quote are; its tokens are those of the text
cut, from left to right, into blanks, line ends, separators and fields; they lie side by side from the first byte to the last, and the
end-of-file token follows. -/
theorem C50_lex {src : Source} {t : Str} (h : AnySource src t) (lx : CsvLexer) :
    ∃ ps, Cut (CsvToken lx.sep lx.quote) t ps ∧
      lx.lex src = .ok (tokensOf 0 ps ++ [⟨CsvLexer.eof, blen t, blen t⟩]) ∧ TokTiles 0 (tokensOf 0 ps) (blen t) := by
  have hs := supply_linked h.1 h.2 (longChunks_zero src t) (cutsAligned_zero h.1)
  obtain ⟨ps, h1, h2, h3⟩ := csvLex_spec hs lx
  refine ⟨ps, h1, h3, ?_⟩
  have := tokensOf_tiles h2 0
  rwa [h1.text, Nat.zero_add] at this

/-- A text is cut in one way only, so the tokens depend on the text alone and not on how it is stored. -/
theorem C50_one_cut {sep q : Char} {t : Str} {ps ps' : List (Option Nat × Str)} (h : Cut (CsvToken sep q) t ps)
    (h' : Cut (CsvToken sep q) t ps') : ps = ps' :=
  h.unique (fun hm hm' h h' he => csvToken_unique hm hm' h h' he) h'

/-- A separator that is a blank or a line end is never seen: no token is a separator, whatever the text. -/
theorem C50_blank_separator {src : Source} {t : Str} (h : AnySource src t) (lx : CsvLexer) (hb : isCsvBlank lx.sep ∨ isCsvEol lx.sep) :
    ∃ toks, lx.lex src = .ok toks ∧ ∀ k ∈ toks, k.kind ≠ CsvLexer.comma := by
  obtain ⟨ps, h1, h2, _⟩ := C50_lex h lx
  refine ⟨_, h2, ?_⟩
  intro k hk
  rcases List.mem_append.mp hk with hk | hk
  · have hkl : k.kl ∈ (tokensOf 0 ps).map Tok.kl := List.mem_map_of_mem hk
    rw [tokensOf_kl] at hkl
    obtain ⟨p, hp, he⟩ := List.mem_filterMap.mp hkl
    obtain ⟨_, r, hc⟩ := h1.each p hp
    generalize p.1 = kd at hc he
    generalize p.2 = m at hc he
    have hkk : k.kind = k.kl.1 := rfl
    rw [hkk]
    cases hc with
    | separator h1 h2 => rcases hb with h | h <;> contradiction
    | _ => simp at he; rw [← he]; simp <;> decide
  · simp at hk; rw [hk]; simp; decide

/-- The parser ends on every text below 4 GiB, reports nothing, and the leaves of the tree are the tokens of
the text, each once and in order with its kind and length, except the blanks the text begins with. -/
theorem C50_parse {src : Source} {t : Str} (h : AnySource src t) (hl : blen t < 2 ^ 32) :
    ∃ lead ps root, Cut (CsvToken ',' '"') t (lead ++ ps) ∧ (∀ p ∈ lead, p.1 = some CsvLexer.whitespace) ∧
      (∀ p, ps.head? = some p → p.1 ≠ some CsvLexer.whitespace) ∧
      CsvParser.parse src = .ok (root, []) ∧ leavesOf root = ps.map (fun p => (p.1.getD 0, blen p.2)) :=
  csvParse_lossless (supply_linked h.1 h.2 (longChunks_zero src t) (cutsAligned_zero h.1)) hl

/-- A document, written with blanks before any of its fields but the first, is parsed without a report to
a tree whose records are its rows, and the fields in them its fields: each node covers the bytes the field was written as.

Missing for C50: a document that begins with blanks, a field that is quoted and followed by more text, and
other separators and quotes (the parser always uses the comma). -/
theorem C50_rows_partial {src : Source} {rows : List CsvRow} (h : AnySource src (csvText rows)) (hr : CsvRows rows)
    (hb : ∀ r, rows.head? = some r → r.first.blanks = []) (hl : blen (csvText rows) < 2 ^ 32) :
    ∃ root, CsvParser.parse src = .ok (root, []) ∧
      csvRowsOf (csvText rows) root = rows.map (fun r => r.cells.map (fun c => bytes c.field.text)) := by
  have hs := supply_linked h.1 h.2 (longChunks_zero src _) (cutsAligned_zero h.1)
  refine ⟨_, csvParse_doc hs hr hl, ?_⟩
  have := nodesAt_rows rows hr [] rfl hl
  have hfb : firstBlanks rows = [] := by
    cases rows with
    | nil => rfl
    | cons r rs => exact hb r rfl
  rw [hfb] at this
  exact this

/-! Non-trivial cases -/

def sampleRows : List CsvRow :=
  [⟨⟨[], .plain "a".toList⟩, [⟨" ".toList, .quoted "b,\"c".toList⟩, ⟨[], .plain []⟩], "\r\n".toList⟩,
   ⟨⟨" ".toList, .plain []⟩, [], "\n".toList⟩,
   ⟨⟨"\t".toList, .plain "é ".toList⟩, [⟨[], .plain "z".toList⟩], []⟩]

example : csvText sampleRows = "a, \"b,\"\"c\",\r\n \n\té ,z".toList := by decide

theorem sampleRows_valid : CsvRows sampleRows := by
  refine .cons ?_ (.inr (.inl rfl)) (.cons ?_ (.inl rfl) (.last ?_ rfl (by simp)))
  all_goals
    simp [CsvRow.cells, CsvCell.Valid, CsvField.Valid, isCsvBlank, isCsvEol]

/-- The hypotheses hold of the sample, and this is what it gives. -/
example : (CsvParser.parse (strSource (csvText sampleRows))).map (fun r => csvRowsOf (csvText sampleRows) r.1) =
    .ok [[bytes "a".toList, bytes "\"b,\"\"c\"".toList, []], [[]], [bytes "é ".toList, bytes "z".toList]] := by decide +kernel

/-! Where the code does not do what C50 says. -/

/-- Text after a closing quote starts a new record although no line ends there. -/
theorem C50_after_quote_witness :
    (CsvParser.parse (strSource "\"a\"b,c".toList)).map (fun r => csvRowsOf "\"a\"b,c".toList r.1) =
      .ok [[bytes "\"a\"".toList], [bytes "b".toList, bytes "c".toList]] := by decide +kernel

/-- Blanks at the beginning of the text are not in the tree: every offset read off it is too small. -/
theorem C50_leading_blank_witness :
    (CsvParser.parse (strSource " a,b".toList)).map (fun r => csvRowsOf " a,b".toList r.1) =
      .ok [[bytes " ".toList, bytes ",".toList]] := by decide +kernel

/-- With the tab as separator there is no separator token between two fields: the parser would make them two records. -/
theorem C50_tab_witness :
    (CsvLexer.lex ⟨'\t', '"'⟩ (strSource "a\tb".toList)) = .ok [⟨CsvLexer.field, 0, 1⟩, ⟨CsvLexer.whitespace, 1, 2⟩,
      ⟨CsvLexer.field, 2, 3⟩, ⟨CsvLexer.eof, 3, 3⟩] := by decide +kernel

end Oaks.Props
