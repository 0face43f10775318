import Verif.Proofs.XmlPiece
import Verif.Props.Cursor

/-! # C72: the tokens of an XML text -/

namespace Oaks.Props
open Oaks Oaks.Spec

/-- The lexer ends on every text; its tokens are those of the text cut, from left to right, into the pieces of XML (blanks,
comments, declarations, CDATA sections, instructions, tag marks, references, quoted values, names, text); they lie side by
side from the first byte to the last, and the end-of-file token follows. -/
theorem C72_lex {ws : Char → Bool} (hws : XmlSpaces ws) {src : Source} {t : Str} (h : AnySource src t) :
    ∃ ps, Cut (XmlToken ws) t ps ∧
      Xml.lex ws src = .ok (tokensOf 0 ps ++ [⟨Xml.error, blen t, blen t⟩]) ∧ TokTiles 0 (tokensOf 0 ps) (blen t) := by
  have hs := supply_linked h.1 h.2 (longChunks_zero src t) (cutsAligned_zero h.1)
  obtain ⟨ps, h1, h2⟩ := xmlLex_spec hs hws
  refine ⟨ps, h1, h2, ?_⟩
  have hk : ∀ p ∈ ps, p.1.isSome := by
    clear h2 hs h
    induction h1 with
    | nil => simp
    | cons hm hp _ ih =>
      obtain ⟨k, rfl, _⟩ := hp
      intro p hp
      rcases List.mem_cons.mp hp with rfl | hp
      · rfl
      · exact ih p hp
  have := tokensOf_tiles hk 0
  rwa [h1.text, Nat.zero_add] at this

/-- A text is cut in one way only, so the tokens depend on the text alone and not on how it is stored. -/
theorem C72_one_cut {ws : Char → Bool} {t : Str} {ps ps' : List (Option Nat × Str)} (h : Cut (XmlToken ws) t ps)
    (h' : Cut (XmlToken ws) t ps') : ps = ps' :=
  h.unique (fun {k k' m m' r r'} _ _ h h' he => by
    obtain ⟨a, rfl, h1⟩ := h
    obtain ⟨b, rfl, h2⟩ := h'
    rw [he, h2] at h1
    simp only [Prod.mk.injEq] at h1
    exact ⟨by rw [h1.1], h1.2.1.symm⟩) h'

/-- A name, however long, is one token of kind `Identifier` where a character that does not belong to names, or nothing,
follows it. -/
theorem C72_name {ws : Char → Bool} {c : Char} {cs rest : Str} (hw : ws c = false) (hc : Xml.nameStart c = true)
    (hcs : ∀ d ∈ cs, Xml.nameChar d = true) (hr : ∀ d, rest.head? = some d → Xml.nameChar d = false) :
    XmlToken ws (some Xml.identifier) (c :: cs) rest :=
  ⟨_, rfl, xmlPiece_name hw hc hcs hr⟩

/-- A comment is one token, whatever its body is, as long as `-->` occurs at its end for the first time. -/
theorem C72_comment {ws : Char → Bool} (hw : ws '<' = false) {body rest : Str}
    (hb : ∀ a b, body ++ "-->".toList = a ++ "-->".toList ++ b → b = []) :
    XmlToken ws (some Xml.comment) ("<!--".toList ++ body ++ "-->".toList) rest :=
  ⟨_, rfl, xmlPiece_comment hw hb⟩

/-- An apostrophe begins a quoted value wherever it stands, also in the text of an element: where no other one follows, the
rest of the document is one token. -/
theorem C72_apostrophe {ws : Char → Bool} (hw : ws '\'' = false) {s : Str} (hs : '\'' ∉ s) :
    XmlToken ws (some Xml.stringLiteral) ('\'' :: s) [] :=
  ⟨_, rfl, xmlPiece_apostrophe hw hs⟩

/-- The classes of characters used above: names are of letters and digits of ASCII and of four marks, and do not begin with a digit,
a dash or a dot; text stops at white space and at twelve marks; references are of hexadecimal digits, of digits, of letters and
digits. -/
theorem C72_classes (c : Char) :
    (Xml.nameStart c = true ↔ AsciiLetter c ∨ c ∈ "_:".toList) ∧
    (Xml.nameChar c = true ↔ AsciiLetter c ∨ AsciiDigit c ∨ c ∈ "_-.:".toList) ∧
    (Xml.textStop c = true ↔ c ∈ " \t\n\r<>=\"'!?&;".toList) ∧
    (Json.isHexDigit c = true ↔ AsciiDigit c ∨ ('a' ≤ c ∧ c ≤ 'f') ∨ ('A' ≤ c ∧ c ≤ 'F')) ∧
    (Json.isDigit c = true ↔ AsciiDigit c) ∧ (Xml.isAlnum c = true ↔ AsciiLetter c ∨ AsciiDigit c) := by
  unfold Xml.nameStart Xml.nameChar Xml.textStop Xml.isAlnum Xml.isLetter Json.isHexDigit Json.isDigit AsciiLetter AsciiDigit
  simp only [Bool.or_eq_true, decide_eq_true_eq, beq_iff_eq, or_assoc]
  refine ⟨by simp, by simp, by simp, trivial, trivial, trivial⟩

/-! Non-trivial cases -/

theorem sampleSpaces : XmlSpaces Char.isWhitespace := by
  refine ⟨by rintro c (rfl | rfl | rfl | rfl) <;> decide, ?_⟩
  rintro c hc
  rw [Bool.eq_false_iff]
  intro h
  have : c = ' ' ∨ c = '\t' ∨ c = '\r' ∨ c = '\n' := by simpa [Char.isWhitespace, or_assoc] using h
  rcases this with rfl | rfl | rfl | rfl <;> exact absurd hc (by decide)

/-- The hypotheses hold of this text, and these are its tokens. -/
example : AnySource (strSource "<a b='é'>&#x41;<!-- - --> x".toList) "<a b='é'>&#x41;<!-- - --> x".toList := (C05_chunks_contiguous _).1

example : (Xml.lex Char.isWhitespace (strSource "<a b='é'>&#x41;<!-- - --> x".toList)).map (·.map (fun k => (k.kind, k.start, k.stop))) =
    .ok [(Xml.leftAngle, 0, 1), (Xml.identifier, 1, 2), (Xml.whitespace, 2, 3), (Xml.identifier, 3, 4), (Xml.equals, 4, 5),
      (Xml.stringLiteral, 5, 9), (Xml.rightAngle, 9, 10), (Xml.characterReference, 10, 16), (Xml.comment, 16, 26),
      (Xml.whitespace, 26, 27), (Xml.identifier, 27, 28), (Xml.error, 28, 28)] := by decide +kernel

example : XmlToken Char.isWhitespace (some Xml.identifier) "a:b-1".toList "=".toList :=
  C72_name (by decide) (by decide) (by decide) (by simp; decide)

example : XmlToken Char.isWhitespace (some Xml.comment) "<!--->-->".toList "-->".toList := by
  refine C72_comment (body := "->".toList) (by decide) ?_
  intro a b h
  rcases a with _ | ⟨x, _ | ⟨y, _ | ⟨z, a⟩⟩⟩
  · exact absurd h (by simp)
  · exact absurd h (by simp)
  · simp at h; exact h.2.2
  · have := congrArg List.length h
    simp at this
    omega

example : XmlToken Char.isWhitespace (some Xml.stringLiteral) "'t be</a>".toList [] := C72_apostrophe (by decide) (by decide)

end Oaks.Props
