import Verif.Proofs.JsonLex
import Verif.Proofs.CsvDoc
import Verif.Props.Cursor

/-! # C48: the JSON lexer -/

namespace Oaks.Props
open Oaks Oaks.Spec

/-- The lexer ends on every text under every configuration; its tokens are those of the text cut, from left to right, into the
pieces the rules of the language give, and the end-of-file token follows. -/
theorem C48_lex {src : Source} {t : Str} (h : AnySource src t) (cfg : JsonCfg) {cc : CharClass} (hcc : SoundClasses cc) :
    ∃ ps, Cut (JsonToken cfg cc) t ps ∧ Json.lex cfg cc src = .ok (tokensOf 0 ps ++ [⟨Json.eof, blen t, blen t⟩]) :=
  jsonLex_spec (supply_linked h.1 h.2 (longChunks_zero src t) (cutsAligned_zero h.1)) cfg hcc

/-- A text is cut in one way only, so the tokens depend on the text alone and not on how it is stored. -/
theorem C48_one_cut {cfg : JsonCfg} {cc : CharClass} {t : Str} {ps ps' : List (Option Nat × Str)} (h : Cut (JsonToken cfg cc) t ps)
    (h' : Cut (JsonToken cfg cc) t ps') : ps = ps' :=
  h.unique (fun _ _ h h' he => jsonToken_unique h h' he) h'

/-- A piece without a token is one of three kinds. -/
theorem C48_gaps {cfg : JsonCfg} {cc : CharClass} {t : Str} {ps : List (Option Nat × Str)} (h : Cut (JsonToken cfg cc) t ps) :
    ∀ m, (none, m) ∈ ps → JsonGap cfg m := by
  intro m hm
  obtain ⟨_, r, c, s, rfl, hr⟩ := h.each _ hm
  have hrule : ∀ R, firstRule cfg cc c = R → ruleHolds cfg cc none c s r R → JsonGap cfg (c :: s) := by
    have num : ∀ {sign : Str} {m r : Str}, (sign = ['-'] ∨ (sign = [] ∧ ∃ c s, m = c :: s ∧ Json.isDigit c = true)) →
        NumBody cfg none m r → JsonGap cfg (sign ++ m) := by
      intro sign m r hsign hn
      generalize hk : (none : Option Nat) = k at hn
      cases hn with
      | hex => simp at hk
      | @decimal x int frac ds exp _ hx h1 h2 h3 =>
        split at hk
        · rename_i hc
          obtain ⟨rfl, rfl⟩ := hc
          have hpt : frac = [] ∨ frac = ['.'] := by
            rcases h2 with ⟨h, _⟩ | ⟨h, _⟩
            · exact .inr h
            · exact .inl h
          refine .number (x := x) (point := frac) (rest := r) ?_ hpt h3
          rcases hsign with rfl | ⟨rfl, c, s, hcs, hd⟩
          · refine .inl ⟨rfl, ?_⟩
            rcases hx with ⟨hx, _⟩ | ⟨hx, _⟩
            · exact .inl hx
            · exact .inr hx
          · refine .inr ⟨rfl, ?_⟩
            rcases hx with ⟨rfl, _⟩ | ⟨hx, _⟩
            · exfalso
              simp only [List.nil_append] at hcs
              rcases hpt with rfl | rfl
              · rcases h3 with ⟨e, sg, ds, he, rfl, _⟩ | ⟨rfl, _⟩
                · simp at hcs; obtain ⟨rfl, _⟩ := hcs
                  rcases he with rfl | rfl <;> exact absurd hd (by decide)
                · simp at hcs
              · simp at hcs; obtain ⟨rfl, _⟩ := hcs; exact absurd hd (by decide)
            · exact hx
        · simp at hk
    intro R hR hr
    cases R with
    | space => simp [ruleHolds] at hr
    | quote => simp [ruleHolds] at hr
    | slash =>
      rcases hr with ⟨h, _⟩ | ⟨_, rfl, _⟩
      · simp at h
      · obtain ⟨rfl, h⟩ := (firstRule_char hR).1 rfl
        exact .slash h
    | number =>
      rw [ruleHolds] at hr
      split at hr
      · rename_i hc; rw [hc]; exact num (sign := ['-']) (.inl rfl) hr
      · rename_i hc
        refine num (sign := []) (.inr ⟨rfl, c, s, rfl, ((firstRule_char hR).2.1 rfl).resolve_left hc⟩) hr
    | mark k => simp [ruleHolds] at hr
    | word =>
      rw [ruleHolds] at hr
      rcases hr with ⟨k, _, h⟩ | ⟨_, h⟩
      · simp at h
      · split at h
        · simp at h
        · rename_i hb
          obtain ⟨_, rfl⟩ := h
          exact .letter (by simpa using hb) ((firstRule_char hR).2.2 rfl)
    | single => simp [ruleHolds] at hr
    | key => simp [ruleHolds] at hr
    | other => simp [ruleHolds] at hr
  exact hrule _ rfl hr

/-- Where no piece is a gap the tokens lie side by side from the first byte to the last.

Missing for C48: the gaps exist, see the witnesses below. -/
theorem C48_tiles_partial {src : Source} {t : Str} (h : AnySource src t) (cfg : JsonCfg) {cc : CharClass} (hcc : SoundClasses cc)
    {ps : List (Option Nat × Str)} (hc : Cut (JsonToken cfg cc) t ps) (hn : ∀ p ∈ ps, ¬ JsonGap cfg p.2) :
    ∃ toks, Json.lex cfg cc src = .ok (toks ++ [⟨Json.eof, blen t, blen t⟩]) ∧ TokTiles 0 toks (blen t) := by
  obtain ⟨ps', h1, h2⟩ := C48_lex h cfg hcc
  obtain rfl := C48_one_cut h1 hc
  refine ⟨_, h2, ?_⟩
  have := tokensOf_tiles (ps := ps') (fun p hp => by
    obtain ⟨k, m⟩ := p
    cases k with
    | some k => rfl
    | none => exact absurd (C48_gaps hc m hp) (hn _ hp)) 0
  rwa [hc.text, Nat.zero_add] at this

/-! Non-trivial cases -/

/-- Character classes of the ASCII characters. -/
def asciiClass : CharClass :=
  ⟨fun c => c == ' ' || c == '\t' || c == '\n' || c == '\r', fun c => decide ('a' ≤ c ∧ c ≤ 'z' ∨ 'A' ≤ c ∧ c ≤ 'Z'),
    fun c => decide ('a' ≤ c ∧ c ≤ 'z' ∨ 'A' ≤ c ∧ c ≤ 'Z' ∨ '0' ≤ c ∧ c ≤ '9')⟩

theorem asciiClass_sound : SoundClasses asciiClass where
  space := by rintro c (rfl | rfl | rfl | rfl) <;> rfl
  visible := by decide
  letters := by decide
  marks := by decide

example : Json.lex .json5 asciiClass (strSource "{a: [-0x1F, 'b']} // c".toList) =
    .ok [⟨Json.leftBrace, 0, 1⟩, ⟨Json.bareKey, 1, 2⟩, ⟨Json.colon, 2, 3⟩, ⟨Json.whitespace, 3, 4⟩, ⟨Json.leftBracket, 4, 5⟩,
      ⟨Json.numberLiteral, 5, 10⟩, ⟨Json.comma, 10, 11⟩, ⟨Json.whitespace, 11, 12⟩, ⟨Json.stringLiteral, 12, 15⟩,
      ⟨Json.rightBracket, 15, 16⟩, ⟨Json.rightBrace, 16, 17⟩, ⟨Json.whitespace, 17, 18⟩, ⟨Json.comment, 18, 22⟩,
      ⟨Json.eof, 22, 22⟩] := by decide +kernel

/-! Where the code does not do what C48 says: bytes no token covers. -/

theorem C48_sign_witness : Json.lex .standard asciiClass (strSource "[-.e+5]".toList) =
    .ok [⟨Json.leftBracket, 0, 1⟩, ⟨Json.rightBracket, 6, 7⟩, ⟨Json.eof, 7, 7⟩] := by decide +kernel

theorem C48_letter_witness : Json.lex .standard asciiClass (strSource "nul".toList) =
    .ok [⟨Json.error, 1, 2⟩, ⟨Json.error, 2, 3⟩, ⟨Json.eof, 3, 3⟩] := by decide +kernel

theorem C48_slash_witness : Json.lex .json5 asciiClass (strSource "1/2".toList) =
    .ok [⟨Json.numberLiteral, 0, 1⟩, ⟨Json.numberLiteral, 2, 3⟩, ⟨Json.eof, 3, 3⟩] := by decide +kernel

end Oaks.Props
