import Verif.Proofs.JsonParse
import Verif.Props.Json

/-! # C54: the JSON parser -/

namespace Oaks.Props
open Oaks Oaks.Spec

theorem ign_iff (k : Nat) : Json.ign k = true ↔ JsonTrivia k := by simp [Json.ign, JsonTrivia]

theorem significant_eq (toks : List (Nat × Nat)) : significant toks = (toks.map (·.1)).filter (fun k => !Json.ign k) := by
  unfold significant
  congr 1
  funext k
  have := ign_iff k
  cases h : Json.ign k
  · simp [h] at this; simp [this]
  · simp [h] at this; simp [this]

/-- Parsing ends on every text below 4 GiB. The tokens fall in three parts: trivia the text begins with, tokens that are the
leaves of the tree in their order, and tokens that are left over. No error is recorded exactly if the significant tokens *begin*
with a value, and then the tree has the tokens of that value and the trivia after it.

Missing for C54: the code does not look at what follows the value (`C54_rest_witness`). -/
theorem C54_parse_partial {src : Source} {t : Str} (h : AnySource src t) (hl : blen t < 2 ^ 32) (cfg : JsonCfg) {cc : CharClass}
    (hcc : SoundClasses cc) :
    ∃ toks lead body rest g errs, Json.lex cfg cc src = .ok toks ∧ toks.map Tok.kl = lead ++ (body ++ rest) ∧
      (∀ x ∈ lead, JsonTrivia x.1) ∧ (∀ x, body.head? = some x → ¬ JsonTrivia x.1) ∧ (∀ x, rest.head? = some x → ¬ JsonTrivia x.1) ∧
      Json.parse cfg cc src = .ok (g, errs) ∧ leavesOf g = body ∧
      (errs = [] ↔ ∃ p q, significant (toks.map Tok.kl) = p ++ q ∧ JsonSyntax cfg (.item false) p) ∧
      (errs = [] → JsonSyntax cfg (.item false) (significant body)) := by
  obtain ⟨toks, tri, a, rest, cs, es, h1, h2, h3, h4, h5, h6, h7, h8⟩ :=
    jsonParse_ends (supply_linked h.1 h.2 (longChunks_zero src t) (cutsAligned_zero h.1)) hl cfg hcc
  have hga : Grouped Json.ign a := fun g hg => h4 g (List.mem_append_left _ hg)
  have hgr : Grouped Json.ign rest := fun g hg => h4 g (List.mem_append_right _ hg)
  have hsig : significant (toks.map Tok.kl) = kindsG a ++ kindsG rest := by
    have htri : (tri.map (·.1)).filter (fun k => !Json.ign k) = [] := by
      rw [List.filter_eq_nil_iff]
      intro k hk
      obtain ⟨x, hx, rfl⟩ := List.mem_map.mp hk
      simp [h3 x hx]
    rw [h2, significant_eq, List.map_append, List.filter_append, htri, kinds_flat h4]
    simp [kindsG]
  have hbody : significant (flat a) = kindsG a := by rw [significant_eq, kinds_flat hga]
  have hno : ∀ {k}, Json.ign k = false → ¬ JsonTrivia k := fun hk hj => by rw [(ign_iff _).mpr hj] at hk; simp at hk
  refine ⟨toks, tri, flat a, flat rest, _, es, h1, by rw [h2, flat_append], fun x hx => (ign_iff _).mp (h3 x hx),
    fun x hx => hno (hga.head x hx), fun x hx => hno (hgr.head x hx), h5, by rw [mkG, leavesOf, h6], ⟨?_, ?_⟩, ?_⟩
  · intro he
    exact ⟨_, _, hsig, (h7 he).syntax⟩
  · rintro ⟨p, q, he, hp⟩
    rw [hsig, kindsG, kindsG, ← List.map_append] at he
    obtain ⟨a', rest', hs, h9, _⟩ := List.map_eq_append_iff.mp he
    obtain ⟨cs', hj⟩ := JD.of_syntax hp a' h9
    exact (h8 a' rest' cs' hj hs).1
  · intro he
    rw [hbody]
    exact (h7 he).syntax

/-- A text whose significant tokens are one value, and the end, is parsed without a report into a tree that has all its tokens but
for the trivia at its beginning and the end. -/
theorem C54_document {src : Source} {t : Str} (h : AnySource src t) (hl : blen t < 2 ^ 32) (cfg : JsonCfg) {cc : CharClass}
    (hcc : SoundClasses cc) {toks : List Tok} (hlex : Json.lex cfg cc src = .ok toks) {ks : List Nat}
    (hk : significant (toks.map Tok.kl) = ks ++ [Json.eof]) (hs : JsonSyntax cfg (.item false) ks) :
    ∃ lead e g, toks.map Tok.kl = lead ++ (leavesOf g ++ [e]) ∧ e.1 = Json.eof ∧ (∀ x ∈ lead, JsonTrivia x.1) ∧
      Json.parse cfg cc src = .ok (g, []) := by
  obtain ⟨toks', tri, a, rest, cs, es, h1, h2, h3, h4, h5, h6, h7, h8⟩ :=
    jsonParse_ends (supply_linked h.1 h.2 (longChunks_zero src t) (cutsAligned_zero h.1)) hl cfg hcc
  obtain rfl : toks = toks' := by rw [hlex] at h1; injection h1
  obtain ⟨ps, _, hl2⟩ := C48_lex h cfg hcc
  rw [hlex] at hl2
  injection hl2 with hl2
  have htri : (tri.map (·.1)).filter (fun k => !Json.ign k) = [] := by
    rw [List.filter_eq_nil_iff]
    intro k hk
    obtain ⟨x, hx, rfl⟩ := List.mem_map.mp hk
    simp [h3 x hx]
  have hsig : significant (toks.map Tok.kl) = kindsG (a ++ rest) := by
    rw [h2, significant_eq, List.map_append, List.filter_append, htri, kinds_flat h4]; rfl
  rw [hsig] at hk
  obtain ⟨a', rest', hsp, e1, e2⟩ := List.map_eq_append_iff.mp hk
  obtain ⟨cs', hj⟩ := JD.of_syntax hs a' e1
  obtain ⟨rfl, rfl, rfl, rfl⟩ := h8 a' rest' cs' hj hsp
  obtain ⟨g, r', rfl, e3, e4⟩ := List.map_eq_cons_iff.mp e2
  obtain rfl := List.map_eq_nil_iff.mp e4
  have hlast : (toks.map Tok.kl).getLast? = some (Json.eof, 0) := by
    rw [hl2]; simp [Tok.kl, Tok.length]
  have hg2 : g.2 = [] := by
    cases hg2 : g.2 using List.reverseRecOn with
    | nil => rfl
    | append_singleton l x =>
      exfalso
      have : flat (a ++ [g]) = flat a ++ (g.1 :: l) ++ [x] := by simp [flat, hg2]
      rw [h2, this, ← List.append_assoc, List.getLast?_append] at hlast
      simp at hlast
      have hx := (h4 g (by simp)).2 x (by rw [hg2]; simp)
      rw [hlast] at hx
      simp [Json.ign, Json.eof, Json.whitespace, Json.comment] at hx
  refine ⟨tri, g.1, _, ?_, e3, fun x hx => (ign_iff _).mp (h3 x hx), h5⟩
  rw [h2, mkG, leavesOf, h6]
  simp [flat, hg2]

/-! Non-trivial cases -/

example : JsonSyntax .json5 (.item false) [Json.leftBracket, Json.numberLiteral, Json.comma, Json.leftBrace, Json.bareKey,
    Json.colon, Json.nullLiteral, Json.rightBrace, Json.comma, Json.rightBracket] :=
  .array (ks := [_, _, _, _, _, _, _, _]) (.some (ks := [_]) (ls := [_, _, _, _, _, _, _]) (.scalar (by decide))
    (.next (ks := [_, _, _, _, _]) (ls := [_]) (.object (ks := [_, _, _]) (.some (ks := [_, _, _]) (ls := [])
      (.entry (by decide) (.scalar (by decide))) .last)) (.trailing rfl)))

example : (Json.parse .json5 asciiClass (strSource "[1, {a: null},]".toList)).map (fun r => (significant (leavesOf r.1), r.2)) =
    .ok ([Json.leftBracket, Json.numberLiteral, Json.comma, Json.leftBrace, Json.bareKey, Json.colon, Json.nullLiteral,
      Json.rightBrace, Json.comma, Json.rightBracket], []) := by decide +kernel

/-- A comma before the bracket is reported where it is not allowed. -/
example : (Json.parse .standard asciiClass (strSource "[1,]".toList)).map (fun r => r.2.length) = .ok 1 := by decide +kernel

/-! Where the code does not do what C54 says. -/

/-- What follows the first value is dropped without a report. -/
theorem C54_rest_witness : (Json.parse .standard asciiClass (strSource "1 ]2".toList)).map (fun r => (leavesOf r.1, r.2)) =
    .ok ([(Json.numberLiteral, 1), (Json.whitespace, 1)], []) := by decide +kernel

end Oaks.Props
