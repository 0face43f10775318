import Verif.Model.ReadText
import Verif.Spec.ReadText
import Verif.Props.HandLex
import Verif.Props.Hand
import Verif.Props.HandPratt

/-! C91: the tree of a text holds the text. -/
namespace Oaks.Props
open Spec Lc

/-- Languages whose lexer keeps the text and whose parser keeps every token; whether `add_eof` is called. -/
def readWhole : List (Code × Bool × HandParser) :=
  [(HandLex.Matlab.run_, true, Hand.Matlab.parser), (HandLex.Protobuf.run_, false, Hand.Protobuf.parser), (HandLex.Wat.run_, false, Hand.Wat.parser),
   (HandLex.Wolfram.run_, true, Hand.Wolfram.parser)]

/-- Languages whose lexer keeps the text and whose parser keeps every token from the first one that is not ignored. -/
def readAfter : List (Code × Bool × HandParser) :=
  [(HandLex.ObjectiveC.run_, true, Hand.ObjectiveC.parser), (HandLex.OrgMode.run_, true, Hand.OrgMode.parser),
   (HandLex.Perl.run_, true, Hand.Perl.parser), (HandLex.Powershell.run_, false, Hand.Powershell.parser)]

/-- Languages whose lexer keeps the text and whose parser keeps every token from the first one that is not ignored to the
end token; the kind of the end token. -/
def readEof : List (Code × HandParser × Nat) := [(HandLex.Bat.run_, Hand.Bat.parser, 14), (HandLex.Cmd.run_, Hand.Cmd.parser, 14)]

/-- Languages whose lexer keeps the text and whose parser puts all tokens below one node with `bump`. -/
def readFlat : List (Code × Bool) := [(HandLex.Mermaid.run_, true), (HandLex.Pascal.run_, true), (HandLex.Smalltalk.run_, false)]

/-! ### Lemmas -/

private theorem withKinds_len (κ : Nat → Nat) (toks : List Tok) :
    (withKinds κ toks).map (fun t => t.stop - t.start) = toks.map (fun t => t.stop - t.start) := by
  apply List.ext_getElem?
  intro i
  simp only [withKinds, List.getElem?_map, List.getElem?_mapIdx, Option.map_map]
  rfl

private theorem tiles_of_lossless {t : Str} {toks : List Tok} (h : Lossless t toks) {k : List (Nat × Nat)}
    (hk : k.map (·.2) = toks.map (fun t => t.stop - t.start)) : Tiles t k := by
  obtain ⟨texts, h1, h2⟩ := h
  refine ⟨texts, ?_, h2⟩
  rw [hk]
  clear hk h2
  induction h1 with
  | nil => rfl
  | cons hp _ ih =>
    obtain ⟨l, r, _, h1, h2⟩ := hp
    simp only [List.map_cons, ih]
    congr 1
    omega

private theorem tiles_append {t : Str} {a b : List (Nat × Nat)} (h : Tiles t (a ++ b)) : ∃ x y, t = x ++ y ∧ Tiles x a ∧ Tiles y b := by
  obtain ⟨texts, h1, h2⟩ := h
  rw [List.map_append] at h1
  obtain ⟨x, y, rfl, h3, h4⟩ := List.map_eq_append_iff.mp h1.symm
  exact ⟨x.flatten, y.flatten, by simpa using h2.symm, ⟨x, h3.symm, rfl⟩, ⟨y, h4.symm, rfl⟩⟩

private theorem tiles_sum {t : Str} {a : List (Nat × Nat)} (h : Tiles t a) : (a.map (·.2)).sum = blen t := by
  obtain ⟨texts, h1, rfl⟩ := h
  rw [h1]
  clear h1
  induction texts with
  | nil => rfl
  | cons x xs ih => simp [blen_append, ih]

private theorem tiles_empty {t : Str} {a b : List (Nat × Nat)} (h : Tiles t (a ++ b)) (hb : (b.map (·.2)).sum = 0) : Tiles t a := by
  obtain ⟨x, y, rfl, h1, h2⟩ := tiles_append h
  have := tiles_sum h2
  have : y = [] := blen_eq_zero.mp (by omega)
  simpa [this] using h1

private theorem kinds_len (κ : Nat → Nat) (toks : List Tok) :
    ((withKinds κ toks).map kindLen).map (·.2) = toks.map (fun t => t.stop - t.start) := by
  rw [List.map_map]
  exact withKinds_len κ toks

/-- The tokens of a lexer that keeps the text cut the text into its pieces, with the end token. -/
private theorem read_tiles {src : Source} {t : Str} (h : AnySource src t) {p : Code} (h1 : p ∈ lexEnds) (h2 : p ∈ lexTile) (u : Uni) (ω : Nat → Nat)
    (eof : Bool) : ∃ toks rest, lexAgain src u ω .new eof p [] [] = .ok (toks ++ rest) ∧ scanAll src u ω p = .ok toks ∧ Lossless t toks ∧
      rest.map (fun t => t.stop - t.start) = if eof then [0] else [] := by
  obtain ⟨toks, e⟩ := C87_ends_partial h h1 u ω
  have hl := C89_lossless_partial h h2 e
  have e0 := e
  unfold scanAll at e
  unfold lexAgain
  simp only [Entry.start]
  cases hn : Lex.new src with
  | error f => rw [hn] at e; cases e
  | ok lex =>
    rw [hn] at e
    simp only [run_bind_ok] at e ⊢
    cases hx : exec src u ω p ⟨lex, fun _ => 0, 0⟩ with
    | error f => rw [hx] at e; cases e
    | ok so =>
      rw [hx] at e
      simp only [run_bind_ok] at e ⊢
      have e1 : so.1.lex.toks = toks := by cases e; rfl
      subst e1
      refine ⟨_, if eof then [⟨0, so.1.lex.pos, so.1.lex.pos⟩] else [], ?_, e0, hl, ?_⟩
      · cases eof <;> simp [Lex.addEof, Lex.addToken] <;> rfl
      · cases eof <;> simp

private theorem tiles_all {t : Str} {toks rest : List Tok} {eof : Bool} (h : Lossless t toks)
    (hr : rest.map (fun t => t.stop - t.start) = if eof then [0] else []) (κ : Nat → Nat) :
    Tiles t ((withKinds κ (toks ++ rest)).map kindLen) := by
  obtain ⟨texts, h1, h2⟩ := h
  have h3 := tiles_of_lossless (k := toks.map kindLen) ⟨texts, h1, h2⟩ (by simp [kindLen, Function.comp_def])
  obtain ⟨x, h4, h5⟩ := h3
  refine ⟨x ++ if eof then [[]] else [], ?_, ?_⟩
  · rw [kinds_len, List.map_append, List.map_append, hr, ← h4]
    cases eof <;> simp [kindLen, Function.comp_def]
  · cases eof <;> simp [h5]

private theorem tokBytes_eq (toks : List Tok) : tokBytes toks = ((toks.map kindLen).map (·.2)).sum := by
  rw [List.map_map]; rfl

/-! ### C91 -/

/-- C91: for these languages every text has a tree, the root is as long as the text, and its leaves cut the text into pieces
from the first byte to the last, whatever kinds the lexer gives the tokens. -/
theorem C91_whole_partial {src : Source} {t : Str} (h : AnySource src t) (hb : blen t < 2 ^ 32) {p : Code} {eof : Bool} {hp : HandParser}
    (hh : (p, eof, hp) ∈ readWhole) (u : Uni) (ω : Nat → Nat) (κ : Nat → Nat) :
    ∃ cs errs, (∀ slack, readText src u ω p eof κ (hp.parse slack src) = .ok (some (.node hp.root (blen t) cs), errs)) ∧
      Tiles t (leavesOfList cs) := by
  have hm : p ∈ lexEnds ∧ p ∈ lexTile := by
    simp only [readWhole, List.mem_cons, Prod.mk.injEq, List.not_mem_nil, or_false] at hh
    rcases hh with ⟨rfl, -⟩ | ⟨rfl, -⟩ | ⟨rfl, -⟩ | ⟨rfl, -⟩ <;> simp [lexEnds, lexTile]
  obtain ⟨toks, rest, e, -, hl, hr⟩ := read_tiles h hm.1 hm.2 u ω eof
  have ht := tiles_all hl hr κ
  have hs : tokBytes (withKinds κ (toks ++ rest)) = blen t := by rw [tokBytes_eq]; exact tiles_sum ht
  have hk : ∃ cs errs, (∀ slack, hp.parse slack src (withKinds κ (toks ++ rest)) = .ok (some (.node hp.root (blen t) cs), errs)) ∧
      leavesOfList cs = (withKinds κ (toks ++ rest)).map kindLen := by
    have hc : hp = Hand.Wolfram.parser ∨ (hp ∈ handTree ∧ hp ∈ handWhole) := by
      simp only [readWhole, List.mem_cons, Prod.mk.injEq, List.not_mem_nil, or_false] at hh
      rcases hh with ⟨-, -, rfl⟩ | ⟨-, -, rfl⟩ | ⟨-, -, rfl⟩ | ⟨-, -, rfl⟩
      · exact .inr (by simp [handTree, handWhole])
      · exact .inr (by simp [handTree, handWhole])
      · exact .inr (by simp [handTree, handWhole])
      · exact .inl rfl
    rcases hc with rfl | ⟨h1, h2⟩
    · obtain ⟨g, errs, h3⟩ := C84_always_a_tree_partial (h := Hand.Wolfram.parser) (by simp [climbTree]) src (toks := withKinds κ (toks ++ rest)) (by omega)
      obtain ⟨cs, errs', h4, h5⟩ := C85_wolfram_every_token (slack := 0) (src := src) (toks := withKinds κ (toks ++ rest)) (by omega)
      rw [h3 0] at h4
      injection h4 with h4; injection h4 with h4 h6; injection h4 with h4
      exact ⟨cs, errs, fun slack => by rw [h3 slack, h4, hs], h5⟩
    · obtain ⟨g, errs, h3⟩ := C82_always_a_tree_partial h1 src (toks := withKinds κ (toks ++ rest)) (by omega)
      obtain ⟨cs, h4, h5⟩ := C83_every_token_partial h2 (by omega) (h3 0)
      exact ⟨cs, errs, fun slack => by rw [h3 slack, h4, hs], h5⟩
  obtain ⟨cs, errs, h1, h2⟩ := hk
  refine ⟨cs, errs, fun slack => ?_, h2 ▸ ht⟩
  simp only [readText, e, run_bind_ok]
  exact h1 slack

private theorem cut_blanks {t : Str} {toks : List Tok} (h : Tiles t (toks.map kindLen)) (ign : Tok → Bool) :
    ∃ blanks rest, t = blanks ++ rest ∧ Tiles blanks ((toks.takeWhile ign).map kindLen) ∧ Tiles rest ((toks.dropWhile ign).map kindLen) ∧
      tokBytes (toks.dropWhile ign) = blen rest := by
  rw [← List.takeWhile_append_dropWhile (p := ign) (l := toks), List.map_append] at h
  obtain ⟨x, y, rfl, h1, h2⟩ := tiles_append h
  exact ⟨x, y, rfl, h1, h2, by rw [tokBytes_eq]; exact tiles_sum h2⟩

/-- C91: for these languages every text has a tree. The leaves cut what comes after the ignored tokens at the front into pieces.

Missing for C91: those ignored tokens (`blanks`), which are in no tree. -/
theorem C91_after_partial {src : Source} {t : Str} (h : AnySource src t) (hb : blen t < 2 ^ 32) {p : Code} {eof : Bool} {hp : HandParser}
    (hh : (p, eof, hp) ∈ readAfter) (u : Uni) (ω : Nat → Nat) (κ : Nat → Nat) :
    ∃ toks, lexAgain src u ω .new eof p [] [] = .ok toks ∧
    ∃ blanks rest, t = blanks ++ rest ∧ Tiles blanks (((withKinds κ toks).takeWhile (fun k => hp.ign.contains k.kind)).map kindLen) ∧
    ∃ cs errs, (∀ slack, readText src u ω p eof κ (hp.parse slack src) = .ok (some (.node hp.root (blen rest) cs), errs)) ∧
      Tiles rest (leavesOfList cs) := by
  have hm : (p ∈ lexEnds ∧ p ∈ lexTile) ∧ hp ∈ handTree ∧ hp ∈ handAfter := by
    simp only [readAfter, List.mem_cons, Prod.mk.injEq, List.not_mem_nil, or_false] at hh
    rcases hh with ⟨rfl, -, rfl⟩ | ⟨rfl, -, rfl⟩ | ⟨rfl, -, rfl⟩ | ⟨rfl, -, rfl⟩ <;> simp [lexEnds, lexTile, handTree, handAfter]
  obtain ⟨toks, rest, e, -, hl, hr⟩ := read_tiles h hm.1.1 hm.1.2 u ω eof
  have ht := tiles_all hl hr κ
  have hs : tokBytes (withKinds κ (toks ++ rest)) = blen t := by rw [tokBytes_eq]; exact tiles_sum ht
  obtain ⟨x, y, hxy, h1, h2, h3⟩ := cut_blanks ht (fun k => hp.ign.contains k.kind)
  obtain ⟨g, errs, h4⟩ := C82_always_a_tree_partial hm.2.1 src (toks := withKinds κ (toks ++ rest)) (by omega)
  obtain ⟨cs, h5, h6⟩ := C83_after_blanks_partial hm.2.2 (by omega) (h4 0)
  refine ⟨_, e, x, y, hxy, h1, cs, errs, fun slack => ?_, h6 ▸ h2⟩
  simp only [readText, e, run_bind_ok]
  rw [h4 slack, h5, h3]

/-- C91: so with a first token that is not ignored the tree holds the whole text. -/
theorem C91_after_all_partial {src : Source} {t : Str} (h : AnySource src t) (hb : blen t < 2 ^ 32) {p : Code} {eof : Bool} {hp : HandParser}
    (hh : (p, eof, hp) ∈ readAfter) (u : Uni) (ω : Nat → Nat) {κ : Nat → Nat} (hκ : κ 0 ∉ hp.ign) :
    ∃ cs errs, (∀ slack, readText src u ω p eof κ (hp.parse slack src) = .ok (some (.node hp.root (blen t) cs), errs)) ∧
      Tiles t (leavesOfList cs) := by
  obtain ⟨toks, _, x, y, rfl, h2, cs, errs, h3, h4⟩ := C91_after_partial h hb hh u ω κ
  have : (withKinds κ toks).takeWhile (fun k => hp.ign.contains k.kind) = [] := by
    cases toks with
    | nil => rfl
    | cons a r =>
      rw [withKinds, List.mapIdx_cons, List.takeWhile_cons_of_neg]
      simpa using hκ
  rw [this] at h2
  obtain ⟨texts, h5, rfl⟩ := h2
  have : texts = [] := List.map_eq_nil_iff.mp h5.symm
  subst this
  exact ⟨cs, errs, h3, h4⟩

/-- C91 fails for them when the first token is ignored: the root is shorter than the text. (The lexer of PowerShell, whose end
token is empty, is left out.) -/
theorem C91_blanks_lost {src : Source} {t : Str} (h : AnySource src t) (hb : blen t < 2 ^ 32) (h0 : t ≠ []) {p : Code} {eof : Bool} {hp : HandParser}
    (hh : (p, eof, hp) ∈ readAfter) (hq : p ∈ lexProper) (u : Uni) (ω : Nat → Nat) {κ : Nat → Nat} (hκ : κ 0 ∈ hp.ign) :
    ∃ w cs errs, (∀ slack, readText src u ω p eof κ (hp.parse slack src) = .ok (some (.node hp.root w cs), errs)) ∧ w < blen t := by
  have hm : (p ∈ lexEnds ∧ p ∈ lexTile) := by
    simp only [readAfter, List.mem_cons, Prod.mk.injEq, List.not_mem_nil, or_false] at hh
    rcases hh with ⟨rfl, -, rfl⟩ | ⟨rfl, -, rfl⟩ | ⟨rfl, -, rfl⟩ | ⟨rfl, -, rfl⟩ <;> simp [lexEnds, lexTile]
  obtain ⟨toks, x, y, z⟩ := C91_after_partial h hb hh u ω κ
  obtain ⟨y, rfl, h2, cs, errs, h3, h4⟩ := z
  obtain ⟨toks', rest, e, e', hl, hr⟩ := read_tiles h hm.1 hm.2 u ω eof
  rw [x] at e; cases e
  refine ⟨_, cs, errs, h3, ?_⟩
  have hne : toks' ≠ [] := by
    rintro rfl
    obtain ⟨texts, h5, h6⟩ := hl
    cases h5
    exact h0 (by simpa using h6.symm)
  obtain ⟨a, r, rfl⟩ := List.exists_cons_of_ne_nil hne
  obtain ⟨s, hs, l, r', _, hs1, hs2⟩ := C88_nonempty_partial h hq e' a (List.mem_cons_self ..)
  have hpos : 0 < blen s := Nat.pos_of_ne_zero (fun h => hs (blen_eq_zero.mp h))
  have := tiles_sum h2
  rw [withKinds, List.cons_append, List.mapIdx_cons, List.takeWhile_cons_of_pos (by simpa using hκ), List.map_cons, List.map_cons, List.sum_cons] at this
  simp only [kindLen] at this
  rw [blen_append]
  omega

/-- A Perl text that begins with a blank, if the lexer gives it a kind that the parser ignores. -/
example : ∃ w cs errs, (∀ slack, readText (strSource " $a".toList) latin (fun _ => 0) HandLex.Perl.run_ true (fun i => if i = 0 then Hand.Perl.tWhitespace else 1)
    (Hand.Perl.parser.parse slack (strSource " $a".toList)) = .ok (some (.node Hand.Perl.parser.root w cs), errs)) ∧ w < 3 :=
  C91_blanks_lost (C05_chunks_contiguous " $a".toList).1 (by decide) (by decide) (by simp [readAfter]) (by simp [lexProper]) latin (fun _ => 0) (by decide)

/-- C91: the same for parsers that stop at an end token, if no other token has its kind. -/
theorem C91_eof_partial {src : Source} {t : Str} (h : AnySource src t) (hb : blen t < 2 ^ 32) {p : Code} {hp : HandParser} {e : Nat}
    (hh : (p, hp, e) ∈ readEof) (u : Uni) (ω : Nat → Nat) (κ : Nat → Nat) :
    ∃ toks, lexAgain src u ω .new true p [] [] = .ok toks ∧ ((∀ i, i + 1 < toks.length → κ i ≠ e) →
    ∃ blanks rest, t = blanks ++ rest ∧
    (∃ n, toks.length ≤ n + 1 ∧ Tiles blanks ((((withKinds κ toks).take n).takeWhile (fun k => hp.ign.contains k.kind)).map kindLen)) ∧
    ∃ cs errs, (∀ slack, readText src u ω p true κ (hp.parse slack src) = .ok (some (.node hp.root (blen rest) cs), errs)) ∧
      Tiles rest (leavesOfList cs)) := by
  have hm : (p ∈ lexEnds ∧ p ∈ lexTile) ∧ hp ∈ handTree ∧ (hp, e) ∈ handEof := by
    simp only [readEof, List.mem_cons, Prod.mk.injEq, List.not_mem_nil, or_false] at hh
    rcases hh with ⟨rfl, rfl, rfl⟩ | ⟨rfl, rfl, rfl⟩ <;> simp [lexEnds, lexTile, handTree, handEof]
  obtain ⟨toks, rest, hx, -, hl, hr⟩ := read_tiles h hm.1.1 hm.1.2 u ω true
  have ht := tiles_all hl hr κ
  have hs : tokBytes (withKinds κ (toks ++ rest)) = blen t := by rw [tokBytes_eq]; exact tiles_sum ht
  refine ⟨_, hx, fun hκ => ?_⟩
  obtain ⟨g, errs, h4⟩ := C82_always_a_tree_partial hm.2.1 src (toks := withKinds κ (toks ++ rest)) (by omega)
  obtain ⟨front, back, cs, h5, h6, h7, h8⟩ := C83_up_to_eof_partial hm.2.2 (by omega) (h4 0)
  have hlr : rest.length = 1 := by simpa using congrArg List.length hr
  have hlw : (withKinds κ (toks ++ rest)).length = toks.length + 1 := by simp [withKinds, hlr]
  have hlen : (withKinds κ (toks ++ rest)).length = front.length + back.length := by rw [h5]; simp
  have hfl : toks.length ≤ front.length := by
    cases back with
    | nil => simp at hlen; omega
    | cons a r =>
      have ha := h6 a rfl
      have hget : (withKinds κ (toks ++ rest))[front.length]? = some a := by rw [h5]; simp
      have hka : κ front.length = e := by
        rw [withKinds, List.getElem?_mapIdx] at hget
        obtain ⟨b, _, hb2⟩ := Option.map_eq_some_iff.mp hget
        rw [← ha, ← hb2]
      have hlast : ¬ (front.length + 1 < (toks ++ rest).length) := fun hlt => hκ _ hlt hka
      rw [List.length_append, hlr] at hlast
      omega
  have hfront : Tiles t (front.map kindLen) := by
    rw [h5, List.map_append] at ht
    refine tiles_empty ht ?_
    cases back with
    | nil => rfl
    | cons a r =>
      have hfl' : front.length = toks.length := by simp at hlen; omega
      have hkl := kinds_len κ (toks ++ rest)
      rw [h5, List.map_append, List.map_append, List.map_append] at hkl
      have := List.append_inj_right hkl (by simp [hfl'])
      rw [this, hr]; rfl
  obtain ⟨x, y, hxy, h1, h2, h3⟩ := cut_blanks hfront (fun k => hp.ign.contains k.kind)
  refine ⟨x, y, hxy, ⟨front.length, by simp only [List.length_append, hlr]; omega, by rw [h5]; simpa using h1⟩, cs, errs, fun slack => ?_, h8 ▸ h2⟩
  simp only [readText, hx, run_bind_ok]
  rw [h4 slack, h7, h3]

/-- C91: the same for parsers that put all tokens below one node with `bump`, whatever kinds they ignore. -/
theorem C91_flat_partial {src : Source} {t : Str} (h : AnySource src t) (hb : blen t < 2 ^ 32) {p : Code} {eof : Bool} (hh : (p, eof) ∈ readFlat)
    {fp : FlatParser} (hf : fp.bumps = true) (u : Uni) (ω : Nat → Nat) (κ : Nat → Nat) :
    ∃ toks, lexAgain src u ω .new eof p [] [] = .ok toks ∧
    ∃ blanks rest, t = blanks ++ rest ∧ Tiles blanks (((withKinds κ toks).takeWhile (fun k => fp.ign k.kind)).map kindLen) ∧
    ∃ cs, readText src u ω p eof κ (fp.parse · src.length) = .ok (.node fp.root (blen rest) cs, []) ∧ Tiles rest (leavesOfList cs) := by
  have hm : p ∈ lexEnds ∧ p ∈ lexTile := by
    simp only [readFlat, List.mem_cons, Prod.mk.injEq, List.not_mem_nil, or_false] at hh
    rcases hh with ⟨rfl, -⟩ | ⟨rfl, -⟩ | ⟨rfl, -⟩ <;> simp [lexEnds, lexTile]
  obtain ⟨toks, rest, e, -, hl, hr⟩ := read_tiles h hm.1 hm.2 u ω eof
  have ht := tiles_all hl hr κ
  have hs : tokBytes (withKinds κ (toks ++ rest)) = blen t := by rw [tokBytes_eq]; exact tiles_sum ht
  obtain ⟨x, y, hxy, h1, h2, h3⟩ := cut_blanks ht (fun k => fp.ign k.kind)
  obtain ⟨w, cs, h4, h5, h6⟩ := C77_bump_partial (n := src.length) hf (toks := withKinds κ (toks ++ rest)) (by omega)
  refine ⟨_, e, x, y, hxy, h1, cs, ?_, h5 ▸ h2⟩
  simp only [readText, e, run_bind_ok]
  rw [h4, h6, h3]

/-- The text `(a` of WebAssembly, with some kinds: the tree has two leaves of one byte. -/
example (slack : Nat) : ∃ cs errs, readText (strSource "(a".toList) latin (fun _ => 0) HandLex.Wat.run_ false (fun i => i)
    (Hand.Wat.parser.parse slack (strSource "(a".toList)) = .ok (some (.node Hand.Wat.parser.root 2 cs), errs) ∧ Tiles "(a".toList (leavesOfList cs) := by
  obtain ⟨cs, errs, h1, h2⟩ := C91_whole_partial ((C05_chunks_contiguous "(a".toList).1) (by decide) (p := HandLex.Wat.run_) (eof := false) (hp := Hand.Wat.parser)
    (by simp [readWhole]) latin (fun _ => 0) (fun i => i)
  exact ⟨cs, errs, h1 slack, h2⟩

/-- The same for Perl, whose parser ignores blanks at the front. -/
example : ∃ cs errs, (∀ slack, readText (strSource "$a".toList) latin (fun _ => 0) HandLex.Perl.run_ true (fun i => i + 1000)
    (Hand.Perl.parser.parse slack (strSource "$a".toList)) = .ok (some (.node Hand.Perl.parser.root 2 cs), errs)) ∧ Tiles "$a".toList (leavesOfList cs) :=
  C91_after_all_partial (C05_chunks_contiguous "$a".toList).1 (by decide) (by simp [readAfter]) latin (fun _ => 0) (by decide)

/-- The text `a b` of a batch file, with kinds that are not ignored. -/
example : ∃ blanks rest, "a b".toList = blanks ++ rest ∧
    ∃ cs errs, (∀ slack, readText (strSource "a b".toList) latin (fun _ => 0) HandLex.Bat.run_ true (fun _ => 1000)
      (Hand.Bat.parser.parse slack (strSource "a b".toList)) = .ok (some (.node Hand.Bat.parser.root (blen rest) cs), errs)) ∧
      Tiles rest (leavesOfList cs) := by
  obtain ⟨toks, _, h⟩ := C91_eof_partial (C05_chunks_contiguous "a b".toList).1 (by decide) (p := HandLex.Bat.run_) (hp := Hand.Bat.parser) (e := 14)
    (by simp [readEof]) latin (fun _ => 0) (fun _ => 1000)
  obtain ⟨x, y, h1, _, h2⟩ := h (by simp)
  exact ⟨x, y, h1, h2⟩

/-- The text `a b` of Pascal. -/
example : ∃ cs, readText (strSource "a b".toList) latin (fun _ => 0) HandLex.Pascal.run_ true (fun i => i + 1)
      ((FlatParser.mk (fun _ => false) 9 true).parse · 3) = .ok (.node 9 3 cs, []) ∧ Tiles "a b".toList (leavesOfList cs) := by
  obtain ⟨toks, _, x, y, h1, h2, cs, h3, h4⟩ := C91_flat_partial (C05_chunks_contiguous "a b".toList).1 (by decide) (p := HandLex.Pascal.run_) (eof := true)
    (by simp [readFlat]) (fp := FlatParser.mk (fun _ => false) 9 true) rfl latin (fun _ => 0) (fun i => i + 1)
  have h5 := tiles_sum h2
  have h6 : (withKinds (fun i => i + 1) toks).takeWhile (fun _ => false) = [] := by cases toks <;> simp [withKinds, List.mapIdx_cons]
  simp only [h6, List.map_nil, List.sum_nil] at h5
  have h7 : x = [] := blen_eq_zero.mp h5.symm
  subst h7
  have h8 : y = "a b".toList := by simpa using h1.symm
  subst h8
  exact ⟨cs, h3, h4⟩

end Oaks.Props
