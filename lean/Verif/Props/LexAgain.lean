import Verif.Model.LexAgain
import Verif.Props.HandLex

/-! C90: lexing a text anew gives the tokens of the text, whatever was lexed before. -/
namespace Oaks.Props
open Spec Lc

/-- The modelled lexers that begin with `new_with_cache(source, 0, cache)`, and whether they add an end token. -/
def lexCached : List (Code × Bool) :=
  [(HandLex.Ada.run_, true), (HandLex.Apl.run_, true), (HandLex.Bat.run_, true), (HandLex.Cmd.run_, true),
   (HandLex.Dart.run_, true), (HandLex.Delphi.run_, true), (HandLex.Elm.run_, true), (HandLex.Go.run_, true),
   (HandLex.J.run_, true), (HandLex.Msil.run_, false), (HandLex.Ocaml.run_, true), (HandLex.Php.run_, true),
   (HandLex.Purescript.run_, true), (HandLex.Tex.run_, true), (HandLex.Vhdl.run_, true), (HandLex.Vlang.lex, true),
   (HandLex.Voml.lex, true)]

/-- C90: for a text that is not empty these lexers answer what they answer without a cache, whatever the cache holds
and whatever the edits are. -/
theorem C90_again_partial {src : Source} {t : Str} (h : AnySource src t) (ht : t ≠ []) {p : Code × Bool} (_ : p ∈ lexCached)
    (u : Uni) (ω : Nat → Nat) (edits : List Nat) (cache : List Tok) :
    lexAgain src u ω .zero p.2 p.1 edits cache = lexAgain src u ω .new p.2 p.1 [] [] := by
  have hl : src.length ≠ 0 := by
    rw [h.1.length_eq]
    exact fun h0 => ht (blen_eq_zero.mp h0)
  have hs : Entry.start .zero src edits cache = Entry.start .new src [] [] := by
    simp only [Entry.start, Lex.newWithCache]
    by_cases hc : cache = []
    · simp [hc]
    · simp [hc, hl]
  simp only [lexAgain, hs]
  rfl

/-- The state of `new_with_cache` on the empty text. -/
private def stale (cache : List Tok) : Lex := ⟨⟨0, ⟨0, []⟩⟩, cache⟩

private theorem start_stale {cache : List Tok} (hc : cache ≠ []) (edits : List Nat) :
    Entry.start .zero (strSource []) edits cache = .ok (stale cache) := by
  have h0 : (strSource []).length = 0 := rfl
  simp only [Entry.start, Lex.newWithCache, hc, h0, Nat.min_zero, Nat.le_refl, ge_iff_le, ↓reduceIte]
  rfl

private theorem forall_cons' {α : Type} {P : α → Prop} {a : α} {l : List α} (h : P a) (hl : ∀ x ∈ l, P x) : ∀ x ∈ a :: l, P x :=
  List.forall_mem_cons.mpr ⟨h, hl⟩
private theorem forall_nil' {α : Type} {P : α → Prop} : ∀ x ∈ ([] : List α), P x := fun _ h => absurd h List.not_mem_nil

/-- Nothing is done at the end of the text. -/
private theorem idle : ∀ p ∈ lexCached, ∀ u ω cache, ∃ regs o,
    exec (strSource []) u ω p.1 ⟨stale cache, fun _ => 0, 0⟩ = .ok (⟨stale cache, regs, 0⟩, o) :=
  forall_cons' (fun _ _ _ => ⟨_, _, rfl⟩) (forall_cons' (fun _ _ _ => ⟨_, _, rfl⟩) (forall_cons' (fun
  _ _ _ => ⟨_, _, rfl⟩) (forall_cons' (fun _ _ _ => ⟨_, _, rfl⟩) (forall_cons' (fun _ _ _ => ⟨_, _, rfl⟩) (forall_cons' (fun _ _ _ => ⟨_, _, rfl⟩) (forall_cons' (fun _ _ _ => ⟨_, _, rfl⟩)
  (forall_cons' (fun _ _ _ => ⟨_, _, rfl⟩) (forall_cons' (fun _ _ _ => ⟨_, _, rfl⟩) (forall_cons' (fun
  _ _ _ => ⟨_, _, rfl⟩) (forall_cons' (fun _ _ _ => ⟨_, _, rfl⟩) (forall_cons' (fun _ _ _ => ⟨_, _, rfl⟩) (forall_cons' (fun _ _ _ => ⟨_, _, rfl⟩) (forall_cons' (fun _ _ _ => ⟨_, _, rfl⟩)
  (forall_cons' (fun _ _ _ => ⟨_, _, rfl⟩) (forall_cons' (fun _ _ _ => ⟨_, _, rfl⟩) (forall_cons' (fun
  _ _ _ => ⟨_, _, rfl⟩) (forall_nil')))))))))))))))))

/-- C90 fails for the empty text: whatever the cache holds, these lexers answer it. The tokens of the text that was
deleted are the tokens of the empty text. -/
theorem C90_deleted {p : Code × Bool} (hp : p ∈ lexCached) (u : Uni) (ω : Nat → Nat) (edits : List Nat) {cache : List Tok} (hc : cache ≠ []) :
    lexAgain (strSource []) u ω .zero p.2 p.1 edits cache = .ok (cache ++ if p.2 then [⟨0, 0, 0⟩] else []) := by
  obtain ⟨regs, o, h⟩ := idle p hp u ω cache
  simp only [lexAgain, start_stale hc, run_bind_ok, h]
  cases p.2 <;> simp [stale, Lex.addEof, Lex.addToken, Lex.pos]

/-- The tokens of the Go lexer for `a b`, and after all of it was deleted. -/
example : (lexAgain (strSource "a b".toList) latin (fun _ => 0) .zero true HandLex.Go.run_ [] []).map spans =
      .ok [(0, 1), (1, 2), (2, 3), (3, 3)] ∧
    (lexAgain (strSource []) latin (fun _ => 0) .zero true HandLex.Go.run_ [0] [⟨0, 0, 1⟩, ⟨0, 1, 2⟩, ⟨0, 2, 3⟩, ⟨0, 3, 3⟩]).map spans =
      .ok [(0, 1), (1, 2), (2, 3), (3, 3), (0, 0)] := by decide +kernel

/-- The Go lexer on `x`, with the tokens of `a b` in the cache. -/
example : (lexAgain (strSource "x".toList) latin (fun _ => 0) .zero true HandLex.Go.run_ [0] [⟨0, 0, 1⟩, ⟨0, 1, 2⟩, ⟨0, 2, 3⟩, ⟨0, 3, 3⟩]).map spans =
    .ok [(0, 1), (1, 1)] := by decide +kernel

/-- C90 fails for TypeScript, which resumes at the first edit: a letter typed at the end of `ab` does not become part of
the word, as the one token that is taken back is the end token. -/
theorem C90_typescript :
    ∃ cache, lexAgain (strSource "ab".toList) latin (fun _ => 0) .edits true HandLex.Typescript.run_ [] [] = .ok cache ∧
      (lexAgain (strSource "abc".toList) latin (fun _ => 0) .edits true HandLex.Typescript.run_ [2] cache).map spans =
        .ok [(0, 2), (2, 3), (3, 3)] ∧
      (lexAgain (strSource "abc".toList) latin (fun _ => 0) .edits true HandLex.Typescript.run_ [] []).map spans =
        .ok [(0, 3), (3, 3)] :=
  ⟨[⟨0, 0, 2⟩, ⟨0, 2, 2⟩], by decide +kernel, by decide +kernel, by decide +kernel⟩

/-- C90 fails for Smalltalk when the end of the text is deleted: the tokens of the old text are answered. -/
theorem C90_smalltalk :
    ∃ cache, lexAgain (strSource "ab".toList) latin (fun _ => 0) .reuse false HandLex.Smalltalk.run_ [] [] = .ok cache ∧
      (lexAgain (strSource "a".toList) latin (fun _ => 0) .reuse false HandLex.Smalltalk.run_ [1] cache).map spans = .ok [(0, 2)] ∧
      (lexAgain (strSource "a".toList) latin (fun _ => 0) .reuse false HandLex.Smalltalk.run_ [] []).map spans = .ok [(0, 1)] :=
  ⟨[⟨0, 0, 2⟩], by decide +kernel, by decide +kernel, by decide +kernel⟩

end Oaks.Props
