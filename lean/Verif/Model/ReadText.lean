import Verif.Model.LexAgain

/-
From the text to the tree: `parse_with_lexer` of oak-core, which lets the lexer work and gives its tokens to the parser.

Simplifications: the programs of Model/HandLex have no kinds of tokens; `κ` gives the kind of the `i`-th token, and
statements are for all `κ`. The cache has no tokens: `prepare_generation`
takes them out before `lex` is called (projects/oak-core/src/parser/session.rs:85-92). There is no old tree.
-/
namespace Oaks.Lc

/-- The tokens with their kinds (the first argument of `add_token`, projects/oak-core/src/lexer/mod.rs:638-640). -/
def withKinds (κ : Nat → Nat) (toks : List Tok) : List Tok := toks.mapIdx fun i k => { k with kind := κ i }

/-- `parse_with_lexer` (projects/oak-core/src/parser/mod.rs:77-120): `lex` (Model/LexAgain.lean), then `parse`. -/
def readText {α : Type} (src : Source) (u : Uni) (ω : Nat → Nat) (p : Code) (eof : Bool) (κ : Nat → Nat) (parse : List Tok → Run α) : Run α := do
  let toks ← lexAgain src u ω .new eof p [] []
  parse (withKinds κ toks)

end Oaks.Lc
