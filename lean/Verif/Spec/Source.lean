import Verif.Model.Source

/-
The contract of the `Source` trait, stated against a plain text.
-/
namespace Oaks.Spec
open Oaks

/-- `src` presents the text `t`: right length; at every character boundary inside the text,
`chunk_at` gives a chunk that contains the offset and is a piece of the text at its stated
position; past the end it gives the empty chunk; `get_text_in` of a range is its text. -/
structure Lawful (src : Source) (t : Str) : Prop where
  length_eq : src.length = blen t
  chunk : ∀ o, o < blen t → Boundary t o →
    ∃ c, src.chunkAt o = .ok c ∧ IsSlice t c.start c.stop c.text ∧ c.start ≤ o ∧ o < c.stop
  past : ∀ o, blen t ≤ o → src.chunkAt o = .ok ⟨blen t, []⟩
  textIn : ∀ a b m, IsSlice t a b m → src.textIn a b = .ok m

end Oaks.Spec
