import Verif.Spec.Text
import Verif.Model.Lexer
import Mathlib.Data.List.Forall2

/-! What can be asked of the tokens of a lexer, whatever the language. -/
namespace Oaks.Spec

/-- The token stands for the piece `s` of the text: it begins and ends between two characters. -/
def Piece (t : Str) (k : Tok) (s : Str) : Prop := IsSlice t k.start k.stop s

/-- Every token ends before the next begins. -/
def InOrder (toks : List Tok) : Prop := toks.Pairwise (fun a b => a.stop ≤ b.start)

/-- The texts of the tokens, one after the other, are the text. -/
def Lossless (t : Str) (toks : List Tok) : Prop := ∃ texts, List.Forall₂ (Piece t) toks texts ∧ texts.flatten = t

end Oaks.Spec
