import Verif.Spec.Text

/-! What is asked of a tree and the text it was made of. -/
namespace Oaks.Spec

/-- Leaves, given by kind and length, that cut the text into its pieces from the first byte to the last, each between two
characters. -/
def Tiles (t : Str) (leaves : List (Nat × Nat)) : Prop := ∃ texts : List Str, leaves.map (·.2) = texts.map blen ∧ texts.flatten = t

end Oaks.Spec
