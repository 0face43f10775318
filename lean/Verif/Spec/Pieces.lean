import Verif.Model.Parser
import Verif.Spec.Text

/-
A text cut into pieces from left to right, each given a token kind or none.
-/
namespace Oaks.Spec
open Oaks

/-- The text is the pieces one after another; none is empty; each is as `P` (kind, piece, text after it) says. -/
inductive Cut (P : Option Nat → Str → Str → Prop) : Str → List (Option Nat × Str) → Prop where
  | nil : Cut P [] []
  | cons {k m rest ps} : m ≠ [] → P k m rest → Cut P rest ps → Cut P (m ++ rest) ((k, m) :: ps)

/-- The tokens of pieces that begin at byte `pos`: one for each piece with a kind. -/
def tokensOf (pos : Nat) : List (Option Nat × Str) → List Tok
  | [] => []
  | (some k, m) :: ps => ⟨k, pos, pos + blen m⟩ :: tokensOf (pos + blen m) ps
  | (none, m) :: ps => tokensOf (pos + blen m) ps

/-- The text is rows of pieces one after another; no row is empty text; each is as `B` (row, text after it) says. -/
inductive Rows (B : List (Option Nat × Str) → Str → Prop) : Str → List (Option Nat × Str) → Prop where
  | nil : Rows B [] []
  | cons {row rest ps} : row.flatMap (·.2) ≠ [] → B row rest → Rows B rest ps → Rows B (row.flatMap (·.2) ++ rest) (row ++ ps)

end Oaks.Spec
