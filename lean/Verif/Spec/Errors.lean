import Verif.Model.Errors

/- What an error is about, said field by field and without its text. -/
namespace Oaks.Spec
open Oaks

/-- Where an error has room for a source: what is there. -/
def sourceOf : OakErr → Option (Option Nat)
  | .io _ s | .syntaxError _ _ s | .unexpectedCharacter _ _ s | .unexpectedToken _ _ s | .unexpectedEof _ s
  | .expectedToken _ _ s | .expectedName _ _ s | .trailingComma _ s => some s
  | _ => none

/-- The byte offset of an error. -/
def offsetOf : OakErr → Option Nat
  | .syntaxError _ o _ | .unexpectedCharacter _ o _ | .unexpectedToken _ o _ | .unexpectedEof o _
  | .expectedToken _ o _ | .expectedName _ o _ | .trailingComma o _ => some o
  | _ => none

/-- Two errors are the same but for the source. -/
def SameButSource : OakErr → OakErr → Prop
  | .io e _, .io e' _ => e = e'
  | .syntaxError m o _, .syntaxError m' o' _ => m = m' ∧ o = o'
  | .unexpectedCharacter c o _, .unexpectedCharacter c' o' _ => c = c' ∧ o = o'
  | .unexpectedToken t o _, .unexpectedToken t' o' _ => t = t' ∧ o = o'
  | .unexpectedEof o _, .unexpectedEof o' _ => o = o'
  | .expectedToken t o _, .expectedToken t' o' _ => t = t' ∧ o = o'
  | .expectedName n o _, .expectedName n' o' _ => n = n' ∧ o = o'
  | .trailingComma o _, .trailingComma o' _ => o = o'
  | e, e' => e = e'

/-- The errors about a failed test: they hold two texts. -/
def IsTestFailure : OakErr → Prop
  | .testFailure .. => True
  | _ => False

/-- Two errors tell a reader the same: errors of the file system may differ in their kind and their code, if their text is the same. -/
def Tells : OakErr → OakErr → Prop
  | .io e s, .io e' s' => e.text = e'.text ∧ s = s'
  | e, e' => e = e'

end Oaks.Spec
