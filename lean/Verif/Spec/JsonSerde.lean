import Verif.Model.JsonSerde
import Verif.Spec.Json

/-
What it means that values survive being turned into JSON and back.
-/
namespace Oaks.Serde.Spec
open Oaks Oaks.Serde

mutual
/-- The value is of that type. -/
def HasTy {ν : Type} : STy → SVal ν → Prop
  | .bool, v => ∃ b, v = .bool b
  | .int s bits, v => ∃ n, v = .int s bits n
  | .f64, v => ∃ x, v = .f64 x
  | .char, v => ∃ c, v = .char c
  | .str, v => ∃ s, v = .str s
  | .unit, v => v = .unit
  | .opt t, v => v = .none ∨ ∃ w, v = .some w ∧ HasTy t w
  | .newtype t, v => ∃ w, v = .newtype w ∧ HasTy t w
  | .seq t, v => ∃ ws, v = .seq ws ∧ ∀ w ∈ ws, HasTy t w
  | .tuple ts, v => ∃ ws, v = .tuple ws ∧ HasTys ts ws
  | .map k t, v => ∃ es, v = .map es ∧ (∀ e ∈ es, HasTy k e.1 ∧ HasTy t e.2) ∧ (es.map (·.1)).Nodup
  | .struct fs, v => ∃ ws, v = .struct ws ∧ HasFields fs ws
  | .enum vs, v => HasVariant vs v
/-- The values are of these types, in order. -/
def HasTys {ν : Type} : List STy → List (SVal ν) → Prop
  | [], vs => vs = []
  | t :: ts, vs => ∃ w ws, vs = w :: ws ∧ HasTy t w ∧ HasTys ts ws
/-- The fields have these names and types, in order. -/
def HasFields {ν : Type} : List (Str × STy) → List (Str × SVal ν) → Prop
  | [], vs => vs = []
  | (k, t) :: fs, vs => ∃ w ws, vs = (k, w) :: ws ∧ HasTy t w ∧ HasFields fs ws
/-- The value is one of these variants. -/
def HasVariant {ν : Type} : List (Str × SVar) → SVal ν → Prop
  | [], _ => False
  | (n, k) :: vs, v => HasKind n k v ∨ HasVariant vs v
/-- The value is this variant. -/
def HasKind {ν : Type} (n : Str) : SVar → SVal ν → Prop
  | .unit, v => v = .uvar n
  | .newtype t, v => ∃ w, v = .nvar n w ∧ HasTy t w
  | .tuple ts, v => ∃ ws, v = .tvar n ws ∧ HasTys ts ws
  | .struct fs, v => ∃ ws, v = .svar n ws ∧ HasFields fs ws
end

mutual
/-- A type Rust accepts: the names of fields and of variants are distinct. -/
def Proper : STy → Prop
  | .opt t => Proper t
  | .newtype t => Proper t
  | .seq t => Proper t
  | .tuple ts => ProperAll ts
  | .map k t => Proper k ∧ Proper t
  | .struct fs => (fs.map (·.1)).Nodup ∧ ProperFields fs
  | .enum vs => (vs.map (·.1)).Nodup ∧ ProperVars vs
  | _ => True
/-- All types are proper. -/
def ProperAll : List STy → Prop
  | [] => True
  | t :: ts => Proper t ∧ ProperAll ts
/-- The types of all fields are proper. -/
def ProperFields : List (Str × STy) → Prop
  | [] => True
  | (_, t) :: fs => Proper t ∧ ProperFields fs
/-- All variants are proper. -/
def ProperVars : List (Str × SVar) → Prop
  | [] => True
  | (_, k) :: vs => ProperVar k ∧ ProperVars vs
/-- The variant is proper. -/
def ProperVar : SVar → Prop
  | .unit => True
  | .newtype t => Proper t
  | .tuple ts => ProperAll ts
  | .struct fs => (fs.map (·.1)).Nodup ∧ ProperFields fs
end

/-- A value of the type may be written as `null`. -/
def Nullable : STy → Prop
  | .unit => True
  | .opt _ => True
  | .newtype t => Nullable t
  | _ => False

/-- Every variant is a unit. -/
def Units : List (Str × SVar) → Prop
  | [] => True
  | (_, .unit) :: vs => Units vs
  | _ :: _ => False

/-- Keys of the type are texts: strings, characters, unit variants and wrappers of them. -/
def Textual : STy → Prop
  | .str => True
  | .char => True
  | .newtype t => Textual t
  | .enum vs => Units vs
  | _ => False

mutual
/-- The types that are read back: no integers, no option of a type that may be `null`, no variant with named fields, maps with textual
keys. -/
def Kept : STy → Prop
  | .int _ _ => False
  | .opt t => Kept t ∧ ¬ Nullable t
  | .newtype t => Kept t
  | .seq t => Kept t
  | .tuple ts => KeptAll ts
  | .map k t => Textual k ∧ Kept t
  | .struct fs => KeptFields fs
  | .enum vs => KeptVars vs
  | _ => True
/-- All types are read back. -/
def KeptAll : List STy → Prop
  | [] => True
  | t :: ts => Kept t ∧ KeptAll ts
/-- The types of all fields are read back. -/
def KeptFields : List (Str × STy) → Prop
  | [] => True
  | (_, t) :: fs => Kept t ∧ KeptFields fs
/-- All variants are read back. -/
def KeptVars : List (Str × SVar) → Prop
  | [] => True
  | (_, k) :: vs => KeptVar k ∧ KeptVars vs
/-- The variant is read back. -/
def KeptVar : SVar → Prop
  | .unit => True
  | .newtype t => Kept t
  | .tuple ts => KeptAll ts
  | .struct _ => False
end

mutual
/-- The texts in the value have no quotes and no backslashes and its numbers are read back. -/
def PlainTexts {ν : Type} (ok : ν → Prop) : SVal ν → Prop
  | .f64 x => ok x
  | .char c => Oaks.Spec.PlainString [c]
  | .str s => Oaks.Spec.PlainString s
  | .some v => PlainTexts ok v
  | .newtype v => PlainTexts ok v
  | .seq vs => PlainTextsAll ok vs
  | .tuple vs => PlainTextsAll ok vs
  | .map es => PlainTextsMap ok es
  | .struct fs => PlainTextsFields ok fs
  | .uvar n => Oaks.Spec.PlainString n
  | .nvar n v => Oaks.Spec.PlainString n ∧ PlainTexts ok v
  | .tvar n vs => Oaks.Spec.PlainString n ∧ PlainTextsAll ok vs
  | _ => True
/-- All are plain. -/
def PlainTextsAll {ν : Type} (ok : ν → Prop) : List (SVal ν) → Prop
  | [] => True
  | v :: vs => PlainTexts ok v ∧ PlainTextsAll ok vs
/-- All names and fields are plain. -/
def PlainTextsFields {ν : Type} (ok : ν → Prop) : List (Str × SVal ν) → Prop
  | [] => True
  | (k, v) :: fs => Oaks.Spec.PlainString k ∧ PlainTexts ok v ∧ PlainTextsFields ok fs
/-- All keys and values are plain. -/
def PlainTextsMap {ν : Type} (ok : ν → Prop) : List (SVal ν × SVal ν) → Prop
  | [] => True
  | (k, v) :: es => PlainTexts ok k ∧ PlainTexts ok v ∧ PlainTextsMap ok es
end

end Oaks.Serde.Spec
