import Verif.Model.XmlSerde
import Verif.Spec.JsonSerde

/-
What it means that values survive being turned into XML and back.
-/
namespace Oaks.XmlSerde.Spec
open Oaks Oaks.Serde Oaks.Serde.Spec

/-- Keys of maps that are read: strings, characters, unit variants. -/
def KeyTy : STy → Prop
  | .str => True
  | .char => True
  | .enum vs => Units vs
  | _ => False

/-- A string, or a wrapper of one. -/
def IsText : STy → Prop
  | .str => True
  | .newtype t => IsText t
  | _ => False

mutual
/-- Types that are read from an element of their own: strings, structs, maps, and wrappers. -/
def Item : STy → Prop
  | .str => True
  | .newtype t => Item t
  | .struct fs => Fields fs
  | .map k t => KeyTy k ∧ Field t
  | _ => False
/-- All are. -/
def Items : List STy → Prop
  | [] => True
  | t :: ts => Item t ∧ Items ts
/-- Types that are read from a field: those, and tuples of two and more of them. -/
def Field : STy → Prop
  | .str => True
  | .newtype t => Field t
  | .struct fs => Fields fs
  | .map k t => KeyTy k ∧ Field t
  | .tuple ts => 2 ≤ ts.length ∧ Items ts
  | _ => False
/-- The types of all fields are. -/
def Fields : List (Str × STy) → Prop
  | [] => True
  | (_, t) :: fs => Field t ∧ Fields fs
end

/-- Fields that are strings. -/
def TextFields : List (Str × STy) → Prop
  | [] => True
  | (_, t) :: fs => IsText t ∧ TextFields fs

mutual
/-- Types that are read where nothing is around them: those of fields, characters, sequences and tuples of any length, and
enums. -/
def Whole : STy → Prop
  | .str => True
  | .char => True
  | .newtype t => Whole t
  | .seq t => Whole t
  | .tuple ts => Wholes ts
  | .struct fs => Fields fs
  | .map k t => KeyTy k ∧ Field t
  | .enum vs => Variants vs
  | _ => False
/-- All are. -/
def Wholes : List STy → Prop
  | [] => True
  | t :: ts => Whole t ∧ Wholes ts
/-- All variants are. -/
def Variants : List (Str × SVar) → Prop
  | [] => True
  | (_, k) :: vs => Variant k ∧ Variants vs
/-- The variant is: of a string, of a tuple, or with fields that are strings. -/
def Variant : SVar → Prop
  | .unit => True
  | .newtype t => IsText t
  | .tuple ts => Wholes ts
  | .struct fs => TextFields fs
end

/-- A name without meaning of its own. -/
def PlainName (k : Str) : Prop := k.head? ≠ some '↯' ∧ k ≠ "$value".toList

/-- A key of that kind. -/
def PlainKey {ν : Type} : SVal ν → Prop
  | .str s => PlainName s
  | .char c => PlainName [c]
  | .uvar n => PlainName n
  | _ => True

mutual
/-- The names of fields and the keys of maps in the value have no meaning of their own. -/
def PlainNames {ν : Type} : SVal ν → Prop
  | .some v => PlainNames v
  | .newtype v => PlainNames v
  | .seq vs => AllPlain vs
  | .tuple vs => AllPlain vs
  | .map es => PlainEntries es
  | .struct fs => PlainFields fs
  | .nvar _ v => PlainNames v
  | .tvar _ vs => AllPlain vs
  | .svar _ fs => PlainFields fs
  | _ => True
/-- In all values. -/
def AllPlain {ν : Type} : List (SVal ν) → Prop
  | [] => True
  | v :: vs => PlainNames v ∧ AllPlain vs
/-- In all fields. -/
def PlainFields {ν : Type} : List (Str × SVal ν) → Prop
  | [] => True
  | (k, v) :: fs => PlainName k ∧ PlainNames v ∧ PlainFields fs
/-- In all entries. -/
def PlainEntries {ν : Type} : List (SVal ν × SVal ν) → Prop
  | [] => True
  | (k, v) :: es => PlainKey k ∧ PlainNames v ∧ PlainEntries es
end

/-- The name a key of a map is written as. -/
inductive KeyName {ν : Type} (shw : ν → Str) : SVal ν → Str → Prop
  | yes : KeyName shw (.bool true) "true".toList
  | no : KeyName shw (.bool false) "false".toList
  | int (signed : Bool) {bits : Nat} (h : bits ≠ 128) (n : Int) : KeyName shw (.int signed bits n) (toString n).toList
  | f64 (x : ν) : KeyName shw (.f64 x) (shw x)
  | char (c : Char) : KeyName shw (.char c) [c]
  | str (s : Str) : KeyName shw (.str s) s
  | unit : KeyName shw .unit []
  | none : KeyName shw .none []
  | some {v : SVal ν} {s : Str} : KeyName shw v s → KeyName shw (.some v) s
  | newtype {v : SVal ν} {s : Str} : KeyName shw v s → KeyName shw (.newtype v) s
  | uvar (n : Str) : KeyName shw (.uvar n) n
  | nvar (n : Str) (v : SVal ν) : KeyName shw (.nvar n v) n

end Oaks.XmlSerde.Spec
