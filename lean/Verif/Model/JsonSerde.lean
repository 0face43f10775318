import Verif.Model.Json

/-
Model of `examples/oak-json/src/serde.rs` (cited as serde.rs): turning Rust values into JSON values and back.

The `Serialize` and `Deserialize` of a Rust type are those that serde derives or defines for the standard types
(external); a type is given by its shape (`STy`) and a value by what serde shows of it (`SVal`). Which `visit_*` a type
accepts is that of serde 1: integers take no floating point number. Left out: `f32`, bytes, borrowed types, attributes of
derive. Error messages are dropped: `none` is an error.
-/
namespace Oaks.Serde
open Oaks

mutual
/-- The shape of a type (external: serde's data model; serde.rs:18-135). Maps have `String`-like keys of shape `key`. -/
inductive STy where
  | bool
  | int (signed : Bool) (bits : Nat)
  | f64
  | char
  | str
  | unit
  | opt (t : STy)
  | newtype (t : STy)
  | seq (t : STy)
  | tuple (ts : List STy)
  | map (key val : STy)
  | struct (fs : List (Str × STy))
  | enum (vs : List (Str × SVar))
/-- The shape of a variant of an enum (external: serde's data model; serde.rs:18-135). -/
inductive SVar where
  | unit
  | newtype (t : STy)
  | tuple (ts : List STy)
  | struct (fs : List (Str × STy))
end

/-- A value as serde shows it to a serializer (external: serde's data model; serde.rs:18-135); a number is a `ν`. -/
inductive SVal (ν : Type) where
  | bool (b : Bool)
  | int (signed : Bool) (bits : Nat) (n : Int)
  | f64 (x : ν)
  | char (c : Char)
  | str (s : Str)
  | unit
  | none
  | some (v : SVal ν)
  | newtype (v : SVal ν)
  | seq (vs : List (SVal ν))
  | tuple (vs : List (SVal ν))
  | map (es : List (SVal ν × SVal ν))
  | struct (fs : List (Str × SVal ν))
  | uvar (name : Str)
  | nvar (name : Str) (v : SVal ν)
  | tvar (name : Str) (vs : List (SVal ν))
  | svar (name : Str) (fs : List (Str × SVal ν))

section
variable {ν : Type} (ofInt : Int → ν) (showNum : ν → Str)

/-- `KeySerializer` (serde.rs:257-354). -/
def keyText : SVal ν → Option Str
  | .bool b => some (if b then "true".toList else "false".toList)
  | .int _ bits n => if bits = 128 then none else some (toString n).toList
  | .f64 x => some (showNum x)
  | .char c => some [c]
  | .str s => some s
  | .uvar name => some name
  | .newtype v => keyText v
  | _ => none

mutual
/-- `to_value` with `Serializer` (serde.rs:10-12, 18-135), `SerializeArray` (137-179), `SerializeObject` (181-218) and
`SerializeVariant` (220-255); `ofInt` is `as f64`. Integers of 128 bits are an error (serde's default for a serializer). -/
def toValue : SVal ν → Option (JsonVal ν)
  | .bool b => some (.bool b)
  | .int _ bits n => if bits = 128 then none else some (.num (ofInt n))
  | .f64 x => some (.num x)
  | .char c => some (.str [c])
  | .str s => some (.str s)
  | .unit => some .null
  | .none => some .null
  | .some v => toValue v
  | .newtype v => toValue v
  | .seq vs => (toValues vs).map .arr
  | .tuple vs => (toValues vs).map .arr
  | .map es => (toEntries es).map .obj
  | .struct fs => (toFields fs).map .obj
  | .uvar name => some (.str name)
  | .nvar name v => (toValue v).map fun j => .obj [(name, j)]
  | .tvar name vs => (toValues vs).map fun js => .obj [(name, .arr js)]
  | .svar name fs => (toFields fs).map fun js => .obj [(name, .arr (js.map fun f => .obj [f]))]
/-- The elements of a sequence (serde.rs:145-148, 229-232). -/
def toValues : List (SVal ν) → Option (List (JsonVal ν))
  | [] => some []
  | v :: vs => do
    let j ← toValue v
    let js ← toValues vs
    return j :: js
/-- The fields of a struct (serde.rs:210-213, 245-248). -/
def toFields : List (Str × SVal ν) → Option (List (Str × JsonVal ν))
  | [] => some []
  | (k, v) :: fs => do
    let j ← toValue v
    let js ← toFields fs
    return (k, j) :: js
/-- The entries of a map (serde.rs:190-199). -/
def toEntries : List (SVal ν × SVal ν) → Option (List (Str × JsonVal ν))
  | [] => some []
  | (k, v) :: es => do
    let s ← keyText showNum k
    let j ← toValue v
    let js ← toEntries es
    return (s, j) :: js
end

/-- Reading a field that is not there (external: `missing_field` of serde's derive; serde.rs:594-619): only an `Option` is
read. -/
def missing : STy → Option (SVal ν)
  | .opt _ => some .none
  | _ => none

/-- Inserting the entries read into a map (external: `HashMap::insert`; serde.rs:594-619): a later entry of the same name
replaces an earlier one. Keys read from different names are different, so that the name stands for the key. -/
def putNamed {V : Type} (m : List (Str × V)) (e : Str × V) : List (Str × V) :=
  if m.any (fun f => decide (f.1 = e.1)) then m.map fun f => if f.1 = e.1 then e else f else m ++ [e]

mutual
/-- `from_value` (serde.rs:14-16) with `Deserializer` for `JsonValue` (356-557), `SeqDeserializer` (559-581),
`MapDeserializer` (583-619), and the visitors of the types (external). Through `deserialize_any` (359-371) a number is
visited as `f64`, which integers refuse; a tuple reads as many elements as it has; a struct is read from an array also. -/
def fromValue : STy → JsonVal ν → Option (SVal ν)
  | .bool, .bool b => some (.bool b)
  | .f64, .num x => some (.f64 x)
  | .char, .str [c] => some (.char c)
  | .str, .str s => some (.str s)
  | .unit, .null => some .unit
  | .opt _, .null => some .none
  | .opt t, j => (fromValue t j).map .some
  | .newtype t, j => (fromValue t j).map .newtype
  | .seq t, .arr js => (js.mapM (fromValue t)).map .seq
  | .tuple ts, .arr js => (fromTuple ts js).map .tuple
  | .map k t, .obj es => do
    let rs ← es.mapM fun e => do
      let key ← fromValue k (.str e.1)
      let v ← fromValue t e.2
      return (e.1, key, v)
    return .map ((rs.foldl putNamed []).map (·.2))
  | .struct fs, .obj es => (fromFields fs es).map .struct
  | .struct fs, .arr js => (fromOrder fs js).map .struct
  | .enum vs, .str s => fromEnum vs s none
  | .enum vs, .obj [(name, j)] => fromEnum vs name (some j)
  | _, _ => none
/-- The visitor of a tuple (external; serde.rs:569-581). -/
def fromTuple : List STy → List (JsonVal ν) → Option (List (SVal ν))
  | [], _ => some []
  | _ :: _, [] => none
  | t :: ts, j :: js => do
    let v ← fromValue t j
    let vs ← fromTuple ts js
    return v :: vs
/-- The visitor of a struct given an array (external; serde.rs:569-581). -/
def fromOrder : List (Str × STy) → List (JsonVal ν) → Option (List (Str × SVal ν))
  | [], _ => some []
  | _ :: _, [] => none
  | (k, t) :: fs, j :: js => do
    let v ← fromValue t j
    let vs ← fromOrder fs js
    return (k, v) :: vs
/-- The visitor of a struct given an object (external; serde.rs:594-619): unknown fields are skipped, a field given twice is an
error. -/
def fromFields : List (Str × STy) → List (Str × JsonVal ν) → Option (List (Str × SVal ν))
  | [], _ => some []
  | (k, t) :: fs, es => do
    let v ← match es.filter fun e => decide (e.1 = k) with
      | [] => missing t
      | [e] => fromValue t e.2
      | _ => none
    let vs ← fromFields fs es
    return (k, v) :: vs
/-- `EnumDeserializer` (serde.rs:621-643) and `VariantDeserializer` (645-647): the variant of that name. -/
def fromEnum : List (Str × SVar) → Str → Option (JsonVal ν) → Option (SVal ν)
  | [], _, _ => none
  | (n, k) :: vs, name, val => if n = name then fromVariant k name val else fromEnum vs name val
/-- `VariantAccess` (serde.rs:649-688). -/
def fromVariant : SVar → Str → Option (JsonVal ν) → Option (SVal ν)
  | .unit, name, none => some (.uvar name)
  | .newtype t, name, some j => (fromValue t j).map (.nvar name)
  | .tuple ts, name, some (.arr js) => (fromTuple ts js).map (.tvar name)
  | .struct fs, name, some (.obj es) => (fromFields fs es).map (.svar name)
  | _, _, _ => none
end

end

/-- `to_string` of the crate (examples/oak-json/src/lib.rs:49-53). -/
def toStr {ν : Type} (ofInt : Int → ν) (showNum : ν → Str) (v : SVal ν) : Option Str :=
  (toValue ofInt showNum v).map (Json.toText showNum)

/-- `from_str` of the crate (examples/oak-json/src/lib.rs:55-59) with `parse` (61-70): errors recorded by the parser are
dropped, as there. -/
def fromStr {ν : Type} (num : Str → Option ν) (cc : CharClass) (t : STy) (s : Str) : Run (Option (SVal ν)) := do
  let r ← Json.build num .standard cc (textSource s)
  return r.1.bind (fromValue t)

end Oaks.Serde
