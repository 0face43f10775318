import Verif.Model.Xml
import Verif.Model.JsonSerde

/-
Model of `examples/oak-xml/src/serde.rs` (cited as serde.rs): turning Rust values into XML values and back.

Types and values are those of Model/JsonSerde (what serde shows of them). The name of a struct type is a function `nm` of the
names of its fields, since values do not carry it. Which `visit_*` a type accepts is that of serde 1. Left out: `f32`, bytes,
borrowed types, attributes of derive, and what is printed to the console (serde.rs:705). An error is `none`.
-/
namespace Oaks.XmlSerde
open Oaks Oaks.Serde

section
variable {ν : Type} (ofInt : Int → ν) (showNum : ν → Str) (nm : List Str → Str)

/-- An element without attributes and place, as the serializer makes them (serde.rs:139, 231, 241, 246, 297, 307, 315). -/
def node (name : Str) (kids : List XmlVal) : XmlVal := .element name [] kids 0 0

/-- `StringSerializer` (serde.rs:333-430). Integers of 128 bits are an error (serde's default for a serializer). -/
def keyText : SVal ν → Option Str
  | .bool b => some (if b then "true".toList else "false".toList)
  | .int _ bits n => if bits = 128 then none else some (toString n).toList
  | .f64 x => some (showNum x)
  | .char c => some [c]
  | .str s => some s
  | .unit => some []
  | .none => some []
  | .some v => keyText v
  | .newtype v => keyText v
  | .uvar name => some name
  | .nvar name _ => some name
  | _ => none

/-- An element gets the key as its name, anything else an element of that name around it (serde.rs:290-299, 302-308). -/
def rename (key : Str) : XmlVal → XmlVal
  | .element _ as ks a b => .element key as ks a b
  | v => node key [v]

/-- The children a field adds (`serialize_value`, serde.rs:266-312). For a key that begins with `↯` the name of the attribute is
`key[1..]` (272), which is inside of that character. -/
def putField (key : Str) (val : XmlVal) : Run (List XmlVal) :=
  if key.head? = some '↯' then .error .panic
  else if key = "$value".toList then
    match val with
    | .fragment vs => .ok vs
    | v => .ok [v]
  else
    match val with
    | .fragment vs => .ok (vs.map (rename key))
    | v => .ok [rename key v]

/-- Going on with a result that is not an error (external: `?`; serde.rs:138, 185, 226, 240, 262, 268). -/
def andThen {α β : Type} (x : Run (Option α)) (f : α → Run (Option β)) : Run (Option β) := do
  match ← x with
  | none => return none
  | some a => f a

mutual
/-- `to_value` with `Serializer` (serde.rs:41-43, 49-174), `SerializeArray` (176-214), `SerializeVariant` (216-248) and
`SerializeObject` (250-331). -/
def toXml : SVal ν → Run (Option XmlVal)
  | .bool b => return some (.text (if b then "true".toList else "false".toList))
  | .int _ bits n => return if bits = 128 then none else some (.text (showNum (ofInt n)))
  | .f64 x => return some (.text (showNum x))
  | .char c => return some (.text [c])
  | .str s => return some (.text s)
  | .unit => return some (.text [])
  | .none => return some (.text [])
  | .some v => toXml v
  | .newtype v => toXml v
  | .seq vs => andThen (toXmls vs) fun xs => .ok (some (.fragment xs))
  | .tuple vs => andThen (toXmls vs) fun xs => .ok (some (.fragment xs))
  | .map es => andThen (toEntries es) fun xs => .ok (some (node "root".toList xs))
  | .struct fs => andThen (toFields fs) fun xs => .ok (some (node (nm (fs.map (·.1))) xs))
  | .uvar name => return some (.text name)
  | .nvar name v => andThen (toXml v) fun x => .ok (some (node name [x]))
  | .tvar name vs => andThen (toXmls vs) fun xs => .ok (some (node name xs))
  | .svar name fs => andThen (toVariant fs) fun xs => .ok (some (node name xs))
/-- The elements of a sequence (serde.rs:184-187, 225-228). -/
def toXmls : List (SVal ν) → Run (Option (List XmlVal))
  | [] => return some []
  | v :: vs => andThen (toXml v) fun x => andThen (toXmls vs) fun xs => .ok (some (x :: xs))
/-- The fields of a struct (serde.rs:323-326). -/
def toFields : List (Str × SVal ν) → Run (Option (List XmlVal))
  | [] => return some []
  | (k, v) :: fs => andThen (toXml v) fun x => do
    let ks ← putField k x
    andThen (toFields fs) fun xs => .ok (some (ks ++ xs))
/-- The fields of a variant (serde.rs:239-243). -/
def toVariant : List (Str × SVal ν) → Run (Option (List XmlVal))
  | [] => return some []
  | (k, v) :: fs => andThen (toXml v) fun x => andThen (toVariant fs) fun xs => .ok (some (node k [x] :: xs))
/-- The entries of a map (serde.rs:261-312). -/
def toEntries : List (SVal ν × SVal ν) → Run (Option (List XmlVal))
  | [] => return some []
  | (k, v) :: es =>
    match keyText showNum k with
    | none => return none
    | some s => andThen (toXml v) fun x => do
      let ks ← putField s x
      andThen (toEntries es) fun xs => .ok (some (ks ++ xs))
end

/-- Adding a value to the entry of that key, or a new entry (serde.rs:673-679, 682-687). -/
def addTo (k : Str) (v : XmlVal) : List (Str × List XmlVal) → List (Str × List XmlVal)
  | [] => [(k, [v])]
  | e :: es => if e.1 = k then (e.1, e.2 ++ [v]) :: es else e :: addTo k v es

/-- A child of an element among the entries (serde.rs:670-690). -/
def addChild (es : List (Str × List XmlVal)) : XmlVal → List (Str × List XmlVal)
  | .element n as ks a b => addTo n (.element n as ks a b) es
  | .text t => addTo "$value".toList (.text t) es
  | _ => es

/-- The value of an entry (serde.rs:696-704). -/
def entryVal : List XmlVal → XmlVal
  | [v] => v
  | vs => .fragment vs

/-- `MapDeserializer::new` (serde.rs:662-711). -/
def mapOf (as : List XmlAttr) (ks : List XmlVal) : List (Str × XmlVal) :=
  (ks.foldl addChild (as.map fun a => ('↯' :: a.name, [.text a.value]))).map fun e => (e.1, entryVal e.2)

/-- The text, if the value is one (external: `Iterator::all` with `matches!`; serde.rs:554). -/
def plain : XmlVal → Option Str
  | .text t => some t
  | _ => none

/-- `deserialize_str` (serde.rs:547-577) with the visitor of `String` (external), which takes texts only. -/
def readText : XmlVal → Option Str
  | .text t => some t
  | .element _ [] ks _ _ => (ks.mapM plain).map List.flatten
  | .fragment vs => some (vs.flatMap Xml.toText)
  | _ => none

/-- The elements `deserialize_seq` shows (serde.rs:608-617). -/
def listOf : XmlVal → Option (List XmlVal)
  | .element _ _ ks _ _ => some ks
  | .fragment vs => some vs
  | _ => none

/-- Reading a key (external: `StrDeserializer` of serde with the visitors of the types; serde.rs:723): it shows a text, or a unit
variant, whatever is asked for. -/
def readKey : STy → Str → Option (SVal ν)
  | .char, [c] => some (.char c)
  | .str, s => some (.str s)
  | .enum vs, s => (vs.find? fun v => decide (v.1 = s)).bind fun v => match v.2 with
    | .unit => some (.uvar s)
    | _ => none
  | _, _ => none

mutual
/-- `from_value` (serde.rs:45-47) with `Deserializer` for `XmlValue` (432-654), `SeqDeserializer` (740-762), `MapDeserializer`
(714-738), and the visitors of the types (external). Texts are shown as strings, which `bool`, numbers and `()` refuse; a struct
is read from a fragment also. -/
def fromXml : STy → XmlVal → Option (SVal ν)
  | .char, .text [c] => some (.char c)
  | .str, x => (readText x).map .str
  | .opt t, x => match x with
    | .text [] => some .none
    | x => (fromXml t x).map .some
  | .newtype t, x => (fromXml t x).map .newtype
  | .seq t, x => (listOf x).bind fun xs => (xs.mapM (fromXml t)).map .seq
  | .tuple ts, x => (listOf x).bind fun xs => (fromTuple ts xs).map .tuple
  | .map k t, .element _ as ks _ _ => do
    let rs ← (mapOf as ks).mapM fun e => do
      let key ← readKey k e.1
      let v ← fromXml t e.2
      return (e.1, key, v)
    return .map ((rs.foldl putNamed []).map (·.2))
  | .struct fs, .element _ as ks _ _ => (fromFields fs (mapOf as ks)).map .struct
  | .struct fs, .fragment xs => (fromOrder fs xs).map .struct
  | .enum vs, .text s => fromEnum vs s none
  | .enum vs, .element n as ks a b => fromEnum vs n (some (.element n as ks a b))
  | _, _ => none
/-- The visitor of a tuple (external; serde.rs:750-762). -/
def fromTuple : List STy → List XmlVal → Option (List (SVal ν))
  | [], _ => some []
  | _ :: _, [] => none
  | t :: ts, x :: xs => do
    let v ← fromXml t x
    let vs ← fromTuple ts xs
    return v :: vs
/-- The visitor of a struct given a sequence (external; serde.rs:750-762). -/
def fromOrder : List (Str × STy) → List XmlVal → Option (List (Str × SVal ν))
  | [], _ => some []
  | _ :: _, [] => none
  | (k, t) :: fs, x :: xs => do
    let v ← fromXml t x
    let vs ← fromOrder fs xs
    return (k, v) :: vs
/-- The visitor of a struct given a map (external; serde.rs:714-738): unknown fields are skipped, a field given twice is an error,
a field that is not there is read if it is an `Option`. -/
def fromFields : List (Str × STy) → List (Str × XmlVal) → Option (List (Str × SVal ν))
  | [], _ => some []
  | (k, t) :: fs, es => do
    let v ← match es.filter fun e => decide (e.1 = k) with
      | [] => missing t
      | [e] => fromXml t e.2
      | _ => none
    let vs ← fromFields fs es
    return (k, v) :: vs
/-- `EnumDeserializer` (serde.rs:764-786): the variant of that name. -/
def fromEnum : List (Str × SVar) → Str → Option XmlVal → Option (SVal ν)
  | [], _, _ => none
  | (n, k) :: vs, name, val => if n = name then fromVariant k name val else fromEnum vs name val
/-- `VariantAccess` (serde.rs:788-828). A unit variant is read whatever is there. -/
def fromVariant : SVar → Str → Option XmlVal → Option (SVal ν)
  | .unit, name, _ => some (.uvar name)
  | .newtype t, name, some x => (fromXml t x).map (.nvar name)
  | .tuple ts, name, some (.element _ _ ks _ _) => (fromTuple ts ks).map (.tvar name)
  | .struct fs, name, some (.element _ as ks _ _) => (fromFields fs (mapOf as ks)).map (.svar name)
  | _, _, _ => none
end

end

/-- `to_string` of the crate (examples/oak-xml/src/lib.rs:50-54). -/
def toStr {ν : Type} (ofInt : Int → ν) (showNum : ν → Str) (nm : List Str → Str) (v : SVal ν) : Run (Option Str) := do
  let r ← toXml ofInt showNum nm v
  return r.map Xml.toText

/-- `from_str` of the crate (examples/oak-xml/src/lib.rs:56-60). -/
def fromStr {ν : Type} (ws : Char → Bool) (t : STy) (s : Str) : Run (Option (SVal ν)) := do
  let r ← Xml.fromText ws s
  return r.bind (fromXml t)

end Oaks.XmlSerde
