import Verif.Proofs.JsonSerde
import Verif.Props.JsonBuild

/-
C69: values of Rust types written as JSON and read back.
-/
namespace Oaks.Props
open Oaks Oaks.Spec Oaks.Serde Oaks.Serde.Spec

/-- A value of a type without integers, variants with named fields, options of what may be `null`, and maps whose keys are
no texts is written, and read back as it was. -/
theorem C69_roundtrip_partial {ν : Type} (ofInt : Int → ν) (shw : ν → Str) {t : STy} {v : SVal ν} (hp : Proper t) (hk : Kept t)
    (hv : HasTy t v) : ∃ j, toValue ofInt shw v = some j ∧ fromValue t j = some v := by
  obtain ⟨j, h1, h2, _⟩ := roundtrip ofInt shw t hp hk hv
  exact ⟨j, h1, h2⟩

/-- Whatever is read is a value of the type that was asked for. -/
theorem C69_typed {ν : Type} {t : STy} {j : JsonVal ν} {v : SVal ν} (h : fromValue t j = some v) : HasTy t v :=
  fromValue_typed t h

/-- `from_str` of what `to_string` writes is the value, for the same types, if texts have no quotes and no backslashes and
numbers are read back. -/
theorem C69_text_partial {ν : Type} {ofInt : Int → ν} {num : Str → Option ν} {shw : ν → Str} {t : STy} {v : SVal ν} (hp : Proper t)
    (hk : Kept t) (hv : HasTy t v) (ht : PlainTexts (fun x => NumberText (shw x) ∧ num (shw x) = some x) v) {cc : CharClass}
    (hcc : SoundClasses cc) : ∃ s, toStr ofInt shw v = some s ∧ (blen s < 2 ^ 32 → fromStr num cc t s = .ok (some v)) := by
  obtain ⟨j, h1, h2⟩ := C69_roundtrip_partial ofInt shw hp hk hv
  refine ⟨Json.toText shw j, by simp [toStr, h1], fun hl => ?_⟩
  have hj := plain_toValue ofInt shw t hk hv ht h1
  have hb := C49_to_string_partial hj (src := textSource (Json.toText shw j)) ⟨textSource_lawful _, textSource_contiguous _⟩ hl .standard hcc
  unfold fromStr
  rw [hb]
  simp [h2, bind, Except.bind, pure, Except.pure]

/-! What is not read back -/

/-- An integer is written as a number, and no JSON value is read as an integer. -/
theorem C69_integers {ν : Type} (ofInt : Int → ν) (shw : ν → Str) (signed : Bool) (bits : Nat) (hb : bits ≠ 128) (n : Int) :
    toValue ofInt shw (.int signed bits n) = some (.num (ofInt n)) ∧ ∀ j : JsonVal ν, fromValue (.int signed bits) j = none := by
  refine ⟨by simp [toValue, hb], fun j => ?_⟩
  cases j <;> simp [fromValue]

/-- No JSON value is read as a struct with an integer field. -/
theorem C69_integer_fields {ν : Type} {fs : List (Str × STy)} {k : Str} {signed : Bool} {bits : Nat} (h : (k, .int signed bits) ∈ fs)
    (j : JsonVal ν) : fromValue (.struct fs) j = none := by
  cases hr : fromValue (.struct fs) j with
  | none => rfl
  | some v =>
    exfalso
    have hint : ∀ j : JsonVal ν, fromValue (.int signed bits) j = none := fun j => by cases j <;> simp [fromValue]
    cases j with
    | obj es =>
      simp only [fromValue, Option.map_eq_some_iff] at hr
      obtain ⟨ws, hw, _⟩ := hr
      exact no_int_fields hint h hw
    | arr js =>
      simp only [fromValue, Option.map_eq_some_iff] at hr
      obtain ⟨ws, hw, _⟩ := hr
      exact no_int_order hint h hw
    | _ => simp [fromValue] at hr

/-- A variant with named fields is written as an array of objects of one field each, which is not read. -/
theorem C69_struct_variants {ν : Type} (ofInt : Int → ν) (shw : ν → Str) {vs : List (Str × SVar)} (hn : (vs.map (·.1)).Nodup) {n : Str}
    {fs : List (Str × STy)} (hm : (n, .struct fs) ∈ vs) (ws : List (Str × SVal ν)) {j : JsonVal ν}
    (hj : toValue ofInt shw (.svar n ws) = some j) : (∃ js : List (Str × JsonVal ν), j = .obj [(n, .arr (js.map fun f => .obj [f]))]) ∧ fromValue (.enum vs) j = none := by
  simp only [toValue, Option.map_eq_some_iff] at hj
  obtain ⟨js, _, rfl⟩ := hj
  refine ⟨⟨js, rfl⟩, ?_⟩
  simp only [fromValue]
  rw [fromEnum_at hn hm]
  simp [fromVariant]

/-- `Some(None)` is written as `None` is, and `None` is read. -/
theorem C69_nested_option {ν : Type} (ofInt : Int → ν) (shw : ν → Str) (t : STy) :
    toValue ofInt shw (.some (.none : SVal ν)) = toValue ofInt shw .none ∧
      (toValue ofInt shw (.some .none)).bind (fromValue (.opt (.opt t))) = some (.none : SVal ν) := by
  simp [toValue, fromValue]

/-- Booleans and integers are written as keys of a map, as `true`, `false` and their digits, and no key is read as one. -/
theorem C69_keys {ν : Type} (shw : ν → Str) (signed : Bool) (bits : Nat) (hb : bits ≠ 128) (n : Int) :
    keyText shw (.bool true) = some "true".toList ∧ keyText shw (.bool false) = some "false".toList ∧
      keyText shw (.int signed bits n) = some (toString n).toList ∧
      ∀ (t : STy) (e : Str × JsonVal ν) (es : List (Str × JsonVal ν)),
        fromValue (.map .bool t) (.obj (e :: es)) = none ∧ fromValue (.map (.int signed bits) t) (.obj (e :: es)) = none := by
  refine ⟨by simp [keyText], by simp [keyText], by simp [keyText, hb], fun t e es => ?_⟩
  constructor <;> rw [fromValue_map, List.mapM_cons] <;> simp [readEntry, fromValue]

/-- An integer of 128 bits is an error, as a value and as a key. -/
theorem C69_wide {ν : Type} (ofInt : Int → ν) (shw : ν → Str) (signed : Bool) (n : Int) :
    toStr ofInt shw (.int signed 128 n) = none ∧ ∀ (v : SVal ν) (es : List (SVal ν × SVal ν)),
      toStr ofInt shw (.map ((.int signed 128 n, v) :: es)) = none := by
  refine ⟨by simp [toStr, toValue], fun v es => ?_⟩
  simp [toStr, toValue, Serde.toEntries, keyText]

/-- A tuple is read from a longer array: the rest is dropped. -/
theorem C69_long_arrays {ν : Type} {ts : List STy} {js : List (JsonVal ν)} {v : SVal ν} (h : fromValue (.tuple ts) (.arr js) = some v)
    (more : List (JsonVal ν)) : fromValue (.tuple ts) (.arr (js ++ more)) = some v := by
  simp only [fromValue, Option.map_eq_some_iff] at h ⊢
  obtain ⟨ws, hw, rfl⟩ := h
  exact ⟨ws, fromTuple_more ts hw more, rfl⟩

/-- `from_str` does not look at the errors the parser has recorded: an array that is not closed is read. -/
theorem C69_errors_witness : fromStr digitsNum asciiClass (.seq .bool) "[true".toList = .ok (some (.seq [.bool true])) ∧
    (Json.build digitsNum .standard asciiClass (textSource "[true".toList)).map (fun r => r.2.length) = .ok 1 := by
  constructor
  · rfl
  · decide +kernel

/-! Non-trivial cases -/

/-- `struct { name: String, at: Option<(f64, f64)>, tags: HashMap<char, Kind>, kind: Kind }`,
`enum Kind { Leaf, Wrap(bool), Pair(f64, ()) }`. -/
def exKind : STy := .enum [("Leaf".toList, .unit), ("Wrap".toList, .newtype .bool), ("Pair".toList, .tuple [.f64, .unit])]

def exTy : STy := .struct [("name".toList, .str), ("at".toList, .opt (.tuple [.f64, .f64])), ("tags".toList, .map .char exKind), ("kind".toList, exKind)]

def exVal : SVal Str := .struct [("name".toList, .str "oak".toList), ("at".toList, .some (.tuple [.f64 "1.5".toList, .f64 "-2".toList])),
  ("tags".toList, .map [(.char 'a', .uvar "Leaf".toList), (.char 'b', .nvar "Wrap".toList (.bool true))]),
  ("kind".toList, .tvar "Pair".toList [.f64 "0".toList, .unit])]

theorem exTy_proper : Proper exTy := by
  simp only [exTy, exKind, Proper, ProperFields, ProperAll, ProperVars, ProperVar]
  decide

theorem exTy_kept : Kept exTy := by
  simp [exTy, exKind, Kept, KeptFields, KeptAll, KeptVars, KeptVar, Textual, Nullable]

theorem exVal_typed : HasTy exTy exVal := by
  simp [exTy, exVal, exKind, HasTy, HasFields, HasTys, HasVariant, HasKind]
  rintro a b (⟨rfl, rfl⟩ | ⟨rfl, rfl⟩) <;> simp

example : toStr (fun _ => []) id exVal =
    some "{\"name\":\"oak\",\"at\":[1.5,-2],\"tags\":{\"a\":\"Leaf\",\"b\":{\"Wrap\":true}},\"kind\":{\"Pair\":[0,null]}}".toList := by
  decide +kernel

example : PlainTexts (fun x => NumberText (id x) ∧ digitsNum (id x) = some x) exVal := by
  simp only [exVal, PlainTexts, PlainTextsFields, PlainTextsMap, PlainTextsAll, and_true, id]
  refine ⟨by decide, by decide, by decide, ⟨⟨?_, rfl⟩, ?_, rfl⟩, by decide, ⟨by decide, by decide, by decide, by decide⟩, by decide,
    by decide, ?_, rfl⟩
  · exact ⟨[], ['1'], ['.', '5'], [], by decide, by decide, by decide, by decide, .inr ⟨['5'], rfl, by decide⟩, .inl rfl⟩
  · exact ⟨['-'], ['2'], [], [], by decide, by decide, by decide, by decide, .inl rfl, .inl rfl⟩
  · exact ⟨[], ['0'], [], [], by decide, by decide, by decide, by decide, .inl rfl, .inl rfl⟩

/-- `struct { count: u32 }`. -/
example : (toValue (fun n => n) (fun _ => []) (.struct [("count".toList, .int false 32 3)])).bind
    (fromValue (.struct [("count".toList, .int false 32)])) = none := by
  rw [show toValue (fun n => n) (fun _ => []) (.struct [("count".toList, .int false 32 3)]) = some (.obj [("count".toList, .num (3 : Int))]) from rfl]
  exact C69_integer_fields (k := "count".toList) (signed := false) (bits := 32) (by simp) _

/-- `enum { Moved { x: f64, y: f64 } }`. -/
example : toValue (fun n => n) (fun _ => []) (.svar "Moved".toList [(['x'], .f64 1), (['y'], .f64 (2 : Int))]) =
    some (.obj [("Moved".toList, .arr [.obj [(['x'], .num 1)], .obj [(['y'], .num 2)]])]) := rfl

end Oaks.Props
