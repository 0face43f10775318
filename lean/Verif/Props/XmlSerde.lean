import Verif.Proofs.XmlSerdeTyped
import Verif.Props.XmlTree

/-
C74: values of Rust types written as XML and read back.
-/
namespace Oaks.Props
open Oaks Oaks.Spec Oaks.Serde.Spec Oaks.XmlSerde.Spec
open Oaks.Serde (STy SVal SVar missing)
open Oaks.XmlSerde (toXml fromXml toFields putField node rename mapOf)

variable {ν : Type}

/-- A value made of strings, characters, structs, maps, tuples, sequences and enums, where fields are strings, structs, maps and
tuples of two or more of these, variants hold a string, a tuple, or fields that are strings, and names and keys have no meaning
of their own, is written, and read back as it was. -/
theorem C74_roundtrip_partial (ofInt : Int → ν) (shw : ν → Str) (nm : List Str → Str) {t : STy} {v : SVal ν} (hp : Proper t) (hw : Whole t)
    (hv : HasTy t v) (hn : PlainNames v) : ∃ x, toXml ofInt shw nm v = .ok (some x) ∧ fromXml t x = some v :=
  XmlSerde.whole_ok ofInt shw nm t hp hw hv hn

/-- Whatever is read is a value of the type that was asked for. -/
theorem C74_typed {t : STy} {x : XmlVal} {v : SVal ν} (h : fromXml t x = some v) : HasTy t v :=
  XmlSerde.fromXml_typed t h

/-- An attribute of an element is read as the field whose name is `↯` and the name of the attribute, and as no other. -/
theorem C74_attributes_read (n k s k' : Str) (a b c d : Nat) :
    fromXml (ν := ν) (.struct [('↯' :: k, .str)]) (.element n [⟨k, s, c, d⟩] [] a b) = some (.struct [('↯' :: k, .str s)]) ∧
      (k' ≠ '↯' :: k → fromXml (ν := ν) (.struct [(k', .str)]) (.element n [⟨k, s, c, d⟩] [] a b) = none) := by
  have hm : mapOf [⟨k, s, c, d⟩] [] = [('↯' :: k, .text s)] := rfl
  constructor
  · rw [fromXml, hm, XmlSerde.fromFields_one (e := ('↯' :: k, .text s)) (by simp)]
    simp [fromXml, XmlSerde.readText, XmlSerde.fromFields]
  · intro hk
    rw [fromXml, hm]
    simp [XmlSerde.fromFields, Ne.symm hk, missing]

/-- The keys of a map are written as names: `true`, `false`, digits, the character, the text, the name of the variant, nothing
for `()` and `None`, and what is inside of `Some` and of a wrapper. -/
theorem C74_key_names (ofInt : Int → ν) (shw : ν → Str) (nm : List Str → Str) {key : SVal ν} {name : Str} (hk : PlainName name) (s : Str)
    (h : KeyName shw key name) : toXml ofInt shw nm (.map [(key, .str s)]) = .ok (some (node "root".toList [node name [.text s]])) := by
  have hkey : XmlSerde.keyText shw key = some name := by
    induction h <;> simp_all [XmlSerde.keyText]
  rw [toXml, XmlSerde.toEntries, hkey]
  simp only [toXml]
  rw [show (pure (some (XmlVal.text s)) : Run (Option XmlVal)) = .ok (some (.text s)) from rfl, XmlSerde.andThen_some]
  rw [show putField name (.text s) = .ok [node name [.text s]] by rw [putField, if_neg hk.1, if_neg hk.2]; rfl; simp]
  simp [XmlSerde.toEntries, bind, Except.bind]

/-! What is not read back -/

/-- Types of which nothing is ever read. -/
def Mute (t : STy) : Prop := t = .bool ∨ t = .f64 ∨ t = .unit ∨ ∃ signed bits, t = .int signed bits

theorem mute_none {t : STy} (h : Mute t) (x : XmlVal) : fromXml (ν := ν) t x = none := by
  rcases h with rfl | rfl | rfl | ⟨s, b, rfl⟩ <;> cases x <;> simp [fromXml]

theorem mute_fields {t : STy} (h : Mute t) {k : Str} : ∀ {fs : List (Str × STy)}, (k, t) ∈ fs → ∀ es, XmlSerde.fromFields (ν := ν) fs es = none
  | (k', t') :: fs, hm, es => by
    have hmiss : missing (ν := ν) t = none := by rcases h with rfl | rfl | rfl | ⟨s, b, rfl⟩ <;> rfl
    rcases List.mem_cons.1 hm with he | hm
    · cases he
      rw [XmlSerde.fromFields]
      generalize es.filter (fun e => decide (e.1 = k)) = fl
      rcases fl with _ | ⟨e, _ | ⟨e', r⟩⟩
      · simp only [hmiss]; rfl
      · simp only [mute_none h]; rfl
      · rfl
    · rw [XmlSerde.fromFields, mute_fields h hm es]
      generalize es.filter (fun e => decide (e.1 = k')) = fl
      rcases fl with _ | ⟨e, _ | ⟨e', r⟩⟩
      · simp only []; cases missing (ν := ν) t' <;> rfl
      · simp only []; cases fromXml (ν := ν) t' e.2 <;> rfl
      · rfl

theorem mute_order {t : STy} (h : Mute t) {k : Str} : ∀ {fs : List (Str × STy)}, (k, t) ∈ fs → ∀ xs, XmlSerde.fromOrder (ν := ν) fs xs = none
  | (k', t') :: fs, hm, [] => by rw [XmlSerde.fromOrder]
  | (k', t') :: fs, hm, x :: xs => by
    rw [XmlSerde.fromOrder]
    rcases List.mem_cons.1 hm with he | hm
    · cases he
      rw [mute_none h]
      rfl
    · rw [mute_order h hm xs]
      cases fromXml (ν := ν) t' x <;> rfl

/-- Booleans, numbers and `()` are written, and no XML value is read as one of them. -/
theorem C74_scalars (ofInt : Int → ν) (shw : ν → Str) (nm : List Str → Str) {t : STy} (h : Mute t) :
    (∀ v : SVal ν, HasTy t v → (∀ s n, v ≠ .int s 128 n) → ∃ x, toXml ofInt shw nm v = .ok (some x)) ∧
      ∀ x : XmlVal, fromXml (ν := ν) t x = none := by
  refine ⟨fun v hv h128 => ?_, mute_none h⟩
  rcases h with rfl | rfl | rfl | ⟨s, b, rfl⟩ <;> simp only [HasTy] at hv
  · obtain ⟨b, rfl⟩ := hv; exact ⟨_, by rw [toXml]; rfl⟩
  · obtain ⟨b, rfl⟩ := hv; exact ⟨_, by rw [toXml]; rfl⟩
  · subst hv; exact ⟨_, by rw [toXml]; rfl⟩
  · obtain ⟨n, rfl⟩ := hv
    have : b ≠ 128 := fun e => h128 s n (by rw [e])
    exact ⟨_, by rw [toXml, if_neg this]; rfl⟩

/-- No XML value is read as a struct with a field of such a type. -/
theorem C74_scalar_fields {fs : List (Str × STy)} {k : Str} {t : STy} (h : (k, t) ∈ fs) (ht : Mute t) (x : XmlVal) :
    fromXml (ν := ν) (.struct fs) x = none := by
  cases x with
  | element n as ks a b => rw [fromXml, mute_fields ht h]; rfl
  | fragment xs => rw [fromXml, mute_order ht h]; rfl
  | _ => simp [fromXml]

/-- A field whose name begins with `↯`, the mark of attributes, makes the serializer panic, whatever its value is. -/
theorem C74_attributes (ofInt : Int → ν) (shw : ν → Str) (nm : List Str → Str) {pre : List (Str × SVal ν)} {xs : List XmlVal}
    (hpre : toFields ofInt shw nm pre = .ok (some xs)) (k : Str) {v : SVal ν} {x : XmlVal} (hv : toXml ofInt shw nm v = .ok (some x))
    (post : List (Str × SVal ν)) : toXml ofInt shw nm (.struct (pre ++ ('↯' :: k, v) :: post)) = .error .panic := by
  have key : ∀ (pre : List (Str × SVal ν)) xs, toFields ofInt shw nm pre = .ok (some xs) →
      toFields ofInt shw nm (pre ++ ('↯' :: k, v) :: post) = .error .panic := by
    intro pre
    induction pre with
    | nil =>
      intro xs _
      rw [List.nil_append, toFields, hv, XmlSerde.andThen_some]
      simp [putField, bind, Except.bind]
    | cons f pre ih =>
      obtain ⟨k', w⟩ := f
      intro xs h
      rw [toFields] at h
      rw [List.cons_append, toFields]
      cases hw : toXml ofInt shw nm w with
      | error e => rw [hw] at h; cases h
      | ok o =>
        cases o with
        | none => rw [hw] at h; cases h
        | some y =>
          rw [hw, XmlSerde.andThen_some] at h
          rw [XmlSerde.andThen_some]
          cases hk : putField k' y with
          | error e => rw [hk] at h; cases h
          | ok ks =>
            rw [hk, run_bind_ok] at h
            rw [run_bind_ok]
            cases hr : toFields ofInt shw nm pre with
            | error e => rw [hr] at h; cases h
            | ok o =>
              cases o with
              | none => rw [hr] at h; cases h
              | some zs => rw [ih zs hr]; rfl
  rw [toXml, key pre xs hpre]
  rfl

/-- A struct of one field, written: what the field adds, in an element. -/
theorem one_field (ofInt : Int → ν) (shw : ν → Str) (nm : List Str → Str) {k : Str} {v : SVal ν} {x : XmlVal} {ks : List XmlVal}
    (hv : toXml ofInt shw nm v = .ok (some x)) (hk : putField k x = .ok ks) :
    toXml ofInt shw nm (.struct [(k, v)]) = .ok (some (node (nm [k]) ks)) := by
  rw [toXml, toFields, hv, XmlSerde.andThen_some, hk]
  simp [toFields, bind, Except.bind]

theorem put_text {k : Str} (hk : PlainName k) (s : Str) : putField k (.text s) = .ok [.element k [] [.text s] 0 0] := by
  rw [putField, if_neg hk.1, if_neg hk.2]
  · rfl
  · simp

theorem put_list {k : Str} (hk : PlainName k) (xs : List XmlVal) : putField k (.fragment xs) = .ok (xs.map (rename k)) := by
  rw [putField, if_neg hk.1, if_neg hk.2]

/-- A struct of one field, read from an element of one child of that name. -/
theorem read_one (k : Str) (t : STy) (n : Str) (as : List XmlAttr) (ks : List XmlVal) (a b : Nat) :
    fromXml (ν := ν) (.struct [(k, t)]) (node n [.element k as ks a b]) = (fromXml t (.element k as ks a b)).map fun v => .struct [(k, v)] := by
  have hm : mapOf [] [.element k as ks a b] = [(k, .element k as ks a b)] := rfl
  have hf : XmlSerde.fromFields (ν := ν) [(k, t)] [(k, .element k as ks a b)] = (fromXml t (.element k as ks a b)).map fun v => [(k, v)] := by
    rw [XmlSerde.fromFields_one (e := (k, .element k as ks a b)) (by simp)]
    cases fromXml (ν := ν) t (.element k as ks a b) <;> simp [XmlSerde.fromFields]
  rw [node, fromXml, hm, hf, Option.map_map]
  rfl

/-- `None` in a field is read as `Some("")`. -/
theorem C74_none_fields (ofInt : Int → ν) (shw : ν → Str) (nm : List Str → Str) {k : Str} (hk : PlainName k) :
    ∃ x, toXml ofInt shw nm (.struct [(k, .none)]) = .ok (some x) ∧
      fromXml (.struct [(k, .opt .str)]) x = some (.struct [(k, .some (.str []))] : SVal ν) := by
  refine ⟨_, one_field ofInt shw nm (v := .none) (x := .text []) (by rw [toXml]; rfl) (put_text hk []), ?_⟩
  rw [read_one]
  simp [fromXml, XmlSerde.readText, XmlSerde.plain]

/-- `Some("")` where nothing is around it is read as `None`. -/
theorem C74_some_empty (ofInt : Int → ν) (shw : ν → Str) (nm : List Str → Str) (t : STy) :
    ∃ x, toXml ofInt shw nm (.some (.str [])) = .ok (some x) ∧ fromXml (.opt t) x = some (.none : SVal ν) :=
  ⟨.text [], by simp [toXml, pure, Except.pure], by simp [fromXml]⟩

/-- A unit variant in a field is read as the variant that has the name of the field, if there is one. -/
theorem C74_enum_fields (ofInt : Int → ν) (shw : ν → Str) (nm : List Str → Str) {k : Str} (hk : PlainName k) (n : Str) (vs : List (Str × SVar)) :
    ∃ x, toXml ofInt shw nm (.struct [(k, .uvar n)]) = .ok (some x) ∧
      (k ∉ vs.map (·.1) → fromXml (ν := ν) (.struct [(k, .enum vs)]) x = none) ∧
      ((k, SVar.unit) ∈ vs → (vs.map (·.1)).Nodup → fromXml (.struct [(k, .enum vs)]) x = some (.struct [(k, .uvar k)] : SVal ν)) := by
  refine ⟨_, one_field ofInt shw nm (v := .uvar n) (x := .text n) (by rw [toXml]; rfl) (put_text hk n), ?_, ?_⟩
  · intro hno
    have : ∀ vs : List (Str × SVar), k ∉ vs.map (·.1) → ∀ o, XmlSerde.fromEnum (ν := ν) vs k o = none := by
      intro vs
      induction vs with
      | nil => intro _ o; rw [XmlSerde.fromEnum]
      | cons v vs ih =>
        obtain ⟨m, kd⟩ := v
        intro h o
        simp only [List.map_cons, List.mem_cons, not_or] at h
        rw [XmlSerde.fromEnum, if_neg (fun e => h.1 e.symm), ih h.2 o]
    rw [read_one, fromXml, this vs hno]
    rfl
  · intro hm hn
    have : ∀ vs : List (Str × SVar), (k, SVar.unit) ∈ vs → (vs.map (·.1)).Nodup → ∀ o, XmlSerde.fromEnum (ν := ν) vs k o = some (.uvar k) := by
      intro vs
      induction vs with
      | nil => intro h; simp at h
      | cons v vs ih =>
        obtain ⟨m, kd⟩ := v
        intro h hn o
        simp only [List.map_cons, List.nodup_cons] at hn
        rw [XmlSerde.fromEnum]
        rcases List.mem_cons.1 h with he | he
        · cases he
          rw [if_pos rfl, XmlSerde.fromVariant]
        · rw [if_neg (fun e => hn.1 (by rw [e]; exact List.mem_map.2 ⟨_, he, rfl⟩)), ih he hn.2 o]
    rw [read_one, fromXml, this vs hm hn]
    rfl

/-- An empty sequence in a field is not read. -/
theorem C74_empty_sequences (ofInt : Int → ν) (shw : ν → Str) (nm : List Str → Str) {k : Str} (hk : PlainName k) (t : STy) :
    ∃ x, toXml ofInt shw nm (.struct [(k, .seq [])]) = .ok (some x) ∧ fromXml (ν := ν) (.struct [(k, .seq t)]) x = none := by
  refine ⟨_, one_field ofInt shw nm (v := .seq []) (x := .fragment []) (by simp [toXml, XmlSerde.toXmls]) (put_list hk []), ?_⟩
  simp [node, fromXml, XmlSerde.fromFields, XmlSerde.mapOf, missing]

/-- A sequence of one struct in a field is not read. -/
theorem C74_single_structs (ofInt : Int → ν) (shw : ν → Str) (nm : List Str → Str) {k n : Str} (hk : PlainName k) (hn : PlainName n) (s : Str) :
    ∃ x, toXml ofInt shw nm (.struct [(k, .seq [.struct [(n, .str s)]])]) = .ok (some x) ∧
      fromXml (ν := ν) (.struct [(k, .seq (.struct [(n, .str)]))]) x = none := by
  have h1 : toXml ofInt shw nm (.seq [.struct [(n, .str s)]]) = .ok (some (.fragment [node (nm [n]) [node n [.text s]]])) := by
    rw [toXml, XmlSerde.toXmls, one_field ofInt shw nm (v := .str s) (x := .text s) (by rw [toXml]; rfl) (put_text hn s)]
    rfl
  refine ⟨_, one_field ofInt shw nm h1 (put_list hk _), ?_⟩
  have hin : fromXml (ν := ν) (.struct [(n, .str)]) (node n [.text s]) = none := by
    have hm : mapOf [] [.text s] = [("$value".toList, .text s)] := rfl
    rw [node, fromXml, hm, XmlSerde.fromFields]
    have hf : [("$value".toList, XmlVal.text s)].filter (fun e => decide (e.1 = n)) = [] := by
      rw [List.filter_cons_of_neg (by simpa using fun e => hn.2 e.symm)]
      rfl
    rw [hf]
    rfl
  have hr : rename k (node (nm [n]) [node n [.text s]]) = .element k [] [node n [.text s]] 0 0 := rfl
  simp only [List.map_cons, List.map_nil]
  rw [hr, read_one, fromXml]
  simp only [XmlSerde.listOf, Option.bind_some, List.mapM_cons, hin]
  rfl

/-- A sequence of two and more sequences of strings in a field is read, and the strings of each are run together. -/
theorem C74_nested_sequences (ofInt : Int → ν) (shw : ν → Str) (nm : List Str → Str) {k : Str} (hk : PlainName k) (w w' : List Str) (ws : List (List Str)) :
    ∃ x, toXml ofInt shw nm (.struct [(k, .seq ((w :: w' :: ws).map fun w => .seq (w.map .str)))]) = .ok (some x) ∧
      fromXml (ν := ν) (.struct [(k, .seq (.seq .str))]) x = some (.struct [(k, .seq ((w :: w' :: ws).map fun w => .seq [.str w.flatten]))]) := by
  have h1 : ∀ w : List Str, XmlSerde.toXmls ofInt shw nm (w.map .str) = .ok (some (w.map .text)) := by
    intro w
    induction w with
    | nil => rfl
    | cons a w ih => rw [List.map_cons, XmlSerde.toXmls, toXml, ih]; rfl
  have h2 : ∀ ws : List (List Str), XmlSerde.toXmls ofInt shw nm (ws.map fun w => .seq (w.map .str)) = .ok (some (ws.map fun w => .fragment (w.map .text))) := by
    intro ws
    induction ws with
    | nil => rfl
    | cons a w ih => rw [List.map_cons, XmlSerde.toXmls, toXml, h1, ih]; rfl
  have h3 : toXml ofInt shw nm (.seq ((w :: w' :: ws).map fun w => .seq (w.map .str))) =
      .ok (some (.fragment ((w :: w' :: ws).map fun w => .fragment (w.map .text)))) := by
    rw [toXml, h2]; rfl
  refine ⟨_, one_field ofInt shw nm h3 (put_list hk _), ?_⟩
  have hg := XmlSerde.mapOf_groups (gs := [(k, ((w :: w' :: ws).map fun w => XmlVal.fragment (w.map .text)).map (rename k))]) (by simp)
    (by
      intro g hg
      simp only [List.mem_singleton] at hg
      subst hg
      refine ⟨by simp, fun x hx => ?_⟩
      obtain ⟨y, _, rfl⟩ := List.mem_map.1 hx
      exact XmlSerde.rename_of k y)
  rw [List.flatMap_cons, List.flatMap_nil, List.append_nil] at hg
  rw [node, fromXml, hg, List.map_cons, List.map_nil, XmlSerde.fromFields_one
    (e := (k, XmlSerde.entryVal (((w :: w' :: ws).map fun w => XmlVal.fragment (w.map .text)).map (rename k))))
    (List.filter_cons_of_pos (by simp))]
  have h4 : ∀ ws : List (List Str), ((ws.map fun w => XmlVal.fragment (w.map .text)).map (rename k)).mapM (fromXml (ν := ν) (.seq .str)) =
      some (ws.map fun w => .seq [.str w.flatten]) := by
    intro ws
    induction ws with
    | nil => rfl
    | cons a ws ih =>
      have : fromXml (ν := ν) (.seq .str) (rename k (.fragment (a.map .text))) = some (.seq [.str a.flatten]) := by
        have ht : (a.map XmlVal.text).flatMap Xml.toText = a.flatten := by
          induction a with
          | nil => rfl
          | cons c a ih => rw [List.map_cons, List.flatMap_cons, ih, Xml.toText, List.flatten_cons]
        simp [rename, node, fromXml, XmlSerde.listOf, XmlSerde.readText, ht]
      rw [List.map_cons, List.map_cons, List.mapM_cons, this, ih]
      rfl
  have h5 : fromXml (ν := ν) (.seq (.seq .str)) (XmlSerde.entryVal (((w :: w' :: ws).map fun w => XmlVal.fragment (w.map .text)).map (rename k))) =
      some (.seq ((w :: w' :: ws).map fun w => .seq [.str w.flatten])) := by
    rw [show XmlSerde.entryVal (((w :: w' :: ws).map fun w => XmlVal.fragment (w.map .text)).map (rename k)) =
      .fragment (((w :: w' :: ws).map fun w => XmlVal.fragment (w.map .text)).map (rename k)) from rfl, fromXml, XmlSerde.listOf,
      Option.bind_some, h4]
    rfl
  rw [h5]
  simp [XmlSerde.fromFields]

/-- `from_str` reads no string but the empty one, whatever the text is. -/
theorem C74_strings {ws : Char → Bool} (hws : XmlSpaces ws) {t : Str} (hl : blen t < 2 ^ 32) :
    ∃ r, XmlSerde.fromStr (ν := ν) ws .str t = .ok r ∧ ∀ v, r = some v → v = .str [] := by
  obtain ⟨r, h1, h2⟩ := C73_bare hws hl
  refine ⟨r.bind (fromXml .str), by rw [XmlSerde.fromStr, h1]; rfl, fun v hv => ?_⟩
  cases r with
  | none => cases hv
  | some x =>
    rw [Option.bind_some, fromXml] at hv
    rcases h2 x rfl with hb | rfl
    · cases x <;> simp only [XmlBare] at hb
      obtain ⟨rfl, hk⟩ := hb
      rename_i n ks a b
      cases ks with
      | nil => simp [XmlSerde.readText] at hv; exact hv.symm
      | cons y ys =>
        rw [AllBare] at hk
        cases y <;> simp [XmlBare] at hk
        simp [XmlSerde.readText, XmlSerde.plain] at hv
    · simp [XmlSerde.readText] at hv
      exact hv.symm

/-! Non-trivial cases -/

/-- `struct { name: String, at: (String, Place), tags: HashMap<char, String> }`, `struct Place { x: String }`. -/
def exXmlTy : STy := .struct [("name".toList, .str), ("at".toList, .tuple [.str, .struct [("x".toList, .str)]]), ("tags".toList, .map .char .str)]

def exXmlVal : SVal Int := .struct [("name".toList, .str "oak".toList), ("at".toList, .tuple [.str "here".toList, .struct [("x".toList, .str "1".toList)]]),
  ("tags".toList, .map [(.char 'a', .str "b".toList), (.char 'c', .str [])])]

theorem exXmlTy_proper : Proper exXmlTy := by
  simp only [exXmlTy, Proper, ProperFields, ProperAll]
  decide

theorem exXmlTy_whole : Whole exXmlTy := by
  simp [exXmlTy, Whole, XmlSerde.Spec.Fields, XmlSerde.Spec.Field, XmlSerde.Spec.Items, XmlSerde.Spec.Item, KeyTy]

theorem exXmlVal_typed : HasTy exXmlTy exXmlVal := by
  simp [exXmlTy, exXmlVal, HasTy, HasFields, HasTys]
  rintro a b (⟨rfl, rfl⟩ | ⟨rfl, rfl⟩) <;> simp

theorem exXmlVal_plain : PlainNames exXmlVal := by
  simp only [exXmlVal, PlainNames, XmlSerde.Spec.PlainFields, PlainEntries, AllPlain, PlainKey, PlainName]
  decide

example : (XmlSerde.toStr (fun n => n) (fun _ => []) (fun _ => "Tree".toList) exXmlVal) =
    .ok (some "<Tree><name>oak</name><at>here</at><at><x>1</x></at><tags><a>b</a><c></c></tags></Tree>".toList) := by
  decide +kernel

example : ∃ x, toXml (fun n => n) (fun _ => []) (fun _ => "Tree".toList) exXmlVal = .ok (some x) ∧ fromXml exXmlTy x = some exXmlVal :=
  C74_roundtrip_partial _ _ _ exXmlTy_proper exXmlTy_whole exXmlVal_typed exXmlVal_plain

/-- `{None: "x"}`. -/
example : (XmlSerde.toStr (fun n => n) (fun _ => []) (fun _ => []) (.map [(.none, .str ['x']), (.some (.int true 8 (-3)), .str ['y'])] : SVal Int)) =
    .ok (some "<root><>x</><-3>y</-3></root>".toList) := by
  decide +kernel

/-- `struct { count: u32 }`. -/
example (x : XmlVal) : fromXml (ν := Int) (.struct [("count".toList, .int false 32)]) x = none :=
  C74_scalar_fields (k := "count".toList) (t := .int false 32) (by simp) (.inr (.inr (.inr ⟨_, _, rfl⟩))) x

/-- An attribute. -/
example : toXml (fun n => n) (fun _ => []) (fun _ => []) (.struct [("name".toList, .str []), ("↯id".toList, .str "1".toList)] : SVal Int) = .error .panic :=
  C74_attributes _ _ _ (pre := [("name".toList, .str [])]) (xs := [node "name".toList [.text []]]) rfl "id".toList (v := .str "1".toList) rfl []

example : PlainName "name".toList := by
  unfold PlainName
  decide

end Oaks.Props
