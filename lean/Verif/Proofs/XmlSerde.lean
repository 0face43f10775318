import Verif.Spec.XmlSerde
import Verif.Proofs.JsonSerde

/-
Reading back from XML what was written for a Rust value.
-/
namespace Oaks.XmlSerde
open Oaks Oaks.Serde Oaks.Serde.Spec Oaks.XmlSerde.Spec

variable {ν : Type} (ofInt : Int → ν) (showNum : ν → Str) (nm : List Str → Str)

@[simp] theorem andThen_some {α β : Type} (a : α) (f : α → Run (Option β)) : andThen (.ok (some a)) f = f a := rfl

@[simp] theorem andThen_pure {α β : Type} (a : α) (f : α → Run (Option β)) : andThen (pure (some a)) f = f a := rfl

@[simp] theorem andThen_none {α β : Type} (f : α → Run (Option β)) : andThen (.ok none) f = .ok none := rfl

/-! ### Entries of elements -/

/-- Elements of that name. -/
def Of (k : Str) (x : XmlVal) : Prop := ∃ as ks a b, x = .element k as ks a b

theorem addTo_new {k : Str} {x : XmlVal} : ∀ {es : List (Str × List XmlVal)}, k ∉ es.map (·.1) → addTo k x es = es ++ [(k, [x])]
  | [], _ => rfl
  | e :: es, h => by
    simp only [List.map_cons, List.mem_cons, not_or] at h
    rw [addTo, if_neg (fun he => h.1 he.symm), addTo_new h.2, List.cons_append]

theorem addTo_last {k : Str} {x : XmlVal} {xs : List XmlVal} : ∀ {es : List (Str × List XmlVal)}, k ∉ es.map (·.1) →
    addTo k x (es ++ [(k, xs)]) = es ++ [(k, xs ++ [x])]
  | [], _ => by simp [addTo]
  | e :: es, h => by
    simp only [List.map_cons, List.mem_cons, not_or] at h
    rw [List.cons_append, addTo, if_neg (fun he => h.1 he.symm), addTo_last h.2, List.cons_append]

theorem addChild_of {k : Str} {x : XmlVal} (h : Of k x) (es : List (Str × List XmlVal)) : addChild es x = addTo k x es := by
  obtain ⟨as, ks, a, b, rfl⟩ := h
  rfl

theorem addChild_group {k : Str} {es : List (Str × List XmlVal)} (hk : k ∉ es.map (·.1)) : ∀ {xs ys : List XmlVal}, (∀ x ∈ ys, Of k x) →
    ys.foldl addChild (es ++ [(k, xs)]) = es ++ [(k, xs ++ ys)]
  | xs, [], _ => by simp
  | xs, y :: ys, h => by
    rw [List.foldl_cons, addChild_of (h y (by simp)), addTo_last hk, addChild_group hk (fun x hx => h x (by simp [hx]))]
    simp

theorem addChild_groups : ∀ {gs es : List (Str × List XmlVal)}, ((es ++ gs).map (·.1)).Nodup → (∀ g ∈ gs, g.2 ≠ [] ∧ ∀ x ∈ g.2, Of g.1 x) →
    (gs.flatMap (·.2)).foldl addChild es = es ++ gs
  | [], es, _, _ => by simp
  | (k, xs) :: gs, es, hn, hg => by
    obtain ⟨h1, h2⟩ := hg (k, xs) (by simp)
    have hk : k ∉ es.map (·.1) := by
      intro hm
      rw [List.map_append, List.map_cons] at hn
      exact (List.nodup_append.1 hn).2.2 _ hm _ (List.mem_cons_self ..) rfl
    cases xs with
    | nil => exact absurd rfl h1
    | cons x xs =>
      rw [List.flatMap_cons, List.foldl_append, List.foldl_cons, addChild_of (h2 x (by simp)), addTo_new hk,
        addChild_group hk (fun y hy => h2 y (by simp [hy])), addChild_groups (by simpa using hn) (fun g hg' => hg g (by simp [hg']))]
      simp

/-- The entries of elements grouped by name. -/
theorem mapOf_groups {gs : List (Str × List XmlVal)} (hn : (gs.map (·.1)).Nodup) (hg : ∀ g ∈ gs, g.2 ≠ [] ∧ ∀ x ∈ g.2, Of g.1 x) :
    mapOf [] (gs.flatMap (·.2)) = gs.map fun g => (g.1, entryVal g.2) := by
  unfold mapOf
  rw [List.map_nil, addChild_groups (by simpa using hn) hg, List.nil_append]

/-! ### Keys -/

theorem enum_key : ∀ {vs : List (Str × SVar)}, Units vs → ∀ {v : SVal ν}, HasVariant vs v →
    ∃ n, v = .uvar n ∧ readKey (.enum vs) n = some v
  | [], _, _, h => by simp [HasVariant] at h
  | (n, .unit) :: vs, hu, v, h => by
    simp only [HasVariant, HasKind] at h
    rcases h with rfl | h
    · exact ⟨n, rfl, by simp [readKey]⟩
    · simp only [Units] at hu
      obtain ⟨m, rfl, hm⟩ := enum_key hu h
      refine ⟨m, rfl, ?_⟩
      by_cases e : n = m
      · simp [readKey, e]
      · simpa [readKey, List.find?_cons_of_neg, e] using hm
  | (_, .newtype _) :: _, hu, _, _ => by simp [Units] at hu
  | (_, .tuple _) :: _, hu, _, _ => by simp [Units] at hu
  | (_, .struct _) :: _, hu, _, _ => by simp [Units] at hu

theorem key_read {k : STy} {w : SVal ν} (hk : KeyTy k) (h : HasTy k w) (hp : PlainKey w) :
    ∃ s, keyText showNum w = some s ∧ readKey k s = some w ∧ PlainName s := by
  cases k <;> simp only [KeyTy] at hk
  · simp only [HasTy] at h
    obtain ⟨c, rfl⟩ := h
    exact ⟨[c], rfl, rfl, hp⟩
  · simp only [HasTy] at h
    obtain ⟨s, rfl⟩ := h
    exact ⟨s, rfl, rfl, hp⟩
  · simp only [HasTy] at h
    obtain ⟨n, rfl, hn⟩ := enum_key hk h
    exact ⟨n, rfl, hn, hp⟩

/-- Different names are read as different keys. -/
theorem readKey_inj {k : STy} {s s' : Str} {w : SVal ν} (h : readKey k s = some w) (h' : readKey k s' = some w) : s = s' := by
  cases k <;> simp only [readKey, reduceCtorEq] at h h'
  · rcases s with _ | ⟨a, _ | ⟨b, s⟩⟩ <;> simp [readKey] at h
    rcases s' with _ | ⟨a', _ | ⟨b', s'⟩⟩ <;> simp [readKey] at h'
    subst h
    simpa using h'.symm
  · simp only [Option.some.injEq] at h h'
    subst h
    simpa using h'.symm
  · simp only [Option.bind_eq_some_iff] at h h'
    obtain ⟨v, _, h2⟩ := h
    obtain ⟨v', _, h2'⟩ := h'
    cases hv : v.2 <;> simp only [hv, reduceCtorEq, Option.some.injEq] at h2
    cases hv' : v'.2 <;> simp only [hv', reduceCtorEq, Option.some.injEq] at h2'
    rw [← h2] at h2'
    simpa using h2'.symm

/-! ### Round trip -/

/-- Reading an entry of a map. -/
def readEntry (k t : STy) (e : Str × XmlVal) : Option (Str × SVal ν × SVal ν) := do
  let key ← readKey k e.1
  let v ← fromXml t e.2
  return (e.1, key, v)

theorem fromXml_map (k t : STy) (n : Str) (as : List XmlAttr) (ks : List XmlVal) (a b : Nat) :
    fromXml (ν := ν) (.map k t) (.element n as ks a b) =
      ((mapOf as ks).mapM (readEntry k t)).map fun rs => .map ((rs.foldl putNamed []).map (·.2)) := by
  rw [fromXml]
  change Option.bind ((mapOf as ks).mapM (readEntry k t)) _ = _
  cases (mapOf as ks).mapM (readEntry (ν := ν) k t) <;> rfl

/-- What a field adds: elements of that name, from which it is read. -/
def FieldOk (t : STy) (v : SVal ν) : Prop := ∃ x, toXml ofInt showNum nm v = .ok (some x) ∧
  ∀ key, PlainName key → ∃ ks, putField key x = .ok ks ∧ ks ≠ [] ∧ (∀ y ∈ ks, Of key y) ∧ fromXml t (entryVal ks) = some v

/-- The value is no fragment, and is read with any name around it. -/
def ItemOk (t : STy) (v : SVal ν) : Prop := ∃ x, toXml ofInt showNum nm v = .ok (some x) ∧ (∀ vs, x ≠ .fragment vs) ∧
  fromXml t x = some v ∧ ∀ key, fromXml t (rename key x) = some v

theorem rename_of (key : Str) (x : XmlVal) : Of key (rename key x) := by
  cases x <;> exact ⟨_, _, _, _, rfl⟩

theorem ItemOk.field {t : STy} {v : SVal ν} (h : ItemOk ofInt showNum nm t v) : FieldOk ofInt showNum nm t v := by
  obtain ⟨x, h1, h2, _, h3⟩ := h
  refine ⟨x, h1, fun key hk => ⟨[rename key x], ?_, by simp, ?_, h3 key⟩⟩
  · unfold putField
    rw [if_neg hk.1, if_neg hk.2]
    cases x <;> first | rfl | exact absurd rfl (h2 _)
  · intro y hy
    simp only [List.mem_singleton] at hy
    subst hy
    exact rename_of key x

theorem toEntries_ok {k t : STy} (hk : KeyTy k) : ∀ {es : List (SVal ν × SVal ν)}, PlainEntries es →
    (∀ e ∈ es, HasTy k e.1) → (∀ e ∈ es, PlainNames e.2 → FieldOk ofInt showNum nm t e.2) →
    ∃ (gs : List (Str × List XmlVal)) (rs : List (Str × SVal ν × SVal ν)),
      toEntries ofInt showNum nm es = .ok (some (gs.flatMap (·.2))) ∧ (∀ g ∈ gs, g.2 ≠ [] ∧ ∀ x ∈ g.2, Of g.1 x) ∧
      rs.map (·.1) = gs.map (·.1) ∧
      (gs.map fun g => (g.1, entryVal g.2)).mapM (readEntry k t) = some rs ∧ rs.map (·.2) = es ∧
      ∀ r ∈ rs, readKey k r.1 = some r.2.1
  | [], _, _, _ => ⟨[], [], by simp [toEntries, pure, Except.pure], by simp, rfl, by simp, rfl, by simp⟩
  | (w, v) :: es, hp, ht, hv => by
    rw [PlainEntries] at hp
    obtain ⟨s, a1, a2, a3⟩ := key_read showNum hk (ht (w, v) (by simp)) hp.1
    obtain ⟨x, b1, b2⟩ := hv (w, v) (by simp) hp.2.1
    obtain ⟨ks, c1, c2, c3, c4⟩ := b2 s a3
    obtain ⟨gs, rs, d1, d2, d3, d4, d5, d6⟩ := toEntries_ok hk hp.2.2 (fun e he => ht e (by simp [he])) (fun e he => hv e (by simp [he]))
    refine ⟨(s, ks) :: gs, (s, w, v) :: rs, ?_, ?_, by simp [d3], ?_, by simp [d5], ?_⟩
    · rw [toEntries, a1]
      simp only [b1, andThen_some, c1, d1]
      rfl
    · intro g hg
      rcases List.mem_cons.1 hg with rfl | hg
      · exact ⟨c2, c3⟩
      · exact d2 g hg
    · rw [List.map_cons, List.mapM_cons]
      have : readEntry k t (s, entryVal ks) = some (s, w, v) := by simp [readEntry, a2, c4]
      rw [this, d4]
      rfl
    · intro r hr
      rcases List.mem_cons.1 hr with rfl | hr
      · exact a2
      · exact d6 r hr

theorem nodup_keyNames {k : STy} : ∀ {rs : List (Str × SVal ν × SVal ν)}, (∀ r ∈ rs, readKey k r.1 = some r.2.1) →
    (rs.map fun r => r.2.1).Nodup → (rs.map (·.1)).Nodup
  | [], _, _ => by simp
  | r :: rs, h, hn => by
    simp only [List.map_cons, List.nodup_cons] at hn ⊢
    refine ⟨fun hm => hn.1 ?_, nodup_keyNames (fun r hr => h r (by simp [hr])) hn.2⟩
    obtain ⟨r', h1, h2⟩ := List.mem_map.1 hm
    refine List.mem_map.2 ⟨r', h1, ?_⟩
    have a := h r (by simp)
    have b := h r' (by simp [h1])
    rw [h2, a] at b
    simpa using b.symm

/-- A map is written as an element, and read whatever its name. -/
theorem map_ok {k t : STy} (hk : KeyTy k) {es : List (SVal ν × SVal ν)} (hp : PlainEntries es) (hes : ∀ e ∈ es, HasTy k e.1)
    (hn : (es.map (·.1)).Nodup) (hv : ∀ e ∈ es, PlainNames e.2 → FieldOk ofInt showNum nm t e.2) :
    ItemOk ofInt showNum nm (.map k t) (.map es) := by
  obtain ⟨gs, rs, h1, h2, h3, h4, h5, h6⟩ := toEntries_ok ofInt showNum nm hk hp hes hv
  have hkeys : (rs.map fun r => r.2.1).Nodup := by
    rw [← h5, List.map_map] at hn
    exact hn
  have hnames := nodup_keyNames h6 hkeys
  have read : ∀ n, fromXml (.map k t) (node n (gs.flatMap (·.2))) = some (SVal.map es) := by
    intro n
    rw [node, fromXml_map, mapOf_groups (by rw [← h3]; exact hnames) h2, h4]
    have := foldl_putNamed rs [] (by simpa using hnames)
    rw [Option.map_some, this]
    simp [h5]
  refine ⟨node "root".toList (gs.flatMap (·.2)), by simp [toXml, h1], by simp [node], read _, fun key => ?_⟩
  rw [← read key]
  rfl

theorem fromFields_one {k : Str} {t : STy} {fs : List (Str × STy)} {es : List (Str × XmlVal)} {e : Str × XmlVal}
    (h : es.filter (fun e => decide (e.1 = k)) = [e]) :
    fromFields ((k, t) :: fs) es = (fromXml (ν := ν) t e.2).bind fun v => (fromFields fs es).bind fun vs => some ((k, v) :: vs) := by
  rw [fromFields, h]
  rfl

/-- A struct is written as an element, and read whatever its name. -/
theorem struct_ok {fs : List (Str × STy)} {ws : List (Str × SVal ν)} (hnd : (fs.map (·.1)).Nodup)
    (h : ∃ gs : List (Str × List XmlVal), toFields ofInt showNum nm ws = .ok (some (gs.flatMap (·.2))) ∧ (∀ g ∈ gs, g.2 ≠ [] ∧ ∀ x ∈ g.2, Of g.1 x) ∧
      gs.map (·.1) = fs.map (·.1) ∧
      ∀ es : List (Str × XmlVal), (∀ g ∈ gs, es.filter (fun f => decide (f.1 = g.1)) = [(g.1, entryVal g.2)]) → fromFields fs es = some ws) :
    ItemOk ofInt showNum nm (.struct fs) (.struct ws) := by
  obtain ⟨gs, h1, h2, h3, h4⟩ := h
  have read : ∀ n, fromXml (.struct fs) (node n (gs.flatMap (·.2))) = some (SVal.struct ws) := by
    intro n
    rw [node, fromXml, mapOf_groups (by rw [h3]; exact hnd) h2, h4, Option.map_some]
    intro g hg
    have hm : (g.1, entryVal g.2) ∈ gs.map fun g => (g.1, entryVal g.2) := List.mem_map.2 ⟨g, hg, rfl⟩
    exact filter_name (e := (g.1, entryVal g.2)) (by rw [List.map_map]; exact h3 ▸ hnd) hm
  refine ⟨node (nm (ws.map (·.1))) (gs.flatMap (·.2)), by simp [toXml, h1], by simp [node], read _, fun key => ?_⟩
  rw [← read key]
  rfl

theorem str_ok (s : Str) : ItemOk ofInt showNum nm .str (.str s) :=
  ⟨.text s, by simp [toXml, pure, Except.pure], by simp, by simp [fromXml, readText], fun key => by simp [fromXml, rename, node, readText, plain]⟩

theorem newtype_item {t : STy} {v : SVal ν} (h : ItemOk ofInt showNum nm t v) : ItemOk ofInt showNum nm (.newtype t) (.newtype v) := by
  obtain ⟨x, h1, h2, h3, h4⟩ := h
  exact ⟨x, by simpa [toXml] using h1, h2, by simp [fromXml, h3], fun key => by simp [fromXml, h4]⟩

theorem newtype_field {t : STy} {v : SVal ν} (h : FieldOk ofInt showNum nm t v) : FieldOk ofInt showNum nm (.newtype t) (.newtype v) := by
  obtain ⟨x, h1, h2⟩ := h
  refine ⟨x, by simpa [toXml] using h1, fun key hk => ?_⟩
  obtain ⟨ks, a, b, c, d⟩ := h2 key hk
  exact ⟨ks, a, b, c, by simp [fromXml, d]⟩

mutual
theorem item_ok : ∀ (t : STy) {v : SVal ν}, Proper t → Item t → HasTy t v → PlainNames v → ItemOk ofInt showNum nm t v
  | .str, v, _, _, h, _ => by
    simp only [HasTy] at h
    obtain ⟨s, rfl⟩ := h
    exact str_ok ofInt showNum nm s
  | .newtype t, v, hp, hi, h, hn => by
    simp only [HasTy] at h
    obtain ⟨w, rfl, hw⟩ := h
    exact newtype_item ofInt showNum nm (item_ok t (by simpa [Proper] using hp) (by simpa [Item] using hi) hw (by simpa [PlainNames] using hn))
  | .struct fs, v, hp, hi, h, hn => by
    simp only [HasTy] at h
    simp only [Proper] at hp
    simp only [Item] at hi
    obtain ⟨ws, rfl, hws⟩ := h
    exact struct_ok ofInt showNum nm hp.1 (fields_ok fs hp.2 hi hws (by simpa [PlainNames] using hn))
  | .map k t, v, hp, hi, h, hn => by
    simp only [HasTy] at h
    simp only [Proper] at hp
    simp only [Item] at hi
    obtain ⟨es, rfl, hes, hnd⟩ := h
    exact map_ok ofInt showNum nm hi.1 (by simpa [PlainNames] using hn) (fun e he => (hes e he).1) hnd
      (fun e he hpl => field_ok t hp.2 hi.2 (hes e he).2 hpl)
  | .bool, _, _, hi, _, _ => by simp [Item] at hi
  | .int _ _, _, _, hi, _, _ => by simp [Item] at hi
  | .f64, _, _, hi, _, _ => by simp [Item] at hi
  | .char, _, _, hi, _, _ => by simp [Item] at hi
  | .unit, _, _, hi, _, _ => by simp [Item] at hi
  | .opt _, _, _, hi, _, _ => by simp [Item] at hi
  | .seq _, _, _, hi, _, _ => by simp [Item] at hi
  | .tuple _, _, _, hi, _, _ => by simp [Item] at hi
  | .enum _, _, _, hi, _, _ => by simp [Item] at hi
theorem items_ok : ∀ (ts : List STy) {ws : List (SVal ν)}, ProperAll ts → Items ts → HasTys ts ws → AllPlain ws →
    ∃ xs, toXmls ofInt showNum nm ws = .ok (some xs) ∧ xs.length = ts.length ∧ ∀ key, fromTuple ts (xs.map (rename key)) = some ws
  | [], ws, _, _, h, _ => by
    simp only [HasTys] at h
    subst h
    exact ⟨[], by simp [toXmls, pure, Except.pure], rfl, by simp [fromTuple]⟩
  | t :: ts, ws, hp, hi, h, hn => by
    simp only [HasTys] at h
    simp only [ProperAll] at hp
    simp only [Items] at hi
    obtain ⟨w, ws, rfl, hw, hws⟩ := h
    rw [AllPlain] at hn
    obtain ⟨x, h1, _, _, h2⟩ := item_ok t hp.1 hi.1 hw hn.1
    obtain ⟨xs, h3, h4, h5⟩ := items_ok ts hp.2 hi.2 hws hn.2
    exact ⟨x :: xs, by simp [toXmls, h1, h3], by simp [h4], fun key => by simp [fromTuple, h2 key, h5 key]⟩
theorem field_ok : ∀ (t : STy) {v : SVal ν}, Proper t → Field t → HasTy t v → PlainNames v → FieldOk ofInt showNum nm t v
  | .str, v, _, _, h, _ => by
    simp only [HasTy] at h
    obtain ⟨s, rfl⟩ := h
    exact (str_ok ofInt showNum nm s).field
  | .newtype t, v, hp, hi, h, hn => by
    simp only [HasTy] at h
    obtain ⟨w, rfl, hw⟩ := h
    exact newtype_field ofInt showNum nm (field_ok t (by simpa [Proper] using hp) (by simpa [Field] using hi) hw (by simpa [PlainNames] using hn))
  | .struct fs, v, hp, hi, h, hn => by
    simp only [HasTy] at h
    simp only [Proper] at hp
    simp only [Field] at hi
    obtain ⟨ws, rfl, hws⟩ := h
    exact (struct_ok ofInt showNum nm hp.1 (fields_ok fs hp.2 hi hws (by simpa [PlainNames] using hn))).field
  | .map k t, v, hp, hi, h, hn => by
    simp only [HasTy] at h
    simp only [Proper] at hp
    simp only [Field] at hi
    obtain ⟨es, rfl, hes, hnd⟩ := h
    exact (map_ok ofInt showNum nm hi.1 (by simpa [PlainNames] using hn) (fun e he => (hes e he).1) hnd
      (fun e he hpl => field_ok t hp.2 hi.2 (hes e he).2 hpl)).field
  | .tuple ts, v, hp, hi, h, hn => by
    simp only [HasTy] at h
    simp only [Proper] at hp
    simp only [Field] at hi
    obtain ⟨ws, rfl, hws⟩ := h
    obtain ⟨xs, h1, h2, h3⟩ := items_ok ts hp hi.2 hws (by simpa [PlainNames] using hn)
    refine ⟨.fragment xs, by simp [toXml, h1], fun key hk => ⟨xs.map (rename key), ?_, ?_, ?_, ?_⟩⟩
    · unfold putField
      rw [if_neg hk.1, if_neg hk.2]
    · intro he
      rw [List.map_eq_nil_iff] at he
      subst he
      have := hi.1
      simp at h2
      omega
    · intro y hy
      obtain ⟨x, _, rfl⟩ := List.mem_map.1 hy
      exact rename_of key x
    · have hv : entryVal (xs.map (rename key)) = .fragment (xs.map (rename key)) := by
        have := hi.1
        rcases xs with _ | ⟨a, _ | ⟨b, xs⟩⟩
        · simp at h2; omega
        · simp at h2; omega
        · rfl
      rw [hv, fromXml]
      simp [listOf, h3 key]
  | .bool, _, _, hi, _, _ => by simp [Field] at hi
  | .int _ _, _, _, hi, _, _ => by simp [Field] at hi
  | .f64, _, _, hi, _, _ => by simp [Field] at hi
  | .char, _, _, hi, _, _ => by simp [Field] at hi
  | .unit, _, _, hi, _, _ => by simp [Field] at hi
  | .opt _, _, _, hi, _, _ => by simp [Field] at hi
  | .seq _, _, _, hi, _, _ => by simp [Field] at hi
  | .enum _, _, _, hi, _, _ => by simp [Field] at hi
theorem fields_ok : ∀ (fs : List (Str × STy)) {ws : List (Str × SVal ν)}, ProperFields fs → Fields fs → HasFields fs ws → PlainFields ws →
    ∃ gs : List (Str × List XmlVal), toFields ofInt showNum nm ws = .ok (some (gs.flatMap (·.2))) ∧ (∀ g ∈ gs, g.2 ≠ [] ∧ ∀ x ∈ g.2, Of g.1 x) ∧
      gs.map (·.1) = fs.map (·.1) ∧
      ∀ es : List (Str × XmlVal), (∀ g ∈ gs, es.filter (fun f => decide (f.1 = g.1)) = [(g.1, entryVal g.2)]) → fromFields fs es = some ws
  | [], ws, _, _, h, _ => by
    simp only [HasFields] at h
    subst h
    exact ⟨[], by simp [toFields, pure, Except.pure], by simp, rfl, by simp [fromFields]⟩
  | (k, t) :: fs, ws, hp, hi, h, hn => by
    simp only [HasFields] at h
    simp only [ProperFields] at hp
    simp only [Fields] at hi
    obtain ⟨w, ws, rfl, hw, hws⟩ := h
    rw [PlainFields] at hn
    obtain ⟨x, h1, h2⟩ := field_ok t hp.1 hi.1 hw hn.2.1
    obtain ⟨ks, a, b, c, d⟩ := h2 k hn.1
    obtain ⟨gs, h3, h4, h5, h6⟩ := fields_ok fs hp.2 hi.2 hws hn.2.2
    refine ⟨(k, ks) :: gs, ?_, ?_, by simp [h5], fun es hes => ?_⟩
    · rw [toFields]
      simp only [h1, andThen_some, a, h3]
      rfl
    · intro g hg
      rcases List.mem_cons.1 hg with rfl | hg
      · exact ⟨b, c⟩
      · exact h4 g hg
    · rw [fromFields_one (hes (k, ks) (by simp)), d, h6 es (fun g hg => hes g (by simp [hg]))]
      rfl
end

theorem text_ok : ∀ (t : STy) {v : SVal ν}, IsText t → HasTy t v →
    ∃ s, toXml ofInt showNum nm v = .ok (some (.text s)) ∧ ∀ n, fromXml t (node n [.text s]) = some v
  | .str, v, _, h => by
    simp only [HasTy] at h
    obtain ⟨s, rfl⟩ := h
    exact ⟨s, by simp [toXml, pure, Except.pure], fun n => by simp [fromXml, node, readText, plain]⟩
  | .newtype t, v, hi, h => by
    simp only [HasTy] at h
    obtain ⟨w, rfl, hw⟩ := h
    obtain ⟨s, h1, h2⟩ := text_ok t (by simpa [IsText] using hi) hw
    exact ⟨s, by simpa [toXml] using h1, fun n => by simp [fromXml, h2 n]⟩
  | .bool, _, hi, _ => by simp [IsText] at hi
  | .int _ _, _, hi, _ => by simp [IsText] at hi
  | .f64, _, hi, _ => by simp [IsText] at hi
  | .char, _, hi, _ => by simp [IsText] at hi
  | .unit, _, hi, _ => by simp [IsText] at hi
  | .opt _, _, hi, _ => by simp [IsText] at hi
  | .seq _, _, hi, _ => by simp [IsText] at hi
  | .tuple _, _, hi, _ => by simp [IsText] at hi
  | .map _ _, _, hi, _ => by simp [IsText] at hi
  | .struct _, _, hi, _ => by simp [IsText] at hi
  | .enum _, _, hi, _ => by simp [IsText] at hi

theorem textFields_ok : ∀ (fs : List (Str × STy)) {ws : List (Str × SVal ν)}, TextFields fs → HasFields fs ws →
    ∃ gs : List (Str × List XmlVal), toVariant ofInt showNum nm ws = .ok (some (gs.flatMap (·.2))) ∧ (∀ g ∈ gs, g.2 ≠ [] ∧ ∀ x ∈ g.2, Of g.1 x) ∧
      gs.map (·.1) = fs.map (·.1) ∧
      ∀ es : List (Str × XmlVal), (∀ g ∈ gs, es.filter (fun f => decide (f.1 = g.1)) = [(g.1, entryVal g.2)]) → fromFields fs es = some ws
  | [], ws, _, h => by
    simp only [HasFields] at h
    subst h
    exact ⟨[], by simp [toVariant, pure, Except.pure], by simp, rfl, by simp [fromFields]⟩
  | (k, t) :: fs, ws, hi, h => by
    simp only [HasFields] at h
    simp only [TextFields] at hi
    obtain ⟨w, ws, rfl, hw, hws⟩ := h
    obtain ⟨s, h1, h2⟩ := text_ok ofInt showNum nm t hi.1 hw
    obtain ⟨gs, h3, h4, h5, h6⟩ := textFields_ok fs hi.2 hws
    refine ⟨(k, [node k [.text s]]) :: gs, ?_, ?_, by simp [h5], fun es hes => ?_⟩
    · simp [toVariant, h1, h3]
    · intro g hg
      rcases List.mem_cons.1 hg with rfl | hg
      · exact ⟨by simp, by simp [Of, node]⟩
      · exact h4 g hg
    · rw [fromFields_one (hes (k, [node k [.text s]]) (by simp)), h6 es (fun g hg => hes g (by simp [hg]))]
      simp [entryVal, h2 k]

theorem toXmls_seq {t : STy} : ∀ {ws : List (SVal ν)}, AllPlain ws →
    (∀ w ∈ ws, PlainNames w → ∃ x, toXml ofInt showNum nm w = .ok (some x) ∧ fromXml t x = some w) →
    ∃ xs, toXmls ofInt showNum nm ws = .ok (some xs) ∧ xs.mapM (fromXml t) = some ws
  | [], _, _ => ⟨[], by simp [toXmls, pure, Except.pure], by simp⟩
  | w :: ws, hp, h => by
    rw [AllPlain] at hp
    obtain ⟨j, hj, hr⟩ := h w (by simp) hp.1
    obtain ⟨js, hjs, hrs⟩ := toXmls_seq hp.2 (fun x hx => h x (by simp [hx]))
    exact ⟨j :: js, by simp [toXmls, hj, hjs], by simp [List.mapM_cons, hr, hrs]⟩

mutual
theorem whole_ok : ∀ (t : STy) {v : SVal ν}, Proper t → Whole t → HasTy t v → PlainNames v →
    ∃ x, toXml ofInt showNum nm v = .ok (some x) ∧ fromXml t x = some v
  | .str, v, _, _, h, _ => by
    simp only [HasTy] at h
    obtain ⟨s, rfl⟩ := h
    obtain ⟨x, h1, _, h2, _⟩ := str_ok ofInt showNum nm s
    exact ⟨x, h1, h2⟩
  | .char, v, _, _, h, _ => by
    simp only [HasTy] at h
    obtain ⟨c, rfl⟩ := h
    exact ⟨.text [c], by simp [toXml, pure, Except.pure], by simp [fromXml]⟩
  | .newtype t, v, hp, hi, h, hn => by
    simp only [HasTy] at h
    obtain ⟨w, rfl, hw⟩ := h
    obtain ⟨x, h1, h2⟩ := whole_ok t (by simpa [Proper] using hp) (by simpa [Whole] using hi) hw (by simpa [PlainNames] using hn)
    exact ⟨x, by simpa [toXml] using h1, by simp [fromXml, h2]⟩
  | .seq t, v, hp, hi, h, hn => by
    simp only [HasTy] at h
    simp only [Proper] at hp
    simp only [Whole] at hi
    obtain ⟨ws, rfl, hws⟩ := h
    obtain ⟨xs, h1, h2⟩ := toXmls_seq ofInt showNum nm (t := t) (by simpa [PlainNames] using hn) (fun w hw hpl => whole_ok t hp hi (hws w hw) hpl)
    exact ⟨.fragment xs, by simp [toXml, h1], by simp [fromXml, listOf, h2]⟩
  | .tuple ts, v, hp, hi, h, hn => by
    simp only [HasTy] at h
    simp only [Proper] at hp
    simp only [Whole] at hi
    obtain ⟨ws, rfl, hws⟩ := h
    obtain ⟨xs, h1, h2⟩ := wholes_ok ts hp hi hws (by simpa [PlainNames] using hn)
    exact ⟨.fragment xs, by simp [toXml, h1], by simp [fromXml, listOf, h2]⟩
  | .map k t, v, hp, hi, h, hn => by
    obtain ⟨x, h1, _, h2, _⟩ := item_ok ofInt showNum nm (.map k t) hp (by simpa [Item, Whole] using hi) h hn
    exact ⟨x, h1, h2⟩
  | .struct fs, v, hp, hi, h, hn => by
    obtain ⟨x, h1, _, h2, _⟩ := item_ok ofInt showNum nm (.struct fs) hp (by simpa [Item, Whole] using hi) h hn
    exact ⟨x, h1, h2⟩
  | .enum vs, v, hp, hi, h, hn => by
    simp only [HasTy] at h
    simp only [Proper] at hp
    simp only [Whole] at hi
    obtain ⟨n, _, h1⟩ := variants_ok vs hp.1 hp.2 hi h hn
    rcases h1 with ⟨rfl, hr⟩ | ⟨xs, h1, h2⟩
    · exact ⟨.text n, by simp [toXml, pure, Except.pure], by simpa [fromXml] using hr⟩
    · exact ⟨node n xs, h1, by simpa [fromXml, node] using h2⟩
  | .bool, _, _, hi, _, _ => by simp [Whole] at hi
  | .int _ _, _, _, hi, _, _ => by simp [Whole] at hi
  | .f64, _, _, hi, _, _ => by simp [Whole] at hi
  | .unit, _, _, hi, _, _ => by simp [Whole] at hi
  | .opt _, _, _, hi, _, _ => by simp [Whole] at hi
theorem wholes_ok : ∀ (ts : List STy) {ws : List (SVal ν)}, ProperAll ts → Wholes ts → HasTys ts ws → AllPlain ws →
    ∃ xs, toXmls ofInt showNum nm ws = .ok (some xs) ∧ fromTuple ts xs = some ws
  | [], ws, _, _, h, _ => by
    simp only [HasTys] at h
    subst h
    exact ⟨[], by simp [toXmls, pure, Except.pure], by simp [fromTuple]⟩
  | t :: ts, ws, hp, hi, h, hn => by
    simp only [HasTys] at h
    simp only [ProperAll] at hp
    simp only [Wholes] at hi
    obtain ⟨w, ws, rfl, hw, hws⟩ := h
    rw [AllPlain] at hn
    obtain ⟨x, h1, h2⟩ := whole_ok t hp.1 hi.1 hw hn.1
    obtain ⟨xs, h3, h4⟩ := wholes_ok ts hp.2 hi.2 hws hn.2
    exact ⟨x :: xs, by simp [toXmls, h1, h3], by simp [fromTuple, h2, h4]⟩
theorem variants_ok : ∀ (vs : List (Str × SVar)) {v : SVal ν}, (vs.map (·.1)).Nodup → ProperVars vs → Variants vs → HasVariant vs v → PlainNames v →
    ∃ n, n ∈ vs.map (·.1) ∧ ((v = .uvar n ∧ fromEnum vs n none = some v) ∨
      ∃ xs, toXml ofInt showNum nm v = .ok (some (node n xs)) ∧ fromEnum vs n (some (node n xs)) = some v)
  | [], _, _, _, _, h, _ => by simp [HasVariant] at h
  | (n, k) :: vs, v, hn, hp, hk, h, hpl => by
    simp only [HasVariant] at h
    simp only [ProperVars] at hp
    simp only [Variants] at hk
    simp only [List.map_cons, List.nodup_cons] at hn
    rcases h with h | h
    · refine ⟨n, by simp, ?_⟩
      rcases variant_ok k (n := n) hp.1 hk.1 h hpl with ⟨rfl, hr⟩ | ⟨xs, h1, h2⟩
      · exact .inl ⟨rfl, by simpa [fromEnum] using hr⟩
      · exact .inr ⟨xs, h1, by simpa [fromEnum] using h2⟩
    · obtain ⟨m, hm, h1⟩ := variants_ok vs hn.2 hp.2 hk.2 h hpl
      have hne : n ≠ m := fun e => hn.1 (e ▸ hm)
      refine ⟨m, by rw [List.map_cons]; exact List.mem_cons_of_mem _ hm, ?_⟩
      rcases h1 with ⟨rfl, hr⟩ | ⟨xs, h1, h2⟩
      · exact .inl ⟨rfl, by simpa [fromEnum, hne] using hr⟩
      · exact .inr ⟨xs, h1, by simpa [fromEnum, hne] using h2⟩
theorem variant_ok : ∀ (k : SVar) {n : Str} {v : SVal ν}, ProperVar k → Variant k → HasKind n k v → PlainNames v →
    (v = .uvar n ∧ fromVariant k n none = some v) ∨
      ∃ xs, toXml ofInt showNum nm v = .ok (some (node n xs)) ∧ fromVariant k n (some (node n xs)) = some v
  | .unit, n, v, _, _, h, _ => by
    simp only [HasKind] at h
    subst h
    exact .inl ⟨rfl, by simp [fromVariant]⟩
  | .newtype t, n, v, hp, hk, h, _ => by
    simp only [HasKind] at h
    simp only [Variant] at hk
    obtain ⟨w, rfl, hw⟩ := h
    obtain ⟨s, h1, h2⟩ := text_ok ofInt showNum nm t hk hw
    exact .inr ⟨[.text s], by simp [toXml, h1], by simp [fromVariant, h2]⟩
  | .tuple ts, n, v, hp, hk, h, hn => by
    simp only [HasKind] at h
    simp only [ProperVar] at hp
    simp only [Variant] at hk
    obtain ⟨ws, rfl, hws⟩ := h
    obtain ⟨xs, h1, h2⟩ := wholes_ok ts hp hk hws (by simpa [PlainNames] using hn)
    exact .inr ⟨xs, by simp [toXml, h1], by simp [fromVariant, node, h2]⟩
  | .struct fs, n, v, hp, hk, h, hn => by
    simp only [HasKind] at h
    simp only [ProperVar] at hp
    simp only [Variant] at hk
    obtain ⟨ws, rfl, hws⟩ := h
    obtain ⟨gs, h1, h2, h3, h4⟩ := textFields_ok ofInt showNum nm fs hk hws
    refine .inr ⟨gs.flatMap (·.2), by simp [toXml, h1], ?_⟩
    simp only [node, fromVariant]
    rw [mapOf_groups (by rw [h3]; exact hp.1) h2, h4, Option.map_some]
    intro g hg
    have hm : (g.1, entryVal g.2) ∈ gs.map fun g => (g.1, entryVal g.2) := List.mem_map.2 ⟨g, hg, rfl⟩
    exact filter_name (e := (g.1, entryVal g.2)) (by rw [List.map_map]; exact h3 ▸ hp.1) hm
end

end Oaks.XmlSerde
