import Verif.Proofs.XmlSerde

/-
What is read from XML is of the type that was asked for.
-/
namespace Oaks.XmlSerde
open Oaks Oaks.Serde Oaks.Serde.Spec Oaks.XmlSerde.Spec

variable {ν : Type}

theorem unit_variant {n : Str} : ∀ {vs : List (Str × SVar)}, (n, SVar.unit) ∈ vs → HasVariant (ν := ν) vs (.uvar n)
  | (m, k) :: vs, h => by
    simp only [HasVariant]
    rcases List.mem_cons.1 h with he | h
    · cases he
      exact .inl (by simp [HasKind])
    · exact .inr (unit_variant h)

theorem readKey_typed {k : STy} {s : Str} {w : SVal ν} (h : readKey k s = some w) : HasTy k w := by
  cases k <;> simp only [readKey, reduceCtorEq] at h
  · rcases s with _ | ⟨a, _ | ⟨b, s⟩⟩ <;> simp [readKey] at h
    exact ⟨_, h.symm⟩
  · simp only [Option.some.injEq] at h
    exact ⟨_, h.symm⟩
  · simp only [Option.bind_eq_some_iff] at h
    obtain ⟨v, h1, h2⟩ := h
    cases hv : v.2 <;> simp only [hv, reduceCtorEq, Option.some.injEq] at h2
    have hm := List.mem_of_find?_eq_some h1
    have hn : v.1 = s := by simpa using List.find?_some h1
    subst h2
    rw [HasTy]
    exact unit_variant (by rw [← hn, ← hv]; exact hm)

theorem nodup_readKeys {k : STy} {rs : List (Str × SVal ν × SVal ν)} (h : ∀ r ∈ rs, readKey k r.1 = some r.2.1)
    (hn : (rs.map (·.1)).Nodup) : (rs.map fun r => r.2.1).Nodup := by
  induction rs with
  | nil => simp
  | cons r rs ih =>
    simp only [List.map_cons, List.nodup_cons] at hn ⊢
    refine ⟨?_, ih (fun x hx => h x (by simp [hx])) hn.2⟩
    intro hm
    obtain ⟨x, hx, e⟩ := List.mem_map.1 hm
    refine hn.1 (List.mem_map.2 ⟨x, hx, ?_⟩)
    have h1 := h r (by simp)
    have h2 := h x (by simp [hx])
    rw [e] at h2
    exact readKey_inj h2 h1

mutual
theorem fromXml_typed : ∀ (t : STy) {x : XmlVal} {v : SVal ν}, fromXml t x = some v → HasTy t v
  | .bool, x, v, h => by cases x <;> simp [fromXml] at h
  | .int _ _, x, v, h => by cases x <;> simp [fromXml] at h
  | .f64, x, v, h => by cases x <;> simp [fromXml] at h
  | .unit, x, v, h => by cases x <;> simp [fromXml] at h
  | .char, x, v, h => by
    cases x with
    | text s =>
      rcases s with _ | ⟨c, _ | ⟨d, s⟩⟩
      · simp [fromXml] at h
      · simp [fromXml] at h
        exact h ▸ ⟨_, rfl⟩
      · simp [fromXml] at h
    | _ => simp [fromXml] at h
  | .str, x, v, h => by
    simp only [fromXml, Option.map_eq_some_iff] at h
    obtain ⟨s, _, rfl⟩ := h
    exact ⟨_, rfl⟩
  | .opt t, x, v, h => by
    simp only [HasTy]
    have key : (fromXml t x).map SVal.some = some v → v = .none ∨ ∃ w, v = .some w ∧ HasTy t w := by
      intro h
      obtain ⟨w, hw, rfl⟩ := Option.map_eq_some_iff.1 h
      exact .inr ⟨w, rfl, fromXml_typed t hw⟩
    cases x with
    | text s =>
      cases s with
      | nil =>
        simp [fromXml] at h
        exact .inl h.symm
      | cons c s => exact key (by simpa only [fromXml] using h)
    | _ => exact key (by simpa only [fromXml] using h)
  | .newtype t, x, v, h => by
    simp only [HasTy]
    simp only [fromXml, Option.map_eq_some_iff] at h
    obtain ⟨w, hw, rfl⟩ := h
    exact ⟨w, rfl, fromXml_typed t hw⟩
  | .seq t, x, v, h => by
    simp only [HasTy]
    simp only [fromXml, Option.bind_eq_some_iff, Option.map_eq_some_iff] at h
    obtain ⟨xs, _, ws, hw, rfl⟩ := h
    exact ⟨ws, rfl, mapM_all (P := HasTy t) (fun a b hab => fromXml_typed t hab) hw⟩
  | .tuple ts, x, v, h => by
    simp only [HasTy]
    simp only [fromXml, Option.bind_eq_some_iff, Option.map_eq_some_iff] at h
    obtain ⟨xs, _, ws, hw, rfl⟩ := h
    exact ⟨ws, rfl, fromXmlTuple_typed ts hw⟩
  | .map k t, x, v, h => by
    simp only [HasTy]
    cases x with
    | element n as ks a b =>
      rw [fromXml_map, Option.map_eq_some_iff] at h
      obtain ⟨rs, hr, rfl⟩ := h
      have hall := mapM_all (P := fun r : Str × SVal ν × SVal ν => readKey k r.1 = some r.2.1 ∧ HasTy k r.2.1 ∧ HasTy t r.2.2)
        (fun a b hab => by
          unfold readEntry at hab
          cases ha : readKey (ν := ν) k a.1 with
          | none => simp [ha] at hab
          | some x =>
            cases hb : fromXml (ν := ν) t a.2 with
            | none => simp [ha, hb] at hab
            | some y =>
              simp [ha, hb] at hab
              subst hab
              exact ⟨ha, readKey_typed ha, fromXml_typed t hb⟩) hr
      obtain ⟨h1, h2⟩ := foldl_putNamed_spec rs [] (by simp)
      have h2' : ∀ x ∈ rs.foldl putNamed [], x ∈ rs := fun x hx => by simpa using h2 x hx
      refine ⟨_, rfl, ?_, ?_⟩
      · intro e he
        obtain ⟨x, hx, rfl⟩ := List.mem_map.1 he
        exact (hall x (h2' x hx)).2
      · rw [List.map_map]
        exact nodup_readKeys (k := k) (fun r hr => (hall r (h2' r hr)).1) h1
    | _ => simp [fromXml] at h
  | .struct fs, x, v, h => by
    simp only [HasTy]
    cases x with
    | element n as ks a b =>
      simp only [fromXml, Option.map_eq_some_iff] at h
      obtain ⟨ws, hw, rfl⟩ := h
      exact ⟨ws, rfl, fromXmlFields_typed fs hw⟩
    | fragment xs =>
      simp only [fromXml, Option.map_eq_some_iff] at h
      obtain ⟨ws, hw, rfl⟩ := h
      exact ⟨ws, rfl, fromXmlOrder_typed fs hw⟩
    | _ => simp [fromXml] at h
  | .enum vs, x, v, h => by
    simp only [HasTy]
    cases x with
    | text s =>
      simp only [fromXml] at h
      exact fromXmlEnum_typed vs h
    | element n as ks a b =>
      simp only [fromXml] at h
      exact fromXmlEnum_typed vs h
    | _ => simp [fromXml] at h
theorem fromXmlTuple_typed : ∀ (ts : List STy) {xs : List XmlVal} {ws : List (SVal ν)}, fromTuple ts xs = some ws → HasTys ts ws
  | [], xs, ws, h => by
    simp [fromTuple] at h
    subst h
    simp [HasTys]
  | t :: ts, [], ws, h => by simp [fromTuple] at h
  | t :: ts, x :: xs, ws, h => by
    simp only [HasTys]
    cases h1 : fromXml (ν := ν) t x with
    | none => simp [fromTuple, h1] at h
    | some w =>
      cases h2 : fromTuple (ν := ν) ts xs with
      | none => simp [fromTuple, h1, h2] at h
      | some r =>
        simp [fromTuple, h1, h2] at h
        exact ⟨w, r, h.symm, fromXml_typed t h1, fromXmlTuple_typed ts h2⟩
theorem fromXmlOrder_typed : ∀ (fs : List (Str × STy)) {xs : List XmlVal} {ws : List (Str × SVal ν)}, fromOrder fs xs = some ws →
    HasFields fs ws
  | [], xs, ws, h => by
    simp [fromOrder] at h
    subst h
    simp [HasFields]
  | (k, t) :: ts, [], ws, h => by simp [fromOrder] at h
  | (k, t) :: ts, x :: xs, ws, h => by
    simp only [HasFields]
    cases h1 : fromXml (ν := ν) t x with
    | none => simp [fromOrder, h1] at h
    | some w =>
      cases h2 : fromOrder (ν := ν) ts xs with
      | none => simp [fromOrder, h1, h2] at h
      | some r =>
        simp [fromOrder, h1, h2] at h
        exact ⟨w, r, h.symm, fromXml_typed t h1, fromXmlOrder_typed ts h2⟩
theorem fromXmlFields_typed : ∀ (fs : List (Str × STy)) {es : List (Str × XmlVal)} {ws : List (Str × SVal ν)},
    fromFields fs es = some ws → HasFields fs ws
  | [], es, ws, h => by
    simp [fromFields] at h
    subst h
    simp [HasFields]
  | (k, t) :: fs, es, ws, h => by
    simp only [HasFields]
    rw [fromFields] at h
    have key : ∀ {o : Option (SVal ν)}, (∀ v, o = some v → HasTy t v) →
        (o.bind fun v => (fromFields fs es).bind fun vs => some ((k, v) :: vs)) = some ws →
        ∃ w r, ws = (k, w) :: r ∧ HasTy t w ∧ HasFields fs r := by
      intro o ho h
      cases o with
      | none => simp at h
      | some v =>
        cases h2 : fromFields (ν := ν) fs es with
        | none => simp [h2] at h
        | some r =>
          simp [h2] at h
          exact ⟨v, r, h.symm, ho v rfl, fromXmlFields_typed fs h2⟩
    generalize es.filter (fun e => decide (e.1 = k)) = l at h
    rcases l with _ | ⟨e, _ | ⟨e', l⟩⟩
    · exact key (o := missing t) (fun v hv => missing_typed hv) h
    · exact key (o := fromXml t e.2) (fun v hv => fromXml_typed t hv) h
    · exact key (o := none) (fun v hv => by simp at hv) h
theorem fromXmlEnum_typed : ∀ (vs : List (Str × SVar)) {n : Str} {o : Option XmlVal} {v : SVal ν}, fromEnum vs n o = some v →
    HasVariant vs v
  | [], _, _, _, h => by simp [fromEnum] at h
  | (m, k) :: vs, n, o, v, h => by
    simp only [HasVariant]
    rw [fromEnum] at h
    split at h
    · next e => exact .inl (e ▸ fromXmlVariant_typed k h)
    · exact .inr (fromXmlEnum_typed vs h)
theorem fromXmlVariant_typed : ∀ (k : SVar) {n : Str} {o : Option XmlVal} {v : SVal ν}, fromVariant k n o = some v → HasKind n k v
  | .unit, n, o, v, h => by
    simp [fromVariant] at h
    simp only [HasKind]
    exact h.symm
  | .newtype t, n, o, v, h => by
    cases o with
    | none => simp [fromVariant] at h
    | some j =>
      simp only [fromVariant, Option.map_eq_some_iff] at h
      obtain ⟨w, hw, rfl⟩ := h
      simp only [HasKind]
      exact ⟨w, rfl, fromXml_typed t hw⟩
  | .tuple ts, n, o, v, h => by
    rcases o with _ | j
    · simp [fromVariant] at h
    · cases j with
      | element =>
        simp only [fromVariant, Option.map_eq_some_iff] at h
        obtain ⟨w, hw, rfl⟩ := h
        simp only [HasKind]
        exact ⟨w, rfl, fromXmlTuple_typed ts hw⟩
      | _ => simp [fromVariant] at h
  | .struct fs, n, o, v, h => by
    rcases o with _ | j
    · simp [fromVariant] at h
    · cases j with
      | element =>
        simp only [fromVariant, Option.map_eq_some_iff] at h
        obtain ⟨w, hw, rfl⟩ := h
        simp only [HasKind]
        exact ⟨w, rfl, fromXmlFields_typed fs hw⟩
      | _ => simp [fromVariant] at h
end

end Oaks.XmlSerde
