import Verif.Spec.JsonSerde
import Mathlib.Data.List.Nodup

/-
Reading back what was written for a Rust value.
-/
namespace Oaks.Serde
open Oaks Oaks.Spec Oaks.Serde.Spec

variable {ν : Type} (ofInt : Int → ν) (showNum : ν → Str)

/-! ### Keys -/

theorem fromEnum_units : ∀ {vs : List (Str × SVar)}, Units vs → ∀ {v : SVal ν}, HasVariant vs v →
    ∃ n, v = .uvar n ∧ fromEnum vs n none = some v
  | [], _, _, h => by simp [HasVariant] at h
  | (n, .unit) :: vs, hu, v, h => by
    simp only [HasVariant, HasKind] at h
    rcases h with rfl | h
    · exact ⟨n, rfl, by simp [fromEnum, fromVariant]⟩
    · simp only [Units] at hu
      obtain ⟨m, rfl, hm⟩ := fromEnum_units hu h
      refine ⟨m, rfl, ?_⟩
      by_cases e : n = m
      · simp [fromEnum, fromVariant, e]
      · simpa [fromEnum, e] using hm
  | (_, .newtype _) :: _, hu, _, _ => by simp [Units] at hu
  | (_, .tuple _) :: _, hu, _, _ => by simp [Units] at hu
  | (_, .struct _) :: _, hu, _, _ => by simp [Units] at hu

theorem textual_key : ∀ (k : STy) {w : SVal ν}, Textual k → HasTy k w →
    ∃ s, keyText showNum w = some s ∧ fromValue k (.str s) = some w
  | .str, w, _, h => by
    simp only [HasTy] at h
    obtain ⟨s, rfl⟩ := h
    exact ⟨s, by simp [keyText], by simp [fromValue]⟩
  | .char, w, _, h => by
    simp only [HasTy] at h
    obtain ⟨c, rfl⟩ := h
    exact ⟨[c], by simp [keyText], by simp [fromValue]⟩
  | .newtype t, w, ht, h => by
    simp only [HasTy] at h
    obtain ⟨u, rfl, hu⟩ := h
    obtain ⟨s, hs, hr⟩ := textual_key t (by simpa [Textual] using ht) hu
    exact ⟨s, by simpa [keyText] using hs, by simp [fromValue, hr]⟩
  | .enum vs, w, ht, h => by
    simp only [HasTy] at h
    obtain ⟨n, rfl, hn⟩ := fromEnum_units (by simpa [Textual] using ht) h
    exact ⟨n, by simp [keyText], by simpa [fromValue] using hn⟩
  | .bool, _, ht, _ => by simp [Textual] at ht
  | .int _ _, _, ht, _ => by simp [Textual] at ht
  | .f64, _, ht, _ => by simp [Textual] at ht
  | .unit, _, ht, _ => by simp [Textual] at ht
  | .opt _, _, ht, _ => by simp [Textual] at ht
  | .seq _, _, ht, _ => by simp [Textual] at ht
  | .tuple _, _, ht, _ => by simp [Textual] at ht
  | .map _ _, _, ht, _ => by simp [Textual] at ht
  | .struct _, _, ht, _ => by simp [Textual] at ht

theorem fromEnum_none_name : ∀ {vs : List (Str × SVar)} {n : Str} {v : SVal ν}, fromEnum vs n none = some v → v = .uvar n
  | [], _, _, h => by simp [fromEnum] at h
  | (m, k) :: vs, n, v, h => by
    rw [fromEnum] at h
    split at h
    · cases k <;> simp [fromVariant] at h
      exact h.symm
    · exact fromEnum_none_name h

/-- Different names are read as different keys. -/
theorem fromValue_str_inj : ∀ (k : STy) {s s' : Str} {w : SVal ν}, fromValue k (.str s) = some w → fromValue k (.str s') = some w →
    s = s'
  | .str, s, s', w, h, h' => by
    simp only [fromValue, Option.some.injEq] at h h'
    subst h
    simpa using h'.symm
  | .char, s, s', w, h, h' => by
    cases s with
    | nil => simp [fromValue] at h
    | cons a s =>
      cases s with
      | cons b s => simp [fromValue] at h
      | nil =>
        cases s' with
        | nil => simp [fromValue] at h'
        | cons a' s' =>
          cases s' with
          | cons b s => simp [fromValue] at h'
          | nil =>
            simp only [fromValue, Option.some.injEq] at h h'
            subst h
            simpa using h'.symm
  | .newtype t, s, s', w, h, h' => by
    simp only [fromValue, Option.map_eq_some_iff] at h h'
    obtain ⟨u, hu, rfl⟩ := h
    obtain ⟨u', hu', e⟩ := h'
    cases e
    exact fromValue_str_inj t hu hu'
  | .opt t, s, s', w, h, h' => by
    simp only [fromValue, Option.map_eq_some_iff] at h h'
    obtain ⟨u, hu, rfl⟩ := h
    obtain ⟨u', hu', e⟩ := h'
    cases e
    exact fromValue_str_inj t hu hu'
  | .enum vs, s, s', w, h, h' => by
    simp only [fromValue] at h h'
    have a := fromEnum_none_name h
    have b := fromEnum_none_name h'
    rw [a] at b
    simpa using b
  | .bool, _, _, _, h, _ => by simp [fromValue] at h
  | .int _ _, _, _, _, h, _ => by simp [fromValue] at h
  | .f64, _, _, _, h, _ => by simp [fromValue] at h
  | .unit, _, _, _, h, _ => by simp [fromValue] at h
  | .seq _, _, _, _, h, _ => by simp [fromValue] at h
  | .tuple _, _, _, _, h, _ => by simp [fromValue] at h
  | .map _ _, _, _, _, h, _ => by simp [fromValue] at h
  | .struct _, _, _, _, h, _ => by simp [fromValue] at h

/-! ### Entries of maps -/

theorem putNamed_new {V : Type} {m : List (Str × V)} {e : Str × V} (h : e.1 ∉ m.map (·.1)) : putNamed m e = m ++ [e] := by
  unfold putNamed
  rw [if_neg]
  intro hh
  apply h
  simp only [List.any_eq_true, decide_eq_true_eq] at hh
  obtain ⟨f, hf, e'⟩ := hh
  exact List.mem_map.2 ⟨f, hf, e'⟩

theorem foldl_putNamed {V : Type} : ∀ (rs m : List (Str × V)), ((m ++ rs).map (·.1)).Nodup → rs.foldl putNamed m = m ++ rs
  | [], m, _ => by simp
  | r :: rs, m, h => by
    have hn : r.1 ∉ m.map (·.1) := by
      intro hm
      rw [List.map_append, List.map_cons] at h
      exact (List.nodup_append.1 h).2.2 _ hm _ (List.mem_cons_self ..) rfl
    rw [List.foldl_cons, putNamed_new hn, foldl_putNamed rs (m ++ [r]) (by simpa using h)]
    simp

theorem putNamed_mem {V : Type} {m : List (Str × V)} {e x : Str × V} (h : x ∈ putNamed m e) : x ∈ m ∨ x = e := by
  unfold putNamed at h
  split at h
  · obtain ⟨f, hf, rfl⟩ := List.mem_map.1 h
    split
    · exact .inr rfl
    · exact .inl hf
  · simpa using h

theorem putNamed_names {V : Type} {m : List (Str × V)} {e : Str × V} (h : (m.map (·.1)).Nodup) : ((putNamed m e).map (·.1)).Nodup := by
  by_cases hn : e.1 ∈ m.map (·.1)
  · have hp : putNamed m e = m.map fun f => if f.1 = e.1 then e else f := by
      unfold putNamed
      rw [if_pos]
      obtain ⟨f, hf, e'⟩ := List.mem_map.1 hn
      exact List.any_eq_true.2 ⟨f, hf, by simpa using e'⟩
    rw [hp, List.map_map]
    have : ((fun f => f.1) ∘ fun f : Str × V => if f.1 = e.1 then e else f) = fun f => f.1 := by
      funext f
      simp only [Function.comp]
      split
      · next h => exact h.symm
      · rfl
    rwa [this]
  · rw [putNamed_new hn, List.map_append]
    rw [List.nodup_append]
    refine ⟨h, by simp, ?_⟩
    intro a ha b hb hab
    simp only [List.map_cons, List.map_nil, List.mem_singleton] at hb
    subst hab hb
    exact hn ha

theorem foldl_putNamed_spec {V : Type} : ∀ (rs m : List (Str × V)), (m.map (·.1)).Nodup →
    ((rs.foldl putNamed m).map (·.1)).Nodup ∧ ∀ x ∈ rs.foldl putNamed m, x ∈ m ∨ x ∈ rs
  | [], m, h => ⟨h, fun x hx => .inl hx⟩
  | r :: rs, m, h => by
    rw [List.foldl_cons]
    obtain ⟨h1, h2⟩ := foldl_putNamed_spec rs (putNamed m r) (putNamed_names h)
    refine ⟨h1, fun x hx => ?_⟩
    rcases h2 x hx with h | h
    · rcases putNamed_mem h with h | h
      · exact .inl h
      · exact .inr (by simp [h])
    · exact .inr (by simp [h])

/-! ### Round trip -/

theorem toValues_seq {t : STy} : ∀ {ws : List (SVal ν)},
    (∀ w ∈ ws, ∃ j, toValue ofInt showNum w = some j ∧ fromValue t j = some w) →
    ∃ js, toValues ofInt showNum ws = some js ∧ js.mapM (fromValue t) = some ws
  | [], _ => ⟨[], by simp [toValues], by simp⟩
  | w :: ws, h => by
    obtain ⟨j, hj, hr⟩ := h w (by simp)
    obtain ⟨js, hjs, hrs⟩ := toValues_seq (ws := ws) (fun x hx => h x (by simp [hx]))
    exact ⟨j :: js, by simp [toValues, hj, hjs], by simp [List.mapM_cons, hr, hrs]⟩

/-- Reading an entry of a map. -/
def readEntry (k t : STy) (e : Str × JsonVal ν) : Option (Str × SVal ν × SVal ν) := do
  let key ← fromValue k (.str e.1)
  let v ← fromValue t e.2
  return (e.1, key, v)

theorem fromValue_map (k t : STy) (es : List (Str × JsonVal ν)) :
    fromValue (.map k t) (.obj es) = (es.mapM (readEntry k t)).map fun rs => .map ((rs.foldl putNamed []).map (·.2)) := by
  simp only [fromValue]
  show ((es.mapM (readEntry k t)).bind fun rs => some (SVal.map ((rs.foldl putNamed []).map (·.2)))) = _
  cases es.mapM (readEntry k t) <;> rfl

theorem toEntries_map {k t : STy} : ∀ {es : List (SVal ν × SVal ν)},
    (∀ e ∈ es, ∃ s, keyText showNum e.1 = some s ∧ fromValue k (.str s) = some e.1) →
    (∀ e ∈ es, ∃ j, toValue ofInt showNum e.2 = some j ∧ fromValue t j = some e.2) →
    ∃ js rs, toEntries ofInt showNum es = some js ∧ js.mapM (readEntry k t) = some rs ∧ rs.map (·.2) = es ∧
      ∀ r ∈ rs, fromValue k (.str r.1) = some r.2.1
  | [], _, _ => ⟨[], [], by simp [toEntries], by simp, rfl, by simp⟩
  | (a, b) :: es, hk, hv => by
    obtain ⟨s, hs, hsr⟩ := hk (a, b) (by simp)
    obtain ⟨j, hj, hr⟩ := hv (a, b) (by simp)
    obtain ⟨js, rs, h1, h2, h3, h4⟩ := toEntries_map (es := es) (fun x hx => hk x (by simp [hx])) (fun x hx => hv x (by simp [hx]))
    simp only at hs hsr hj hr
    refine ⟨(s, j) :: js, (s, a, b) :: rs, by simp [toEntries, hs, hj, h1], ?_, by simp [h3], ?_⟩
    · simp [List.mapM_cons, readEntry, hsr, hr, h2]
    · intro r hr'
      rcases List.mem_cons.1 hr' with rfl | h
      · exact hsr
      · exact h4 r h

theorem nodup_names {k : STy} {rs : List (Str × SVal ν × SVal ν)} (h : ∀ r ∈ rs, fromValue k (.str r.1) = some r.2.1)
    (hn : (rs.map fun r => r.2.1).Nodup) : (rs.map (·.1)).Nodup := by
  induction rs with
  | nil => simp
  | cons r rs ih =>
    simp only [List.map_cons, List.nodup_cons] at hn ⊢
    refine ⟨?_, ih (fun x hx => h x (by simp [hx])) hn.2⟩
    intro hm
    obtain ⟨x, hx, e⟩ := List.mem_map.1 hm
    apply hn.1
    have h1 := h r (by simp)
    have h2 := h x (by simp [hx])
    rw [e, h1] at h2
    exact List.mem_map.2 ⟨x, hx, by simpa using h2.symm⟩

theorem nodup_keys {k : STy} {rs : List (Str × SVal ν × SVal ν)} (h : ∀ r ∈ rs, fromValue k (.str r.1) = some r.2.1)
    (hn : (rs.map (·.1)).Nodup) : (rs.map fun r => r.2.1).Nodup := by
  induction rs with
  | nil => simp
  | cons r rs ih =>
    simp only [List.map_cons, List.nodup_cons] at hn ⊢
    refine ⟨?_, ih (fun x hx => h x (by simp [hx])) hn.2⟩
    intro hm
    obtain ⟨x, hx, e⟩ := List.mem_map.1 hm
    apply hn.1
    have h1 := h r (by simp)
    have h2 := h x (by simp [hx])
    rw [e] at h2
    exact List.mem_map.2 ⟨x, hx, (fromValue_str_inj k h1 h2).symm⟩

theorem fromFields_cons_one {k : Str} {t : STy} {fs : List (Str × STy)} {es : List (Str × JsonVal ν)} {e : Str × JsonVal ν}
    (h : es.filter (fun e => decide (e.1 = k)) = [e]) :
    fromFields ((k, t) :: fs) es = (fromValue t e.2).bind fun v => (fromFields fs es).bind fun vs => some ((k, v) :: vs) := by
  rw [fromFields, h]
  rfl

theorem filter_name {V : Type} : ∀ {es : List (Str × V)}, (es.map (·.1)).Nodup → ∀ {e}, e ∈ es →
    es.filter (fun f => decide (f.1 = e.1)) = [e]
  | [], _, _, he => by simp at he
  | f :: es, h, e, he => by
    simp only [List.map_cons, List.nodup_cons] at h
    rcases List.mem_cons.1 he with rfl | he
    · rw [List.filter_cons_of_pos (by simp), List.filter_eq_nil_iff.2]
      intro x hx hh
      apply h.1
      exact List.mem_map.2 ⟨x, hx, by simpa using hh⟩
    · rw [List.filter_cons_of_neg, filter_name h.2 he]
      intro hh
      apply h.1
      exact List.mem_map.2 ⟨e, he, by simpa using (of_decide_eq_true hh).symm⟩

mutual
theorem roundtrip : ∀ (t : STy) {v : SVal ν}, Proper t → Kept t → HasTy t v →
    ∃ j, toValue ofInt showNum v = some j ∧ fromValue t j = some v ∧ (j = .null → Nullable t)
  | .bool, v, _, _, h => by
    simp only [HasTy] at h
    obtain ⟨b, rfl⟩ := h
    exact ⟨.bool b, by simp [toValue], by simp [fromValue], by simp⟩
  | .int _ _, _, _, hk, _ => by simp [Kept] at hk
  | .f64, v, _, _, h => by
    simp only [HasTy] at h
    obtain ⟨b, rfl⟩ := h
    exact ⟨.num b, by simp [toValue], by simp [fromValue], by simp⟩
  | .char, v, _, _, h => by
    simp only [HasTy] at h
    obtain ⟨b, rfl⟩ := h
    exact ⟨.str [b], by simp [toValue], by simp [fromValue], by simp⟩
  | .str, v, _, _, h => by
    simp only [HasTy] at h
    obtain ⟨b, rfl⟩ := h
    exact ⟨.str b, by simp [toValue], by simp [fromValue], by simp⟩
  | .unit, v, _, _, h => by
    simp only [HasTy] at h
    subst h
    exact ⟨.null, by simp [toValue], by simp [fromValue], by simp [Nullable]⟩
  | .opt t, v, hp, hk, h => by
    simp only [HasTy] at h
    simp only [Proper] at hp
    simp only [Kept] at hk
    rcases h with rfl | ⟨w, rfl, hw⟩
    · exact ⟨.null, by simp [toValue], by simp [fromValue], by simp [Nullable]⟩
    · obtain ⟨j, h1, h2, h3⟩ := roundtrip t hp hk.1 hw
      refine ⟨j, by simpa [toValue] using h1, ?_, by simp [Nullable]⟩
      cases j with
      | null => exact absurd (h3 rfl) hk.2
      | _ => simp [fromValue, h2]
  | .newtype t, v, hp, hk, h => by
    simp only [HasTy] at h
    simp only [Proper] at hp
    simp only [Kept] at hk
    obtain ⟨w, rfl, hw⟩ := h
    obtain ⟨j, h1, h2, h3⟩ := roundtrip t hp hk hw
    exact ⟨j, by simpa [toValue] using h1, by simp [fromValue, h2], by simpa [Nullable] using h3⟩
  | .seq t, v, hp, hk, h => by
    simp only [HasTy] at h
    simp only [Proper] at hp
    simp only [Kept] at hk
    obtain ⟨ws, rfl, hws⟩ := h
    obtain ⟨js, h1, h2⟩ := toValues_seq ofInt showNum (t := t) (ws := ws) (fun w hw => by
      obtain ⟨j, a, b, _⟩ := roundtrip t hp hk (hws w hw)
      exact ⟨j, a, b⟩)
    exact ⟨.arr js, by simp [toValue, h1], by simp [fromValue, h2], by simp⟩
  | .tuple ts, v, hp, hk, h => by
    simp only [HasTy] at h
    simp only [Proper] at hp
    simp only [Kept] at hk
    obtain ⟨ws, rfl, hws⟩ := h
    obtain ⟨js, h1, h2⟩ := roundtrips ts hp hk hws
    exact ⟨.arr js, by simp [toValue, h1], by simp [fromValue, h2], by simp⟩
  | .map k t, v, hp, hk, h => by
    simp only [HasTy] at h
    simp only [Proper] at hp
    simp only [Kept] at hk
    obtain ⟨es, rfl, hes, hn⟩ := h
    obtain ⟨js, rs, h1, h2, h3, h4⟩ := toEntries_map ofInt showNum (k := k) (t := t) (es := es)
      (fun e he => textual_key showNum k hk.1 (hes e he).1)
      (fun e he => by
        obtain ⟨j, a, b, _⟩ := roundtrip t hp.2 hk.2 (hes e he).2
        exact ⟨j, a, b⟩)
    refine ⟨.obj js, by simp [toValue, h1], ?_, by simp⟩
    rw [fromValue_map, h2]
    have hn' : (rs.map fun r => r.2.1).Nodup := by
      rw [← h3, List.map_map] at hn
      exact hn
    have := foldl_putNamed rs [] (by simpa using nodup_names h4 hn')
    rw [Option.map_some, this]
    simp [h3]
  | .struct fs, v, hp, hk, h => by
    simp only [HasTy] at h
    simp only [Proper] at hp
    simp only [Kept] at hk
    obtain ⟨ws, rfl, hws⟩ := h
    obtain ⟨js, h1, h2, h3⟩ := roundtripf fs hp.2 hk hws
    refine ⟨.obj js, by simp [toValue, h1], ?_, by simp⟩
    have := h3 js (fun e he => filter_name (by rw [h2]; exact hp.1) he)
    simp [fromValue, this]
  | .enum vs, v, hp, hk, h => by
    simp only [HasTy] at h
    simp only [Proper] at hp
    simp only [Kept] at hk
    rcases roundtripv vs hp.1 hp.2 hk h with ⟨n, _, rfl, hr⟩ | ⟨n, j, _, h1, h2⟩
    · exact ⟨.str n, by simp [toValue], by simpa [fromValue] using hr, by simp⟩
    · exact ⟨.obj [(n, j)], h1, by simpa [fromValue] using h2, by simp⟩
theorem roundtrips : ∀ (ts : List STy) {ws : List (SVal ν)}, ProperAll ts → KeptAll ts → HasTys ts ws →
    ∃ js, toValues ofInt showNum ws = some js ∧ fromTuple ts js = some ws
  | [], ws, _, _, h => by
    simp only [HasTys] at h
    subst h
    exact ⟨[], by simp [toValues], by simp [fromTuple]⟩
  | t :: ts, ws, hp, hk, h => by
    simp only [HasTys] at h
    simp only [ProperAll] at hp
    simp only [KeptAll] at hk
    obtain ⟨w, ws, rfl, hw, hws⟩ := h
    obtain ⟨j, h1, h2, _⟩ := roundtrip t hp.1 hk.1 hw
    obtain ⟨js, h3, h4⟩ := roundtrips ts hp.2 hk.2 hws
    exact ⟨j :: js, by simp [toValues, h1, h3], by simp [fromTuple, h2, h4]⟩
theorem roundtripf : ∀ (fs : List (Str × STy)) {ws : List (Str × SVal ν)}, ProperFields fs → KeptFields fs → HasFields fs ws →
    ∃ js, toFields ofInt showNum ws = some js ∧ js.map (·.1) = fs.map (·.1) ∧
      ∀ es, (∀ e ∈ js, es.filter (fun f => decide (f.1 = e.1)) = [e]) → fromFields fs es = some ws
  | [], ws, _, _, h => by
    simp only [HasFields] at h
    subst h
    exact ⟨[], by simp [toFields], rfl, by simp [fromFields]⟩
  | (k, t) :: fs, ws, hp, hk, h => by
    simp only [HasFields] at h
    simp only [ProperFields] at hp
    simp only [KeptFields] at hk
    obtain ⟨w, ws, rfl, hw, hws⟩ := h
    obtain ⟨j, h1, h2, _⟩ := roundtrip t hp.1 hk.1 hw
    obtain ⟨js, h3, h4, h5⟩ := roundtripf fs hp.2 hk.2 hws
    refine ⟨(k, j) :: js, by simp [toFields, h1, h3], by simp [h4], fun es hes => ?_⟩
    rw [fromFields_cons_one (hes (k, j) (by simp)), h2, h5 es (fun e he => hes e (by simp [he]))]
    rfl
theorem roundtripv : ∀ (vs : List (Str × SVar)) {v : SVal ν}, (vs.map (·.1)).Nodup → ProperVars vs → KeptVars vs → HasVariant vs v →
    (∃ n, n ∈ vs.map (·.1) ∧ v = .uvar n ∧ fromEnum vs n none = some v) ∨
      ∃ n j, n ∈ vs.map (·.1) ∧ toValue ofInt showNum v = some (.obj [(n, j)]) ∧ fromEnum vs n (some j) = some v
  | [], _, _, _, _, h => by simp [HasVariant] at h
  | (n, k) :: vs, v, hn, hp, hk, h => by
    simp only [HasVariant] at h
    simp only [ProperVars] at hp
    simp only [KeptVars] at hk
    simp only [List.map_cons, List.nodup_cons] at hn
    rcases h with h | h
    · rcases roundtripk k (n := n) hp.1 hk.1 h with ⟨rfl, hr⟩ | ⟨j, h1, h2⟩
      · exact .inl ⟨n, by simp, rfl, by simpa [fromEnum] using hr⟩
      · exact .inr ⟨n, j, by simp, h1, by simpa [fromEnum] using h2⟩
    · rcases roundtripv vs hn.2 hp.2 hk.2 h with ⟨m, hm, rfl, hr⟩ | ⟨m, j, hm, h1, h2⟩
      · have : n ≠ m := fun e => hn.1 (e ▸ hm)
        exact .inl ⟨m, by simp [List.mem_map.1 hm], rfl, by simpa [fromEnum, this] using hr⟩
      · have : n ≠ m := fun e => hn.1 (e ▸ hm)
        exact .inr ⟨m, j, by simp [List.mem_map.1 hm], h1, by simpa [fromEnum, this] using h2⟩
theorem roundtripk : ∀ (k : SVar) {n : Str} {v : SVal ν}, ProperVar k → KeptVar k → HasKind n k v →
    (v = .uvar n ∧ fromVariant k n none = some v) ∨
      ∃ j, toValue ofInt showNum v = some (.obj [(n, j)]) ∧ fromVariant k n (some j) = some v
  | .unit, n, v, _, _, h => by
    simp only [HasKind] at h
    subst h
    exact .inl ⟨rfl, by simp [fromVariant]⟩
  | .newtype t, n, v, hp, hk, h => by
    simp only [HasKind] at h
    simp only [ProperVar] at hp
    simp only [KeptVar] at hk
    obtain ⟨w, rfl, hw⟩ := h
    obtain ⟨j, h1, h2, _⟩ := roundtrip t hp hk hw
    exact .inr ⟨j, by simp [toValue, h1], by simp [fromVariant, h2]⟩
  | .tuple ts, n, v, hp, hk, h => by
    simp only [HasKind] at h
    simp only [ProperVar] at hp
    simp only [KeptVar] at hk
    obtain ⟨ws, rfl, hws⟩ := h
    obtain ⟨js, h1, h2⟩ := roundtrips ts hp hk hws
    exact .inr ⟨.arr js, by simp [toValue, h1], by simp [fromVariant, h2]⟩
  | .struct _, _, _, _, hk, _ => by simp [KeptVar] at hk
end

/-! ### What is read is of the type -/

theorem mapM_all {α β : Type} {f : α → Option β} {P : β → Prop} (hf : ∀ a b, f a = some b → P b) :
    ∀ {l : List α} {r : List β}, l.mapM f = some r → ∀ b ∈ r, P b
  | [], r, h => by
    have : r = [] := by simpa using h.symm
    simp [this]
  | a :: l, r, h => by
    rw [List.mapM_cons] at h
    cases ha : f a with
    | none => simp [ha] at h
    | some b =>
      cases hl : l.mapM f with
      | none => simp [ha, hl] at h
      | some bs =>
        simp [ha, hl] at h
        subst h
        intro x hx
        rcases List.mem_cons.1 hx with rfl | hx
        · exact hf a _ ha
        · exact mapM_all hf hl x hx

theorem missing_typed {t : STy} {v : SVal ν} (h : missing t = some v) : HasTy t v := by
  cases t <;> simp [missing] at h
  subst h
  simp [HasTy]

mutual
theorem fromValue_typed : ∀ (t : STy) {j : JsonVal ν} {v : SVal ν}, fromValue t j = some v → HasTy t v
  | .bool, j, v, h => by
    cases j <;> simp [fromValue] at h
    exact h ▸ ⟨_, rfl⟩
  | .int _ _, j, v, h => by cases j <;> simp [fromValue] at h
  | .f64, j, v, h => by
    cases j <;> simp [fromValue] at h
    exact h ▸ ⟨_, rfl⟩
  | .char, j, v, h => by
    cases j with
    | str s =>
      rcases s with _ | ⟨c, _ | ⟨d, s⟩⟩
      · simp [fromValue] at h
      · simp [fromValue] at h
        exact h ▸ ⟨_, rfl⟩
      · simp [fromValue] at h
    | _ => simp [fromValue] at h
  | .str, j, v, h => by
    cases j <;> simp [fromValue] at h
    exact h ▸ ⟨_, rfl⟩
  | .unit, j, v, h => by
    cases j <;> simp [fromValue] at h
    exact h ▸ rfl
  | .opt t, j, v, h => by
    simp only [HasTy]
    cases j with
    | null =>
      simp [fromValue] at h
      exact .inl h.symm
    | _ =>
      simp only [fromValue, Option.map_eq_some_iff] at h
      obtain ⟨w, hw, rfl⟩ := h
      exact .inr ⟨w, rfl, fromValue_typed t hw⟩
  | .newtype t, j, v, h => by
    simp only [HasTy]
    simp only [fromValue, Option.map_eq_some_iff] at h
    obtain ⟨w, hw, rfl⟩ := h
    exact ⟨w, rfl, fromValue_typed t hw⟩
  | .seq t, j, v, h => by
    simp only [HasTy]
    cases j with
    | arr js =>
      simp only [fromValue, Option.map_eq_some_iff] at h
      obtain ⟨ws, hw, rfl⟩ := h
      exact ⟨ws, rfl, mapM_all (P := HasTy t) (fun a b hab => fromValue_typed t hab) hw⟩
    | _ => simp [fromValue] at h
  | .tuple ts, j, v, h => by
    simp only [HasTy]
    cases j with
    | arr js =>
      simp only [fromValue, Option.map_eq_some_iff] at h
      obtain ⟨ws, hw, rfl⟩ := h
      exact ⟨ws, rfl, fromTuple_typed ts hw⟩
    | _ => simp [fromValue] at h
  | .map k t, j, v, h => by
    simp only [HasTy]
    cases j with
    | obj es =>
      rw [fromValue_map, Option.map_eq_some_iff] at h
      obtain ⟨rs, hr, rfl⟩ := h
      have hall := mapM_all (P := fun r : Str × SVal ν × SVal ν => fromValue k (.str r.1) = some r.2.1 ∧ HasTy k r.2.1 ∧ HasTy t r.2.2)
        (fun a b hab => by
          unfold readEntry at hab
          cases ha : fromValue (ν := ν) k (.str a.1) with
          | none => simp [ha] at hab
          | some x =>
            cases hb : fromValue t a.2 with
            | none => simp [ha, hb] at hab
            | some y =>
              simp [ha, hb] at hab
              subst hab
              exact ⟨ha, fromValue_typed k ha, fromValue_typed t hb⟩) hr
      obtain ⟨h1, h2⟩ := foldl_putNamed_spec rs [] (by simp)
      have h2' : ∀ x ∈ rs.foldl putNamed [], x ∈ rs := fun x hx => by simpa using h2 x hx
      refine ⟨_, rfl, ?_, ?_⟩
      · intro e he
        obtain ⟨x, hx, rfl⟩ := List.mem_map.1 he
        exact (hall x (h2' x hx)).2
      · rw [List.map_map]
        exact nodup_keys (k := k) (fun r hr => (hall r (h2' r hr)).1) h1
    | _ => simp [fromValue] at h
  | .struct fs, j, v, h => by
    simp only [HasTy]
    cases j with
    | arr js =>
      simp only [fromValue, Option.map_eq_some_iff] at h
      obtain ⟨ws, hw, rfl⟩ := h
      exact ⟨ws, rfl, fromOrder_typed fs hw⟩
    | obj js =>
      simp only [fromValue, Option.map_eq_some_iff] at h
      obtain ⟨ws, hw, rfl⟩ := h
      exact ⟨ws, rfl, fromFields_typed fs hw⟩
    | _ => simp [fromValue] at h
  | .enum vs, j, v, h => by
    simp only [HasTy]
    cases j with
    | str s =>
      simp only [fromValue] at h
      exact fromEnum_typed vs h
    | obj es =>
      rcases es with _ | ⟨⟨n, j⟩, _ | ⟨e, es⟩⟩
      · simp [fromValue] at h
      · simp only [fromValue] at h
        exact fromEnum_typed vs h
      · simp [fromValue] at h
    | _ => simp [fromValue] at h
theorem fromTuple_typed : ∀ (ts : List STy) {js : List (JsonVal ν)} {ws : List (SVal ν)}, fromTuple ts js = some ws → HasTys ts ws
  | [], js, ws, h => by
    simp [fromTuple] at h
    subst h
    simp [HasTys]
  | t :: ts, [], ws, h => by simp [fromTuple] at h
  | t :: ts, j :: js, ws, h => by
    simp only [HasTys]
    cases h1 : fromValue t j with
    | none => simp [fromTuple, h1] at h
    | some w =>
      cases h2 : fromTuple ts js with
      | none => simp [fromTuple, h1, h2] at h
      | some r =>
        simp [fromTuple, h1, h2] at h
        exact ⟨w, r, h.symm, fromValue_typed t h1, fromTuple_typed ts h2⟩
theorem fromOrder_typed : ∀ (fs : List (Str × STy)) {js : List (JsonVal ν)} {ws : List (Str × SVal ν)}, fromOrder fs js = some ws →
    HasFields fs ws
  | [], js, ws, h => by
    simp [fromOrder] at h
    subst h
    simp [HasFields]
  | (k, t) :: ts, [], ws, h => by simp [fromOrder] at h
  | (k, t) :: ts, j :: js, ws, h => by
    simp only [HasFields]
    cases h1 : fromValue t j with
    | none => simp [fromOrder, h1] at h
    | some w =>
      cases h2 : fromOrder ts js with
      | none => simp [fromOrder, h1, h2] at h
      | some r =>
        simp [fromOrder, h1, h2] at h
        exact ⟨w, r, h.symm, fromValue_typed t h1, fromOrder_typed ts h2⟩
theorem fromFields_typed : ∀ (fs : List (Str × STy)) {es : List (Str × JsonVal ν)} {ws : List (Str × SVal ν)},
    fromFields fs es = some ws → HasFields fs ws
  | [], es, ws, h => by
    simp [fromFields] at h
    subst h
    simp [HasFields]
  | (k, t) :: fs, es, ws, h => by
    simp only [HasFields]
    rw [fromFields] at h
    have key : ∀ {o : Option (SVal ν)}, (∀ v, o = some v → HasTy t v) →
        (o.bind fun v => (fromFields fs es).bind fun vs => some ((k, v) :: vs)) = some ws →
        ∃ w r, ws = (k, w) :: r ∧ HasTy t w ∧ HasFields fs r := by
      intro o ho h
      cases o with
      | none => simp at h
      | some v =>
        cases h2 : fromFields fs es with
        | none => simp [h2] at h
        | some r =>
          simp [h2] at h
          exact ⟨v, r, h.symm, ho v rfl, fromFields_typed fs h2⟩
    generalize es.filter (fun e => decide (e.1 = k)) = l at h
    rcases l with _ | ⟨e, _ | ⟨e', l⟩⟩
    · exact key (o := missing t) (fun v hv => missing_typed hv) h
    · exact key (o := fromValue t e.2) (fun v hv => fromValue_typed t hv) h
    · exact key (o := none) (fun v hv => by simp at hv) h
theorem fromEnum_typed : ∀ (vs : List (Str × SVar)) {n : Str} {o : Option (JsonVal ν)} {v : SVal ν}, fromEnum vs n o = some v →
    HasVariant vs v
  | [], _, _, _, h => by simp [fromEnum] at h
  | (m, k) :: vs, n, o, v, h => by
    simp only [HasVariant]
    rw [fromEnum] at h
    split at h
    · next e => exact .inl (e ▸ fromVariant_typed k h)
    · exact .inr (fromEnum_typed vs h)
theorem fromVariant_typed : ∀ (k : SVar) {n : Str} {o : Option (JsonVal ν)} {v : SVal ν}, fromVariant k n o = some v → HasKind n k v
  | .unit, n, o, v, h => by
    cases o <;> simp [fromVariant] at h
    simp only [HasKind]
    exact h.symm
  | .newtype t, n, o, v, h => by
    cases o with
    | none => simp [fromVariant] at h
    | some j =>
      simp only [fromVariant, Option.map_eq_some_iff] at h
      obtain ⟨w, hw, rfl⟩ := h
      simp only [HasKind]
      exact ⟨w, rfl, fromValue_typed t hw⟩
  | .tuple ts, n, o, v, h => by
    rcases o with _ | j
    · simp [fromVariant] at h
    · cases j with
      | arr js =>
        simp only [fromVariant, Option.map_eq_some_iff] at h
        obtain ⟨w, hw, rfl⟩ := h
        simp only [HasKind]
        exact ⟨w, rfl, fromTuple_typed ts hw⟩
      | _ => simp [fromVariant] at h
  | .struct fs, n, o, v, h => by
    rcases o with _ | j
    · simp [fromVariant] at h
    · cases j with
      | obj js =>
        simp only [fromVariant, Option.map_eq_some_iff] at h
        obtain ⟨w, hw, rfl⟩ := h
        simp only [HasKind]
        exact ⟨w, rfl, fromFields_typed fs hw⟩
      | _ => simp [fromVariant] at h
end

/-! ### What is not read back -/

theorem no_int_fields {signed : Bool} {bits : Nat} (hint : ∀ j : JsonVal ν, fromValue (.int signed bits) j = none) {k : Str} :
    ∀ {fs : List (Str × STy)}, (k, .int signed bits) ∈ fs → ∀ {es : List (Str × JsonVal ν)} {ws}, fromFields fs es ≠ some ws
  | [], h, _, _ => by simp at h
  | (k', t) :: fs, h, es, ws => by
    intro hf
    rw [fromFields] at hf
    have key : ∀ o : Option (SVal ν), (o = none ∨ fromFields fs es = none) →
        (o.bind fun v => (fromFields fs es).bind fun vs => some ((k', v) :: vs)) ≠ some ws := by
      intro o ho
      rcases ho with rfl | ho
      · simp
      · cases o <;> simp [ho]
    have hd : t = .int signed bits ∨ fromFields fs es = none := by
      rcases List.mem_cons.1 h with e | h
      · exact .inl (by cases e; rfl)
      · refine .inr ?_
        cases hr : fromFields fs es with
        | none => rfl
        | some r => exact absurd hr (no_int_fields hint h)
    generalize es.filter (fun e => decide (e.1 = k')) = l at hf
    rcases l with _ | ⟨e, _ | ⟨e', l⟩⟩
    · refine key (missing t) (hd.imp_left ?_) hf
      rintro rfl
      rfl
    · refine key (fromValue t e.2) (hd.imp_left ?_) hf
      rintro rfl
      exact hint _
    · exact key none (.inl rfl) hf

theorem no_int_order {signed : Bool} {bits : Nat} (hint : ∀ j : JsonVal ν, fromValue (.int signed bits) j = none) {k : Str} :
    ∀ {fs : List (Str × STy)}, (k, .int signed bits) ∈ fs → ∀ {js : List (JsonVal ν)} {ws}, fromOrder fs js ≠ some ws
  | [], h, _, _ => by simp at h
  | (k', t) :: fs, h, [], ws => by simp [fromOrder]
  | (k', t) :: fs, h, j :: js, ws => by
    intro hf
    cases h1 : fromValue t j with
    | none => simp [fromOrder, h1] at hf
    | some v =>
      cases h2 : fromOrder fs js with
      | none => simp [fromOrder, h1, h2] at hf
      | some r =>
        rcases List.mem_cons.1 h with e | h
        · cases e
          rw [hint] at h1
          simp at h1
        · exact no_int_order hint h h2

theorem fromEnum_at {n : Str} {k : SVar} : ∀ {vs : List (Str × SVar)}, (vs.map (·.1)).Nodup → (n, k) ∈ vs → ∀ {o : Option (JsonVal ν)},
    fromEnum vs n o = fromVariant k n o
  | [], _, h, _ => by simp at h
  | (m, k') :: vs, hn, h, o => by
    simp only [List.map_cons, List.nodup_cons] at hn
    rw [fromEnum]
    rcases List.mem_cons.1 h with e | h
    · cases e
      rw [if_pos rfl]
    · rw [if_neg, fromEnum_at hn.2 h]
      rintro rfl
      exact hn.1 (List.mem_map.2 ⟨_, h, rfl⟩)

theorem fromTuple_more : ∀ (ts : List STy) {js : List (JsonVal ν)} {ws}, fromTuple ts js = some ws → ∀ more,
    fromTuple ts (js ++ more) = some ws
  | [], js, ws, h, more => by simpa [fromTuple] using h
  | t :: ts, [], ws, h, more => by simp [fromTuple] at h
  | t :: ts, j :: js, ws, h, more => by
    cases h1 : fromValue t j with
    | none => simp [fromTuple, h1] at h
    | some w =>
      cases h2 : fromTuple ts js with
      | none => simp [fromTuple, h1, h2] at h
      | some r =>
        simp [fromTuple, h1, h2] at h
        simp [fromTuple, h1, fromTuple_more ts h2 more, h]

/-! ### Texts -/

mutual
theorem plain_toValue {ok : ν → Prop}  :
    ∀ (t : STy) {v : SVal ν}, Kept t → HasTy t v → PlainTexts ok v → ∀ {j}, toValue ofInt showNum v = some j → PlainVal ok j
  | .bool, v, _, h, _, j, hj => by
    simp only [HasTy] at h
    obtain ⟨b, rfl⟩ := h
    simp only [toValue, Option.some.injEq] at hj
    subst hj
    simp [PlainVal]
  | .int _ _, _, hk, _, _, _, _ => by simp [Kept] at hk
  | .f64, v, _, h, hp, j, hj => by
    simp only [HasTy] at h
    obtain ⟨b, rfl⟩ := h
    simp only [toValue, Option.some.injEq] at hj
    subst hj
    simpa [PlainVal, PlainTexts] using hp
  | .char, v, _, h, hp, j, hj => by
    simp only [HasTy] at h
    obtain ⟨b, rfl⟩ := h
    simp only [toValue, Option.some.injEq] at hj
    subst hj
    simpa only [PlainVal, PlainTexts] using hp
  | .str, v, _, h, hp, j, hj => by
    simp only [HasTy] at h
    obtain ⟨b, rfl⟩ := h
    simp only [toValue, Option.some.injEq] at hj
    subst hj
    simpa only [PlainVal, PlainTexts] using hp
  | .unit, v, _, h, _, j, hj => by
    simp only [HasTy] at h
    subst h
    simp only [toValue, Option.some.injEq] at hj
    subst hj
    simp [PlainVal]
  | .opt t, v, hk, h, hp, j, hj => by
    simp only [HasTy] at h
    simp only [Kept] at hk
    rcases h with rfl | ⟨w, rfl, hw⟩
    · simp only [toValue, Option.some.injEq] at hj
      subst hj
      simp [PlainVal]
    · simp only [toValue] at hj
      simp only [PlainTexts] at hp
      exact plain_toValue t hk.1 hw hp hj
  | .newtype t, v, hk, h, hp, j, hj => by
    simp only [HasTy] at h
    simp only [Kept] at hk
    obtain ⟨w, rfl, hw⟩ := h
    simp only [toValue] at hj
    simp only [PlainTexts] at hp
    exact plain_toValue t hk hw hp hj
  | .seq t, v, hk, h, hp, j, hj => by
    simp only [HasTy] at h
    simp only [Kept] at hk
    obtain ⟨ws, rfl, hw⟩ := h
    simp only [toValue, Option.map_eq_some_iff] at hj
    obtain ⟨js, hjs, rfl⟩ := hj
    simp only [PlainTexts] at hp
    simp only [PlainVal]
    induction ws generalizing js with
    | nil =>
      simp [toValues] at hjs
      subst hjs
      simp [PlainVals]
    | cons w ws ih =>
      simp only [PlainTextsAll] at hp
      cases h1 : toValue ofInt showNum w with
      | none => simp [toValues, h1] at hjs
      | some a =>
        cases h2 : toValues ofInt showNum ws with
        | none => simp [toValues, h1, h2] at hjs
        | some as =>
          simp [toValues, h1, h2] at hjs
          subst hjs
          simp only [PlainVals]
          exact ⟨plain_toValue t hk (hw w (by simp)) hp.1 h1, ih (fun x hx => hw x (by simp [hx])) hp.2 as h2⟩
  | .tuple ts, v, hk, h, hp, j, hj => by
    simp only [HasTy] at h
    simp only [Kept] at hk
    obtain ⟨ws, rfl, hw⟩ := h
    simp only [toValue, Option.map_eq_some_iff] at hj
    obtain ⟨js, hjs, rfl⟩ := hj
    simp only [PlainTexts] at hp
    simp only [PlainVal]
    exact plain_toValues ts hk hw hp hjs
  | .map k t, v, hk, h, hp, j, hj => by
    simp only [HasTy] at h
    simp only [Kept] at hk
    obtain ⟨es, rfl, hw, hn⟩ := h
    simp only [toValue, Option.map_eq_some_iff] at hj
    obtain ⟨js, hjs, rfl⟩ := hj
    simp only [PlainTexts] at hp
    simp only [PlainVal]
    induction es generalizing js with
    | nil =>
      simp [toEntries] at hjs
      subst hjs
      simp [PlainFields]
    | cons e es ih =>
      obtain ⟨a, b⟩ := e
      simp only [PlainTextsMap] at hp
      simp only [List.map_cons, List.nodup_cons] at hn
      cases h0 : keyText showNum a with
      | none => simp [toEntries, h0] at hjs
      | some s =>
        cases h1 : toValue ofInt showNum b with
        | none => simp [toEntries, h0, h1] at hjs
        | some c =>
          cases h2 : toEntries ofInt showNum es with
          | none => simp [toEntries, h0, h1, h2] at hjs
          | some cs =>
            simp [toEntries, h0, h1, h2] at hjs
            subst hjs
            simp only [PlainFields]
            exact ⟨plain_key k hk.1 (hw (a, b) (by simp)).1 hp.1 h0,
              plain_toValue t hk.2 (hw (a, b) (by simp)).2 hp.2.1 h1,
              ih hp.2.2 (fun x hx => hw x (by simp [hx])) hn.2 cs h2⟩
  | .struct fs, v, hk, h, hp, j, hj => by
    simp only [HasTy] at h
    simp only [Kept] at hk
    obtain ⟨ws, rfl, hw⟩ := h
    simp only [toValue, Option.map_eq_some_iff] at hj
    obtain ⟨js, hjs, rfl⟩ := hj
    simp only [PlainTexts] at hp
    simp only [PlainVal]
    exact plain_toFields fs hk hw hp hjs
  | .enum vs, v, hk, h, hp, j, hj => by
    simp only [HasTy] at h
    simp only [Kept] at hk
    exact plain_variant vs hk h hp hj
theorem plain_key {ok : ν → Prop} :
    ∀ (k : STy) {w : SVal ν}, Textual k → HasTy k w → PlainTexts ok w → ∀ {s}, keyText showNum w = some s → PlainString s
  | .str, w, _, h, hp, s, hs => by
    simp only [HasTy] at h
    obtain ⟨b, rfl⟩ := h
    simp only [keyText, Option.some.injEq] at hs
    subst hs
    simpa only [PlainTexts] using hp
  | .char, w, _, h, hp, s, hs => by
    simp only [HasTy] at h
    obtain ⟨b, rfl⟩ := h
    simp only [keyText, Option.some.injEq] at hs
    subst hs
    simpa only [PlainTexts] using hp
  | .newtype t, w, hk, h, hp, s, hs => by
    simp only [HasTy] at h
    simp only [Textual] at hk
    obtain ⟨b, rfl, hb⟩ := h
    simp only [keyText] at hs
    simp only [PlainTexts] at hp
    exact plain_key t hk hb hp hs
  | .enum vs, w, hk, h, hp, s, hs => by
    simp only [HasTy] at h
    simp only [Textual] at hk
    obtain ⟨n, rfl, _⟩ := fromEnum_units hk h
    simp only [keyText, Option.some.injEq] at hs
    subst hs
    simpa only [PlainTexts] using hp
  | .bool, _, ht, _, _, _, _ => by simp [Textual] at ht
  | .int _ _, _, ht, _, _, _, _ => by simp [Textual] at ht
  | .f64, _, ht, _, _, _, _ => by simp [Textual] at ht
  | .unit, _, ht, _, _, _, _ => by simp [Textual] at ht
  | .opt _, _, ht, _, _, _, _ => by simp [Textual] at ht
  | .seq _, _, ht, _, _, _, _ => by simp [Textual] at ht
  | .tuple _, _, ht, _, _, _, _ => by simp [Textual] at ht
  | .map _ _, _, ht, _, _, _, _ => by simp [Textual] at ht
  | .struct _, _, ht, _, _, _, _ => by simp [Textual] at ht
theorem plain_toValues {ok : ν → Prop}  :
    ∀ (ts : List STy) {ws : List (SVal ν)}, KeptAll ts → HasTys ts ws → PlainTextsAll ok ws →
      ∀ {js}, toValues ofInt showNum ws = some js → PlainVals ok js
  | [], ws, _, h, _, js, hj => by
    simp only [HasTys] at h
    subst h
    simp [toValues] at hj
    subst hj
    simp [PlainVals]
  | t :: ts, ws, hk, h, hp, js, hj => by
    simp only [HasTys] at h
    simp only [KeptAll] at hk
    obtain ⟨w, ws, rfl, hw, hws⟩ := h
    simp only [PlainTextsAll] at hp
    cases h1 : toValue ofInt showNum w with
    | none => simp [toValues, h1] at hj
    | some a =>
      cases h2 : toValues ofInt showNum ws with
      | none => simp [toValues, h1, h2] at hj
      | some as =>
        simp [toValues, h1, h2] at hj
        subst hj
        simp only [PlainVals]
        exact ⟨plain_toValue t hk.1 hw hp.1 h1, plain_toValues ts hk.2 hws hp.2 h2⟩
theorem plain_toFields {ok : ν → Prop}  :
    ∀ (fs : List (Str × STy)) {ws : List (Str × SVal ν)}, KeptFields fs → HasFields fs ws → PlainTextsFields ok ws →
      ∀ {js}, toFields ofInt showNum ws = some js → PlainFields ok js
  | [], ws, _, h, _, js, hj => by
    simp only [HasFields] at h
    subst h
    simp [toFields] at hj
    subst hj
    simp [PlainFields]
  | (k, t) :: ts, ws, hk, h, hp, js, hj => by
    simp only [HasFields] at h
    simp only [KeptFields] at hk
    obtain ⟨w, ws, rfl, hw, hws⟩ := h
    simp only [PlainTextsFields] at hp
    cases h1 : toValue ofInt showNum w with
    | none => simp [toFields, h1] at hj
    | some a =>
      cases h2 : toFields ofInt showNum ws with
      | none => simp [toFields, h1, h2] at hj
      | some as =>
        simp [toFields, h1, h2] at hj
        subst hj
        simp only [PlainFields]
        exact ⟨hp.1, plain_toValue t hk.1 hw hp.2.1 h1, plain_toFields ts hk.2 hws hp.2.2 h2⟩
theorem plain_variant {ok : ν → Prop}  :
    ∀ (vs : List (Str × SVar)) {v : SVal ν}, KeptVars vs → HasVariant vs v → PlainTexts ok v →
      ∀ {j}, toValue ofInt showNum v = some j → PlainVal ok j
  | [], _, _, h, _, _, _ => by simp [HasVariant] at h
  | (n, k) :: vs, v, hk, h, hp, j, hj => by
    simp only [HasVariant] at h
    simp only [KeptVars] at hk
    rcases h with h | h
    · exact plain_kind k hk.1 h hp hj
    · exact plain_variant vs hk.2 h hp hj
theorem plain_kind {ok : ν → Prop}  :
    ∀ (k : SVar) {n : Str} {v : SVal ν}, KeptVar k → HasKind n k v → PlainTexts ok v →
      ∀ {j}, toValue ofInt showNum v = some j → PlainVal ok j
  | .unit, n, v, _, h, hp, j, hj => by
    simp only [HasKind] at h
    subst h
    simp only [toValue, Option.some.injEq] at hj
    subst hj
    simpa only [PlainTexts, PlainVal] using hp
  | .newtype t, n, v, hk, h, hp, j, hj => by
    simp only [HasKind] at h
    simp only [KeptVar] at hk
    obtain ⟨w, rfl, hw⟩ := h
    simp only [toValue, Option.map_eq_some_iff] at hj
    obtain ⟨a, ha, rfl⟩ := hj
    simp only [PlainTexts] at hp
    simp only [PlainVal, PlainFields]
    exact ⟨hp.1, plain_toValue t hk hw hp.2 ha, trivial⟩
  | .tuple ts, n, v, hk, h, hp, j, hj => by
    simp only [HasKind] at h
    simp only [KeptVar] at hk
    obtain ⟨w, rfl, hw⟩ := h
    simp only [toValue, Option.map_eq_some_iff] at hj
    obtain ⟨a, ha, rfl⟩ := hj
    simp only [PlainTexts] at hp
    simp only [PlainVal, PlainFields]
    exact ⟨hp.1, plain_toValues ts hk hw hp.2 ha, trivial⟩
  | .struct _, _, _, hk, _, _, _, _ => by simp [KeptVar] at hk
end

end Oaks.Serde
