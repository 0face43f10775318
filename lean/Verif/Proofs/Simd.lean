import Verif.Model.Simd
import Verif.Spec.Scan

namespace Oaks.Simd

theorem drop_eq_getElem_cons' {text : List UInt8} {i : Nat} (h : i < text.length) :
    text.drop i = text[i] :: text.drop (i + 1) := List.drop_eq_getElem_cons h

theorem findTail_eq (hit : UInt8 → Bool) (text : List UInt8) (i : Nat) :
    findTail hit text i = ((text.drop i).findIdx? hit).map (i + ·) := by
  fun_induction findTail with
  | case1 i h hh => rw [drop_eq_getElem_cons' h, List.findIdx?_cons]; simp [hh]
  | case2 i h hh ih =>
    rw [ih, drop_eq_getElem_cons' h, List.findIdx?_cons]
    simp [hh, Function.comp_def, Nat.add_comm, Nat.add_left_comm]
  | case3 i h => simp [List.drop_eq_nil_of_le (Nat.le_of_not_lt h)]

theorem skipTail_eq (stop : UInt8 → Bool) (text : List UInt8) (i : Nat) (hi : i ≤ text.length) :
    skipTail stop text i = i + ((text.drop i).takeWhile (fun b => !stop b)).length := by
  fun_induction skipTail with
  | case1 i h hh => rw [drop_eq_getElem_cons' h, List.takeWhile_cons]; simp [hh]
  | case2 i h hh ih =>
    rw [ih (by omega), drop_eq_getElem_cons' h, List.takeWhile_cons]
    simp [hh]; omega
  | case3 i h => simp [List.drop_eq_nil_of_le (Nat.le_of_not_lt h)]

theorem drop_split (text : List UInt8) (i : Nat) :
    text.drop i = lanesAt text i ++ text.drop (i + LANES) := by
  have := List.take_append_drop LANES (text.drop i)
  rw [List.drop_drop] at this
  exact this.symm

theorem length_lanesAt {text : List UInt8} {i : Nat} (h : i + LANES ≤ text.length) :
    (lanesAt text i).length = LANES := by
  simp [lanesAt]; omega

theorem findLoop_eq (mask hit : UInt8 → Bool) (hm : ∀ b, mask b = hit b)
    (text : List UInt8) (i : Nat) :
    findLoop mask hit text i = ((text.drop i).findIdx? hit).map (i + ·) := by
  have hmask : mask = hit := funext hm
  subst hmask
  fun_induction findLoop with
  | case1 i h idx hs =>
    simp only [firstSet, List.findIdx?_map] at hs
    rw [drop_split, List.findIdx?_append]
    rw [show (lanesAt text i).findIdx? mask = some idx from hs]
    simp
  | case2 i h hs ih =>
    simp only [firstSet, List.findIdx?_map] at hs
    rw [ih, drop_split text i, List.findIdx?_append]
    rw [show (lanesAt text i).findIdx? mask = none from hs, length_lanesAt h]
    simp [Function.comp_def, Nat.add_comm, Nat.add_left_comm]
  | case3 i h => exact findTail_eq mask text i

theorem takeWhile_length_findIdx? (p : UInt8 → Bool) (l : List UInt8) :
    (l.takeWhile p).length = (l.findIdx? (fun b => !p b)).getD l.length := by
  induction l with
  | nil => simp
  | cons a l ih =>
    simp only [List.takeWhile_cons, List.findIdx?_cons]
    by_cases h : p a
    · simp only [h]
      simp [ih]
    · simp [h]

theorem takeWhile_append_all {p : UInt8 → Bool} {a b : List UInt8} (h : ∀ x ∈ a, p x = true) :
    (a ++ b).takeWhile p = a ++ b.takeWhile p := by
  induction a with
  | nil => rfl
  | cons x xs ih =>
    simp only [List.mem_cons, forall_eq_or_imp] at h
    simp [h.1, ih h.2]

theorem takeWhile_append_stop {p : UInt8 → Bool} {a b : List UInt8} {k : Nat}
    (h : a.findIdx? (fun x => !p x) = some k) : ((a ++ b).takeWhile p).length = k := by
  rw [takeWhile_length_findIdx?, List.findIdx?_append, h]
  rfl

theorem skipLoop_eq (mask stop : UInt8 → Bool) (hm : ∀ b, mask b = !stop b)
    (text : List UInt8) (i : Nat) (hi : i ≤ text.length) :
    skipLoop mask stop text i = i + ((text.drop i).takeWhile mask).length := by
  have hmask : mask = fun b => !stop b := funext hm
  fun_induction skipLoop with
  | case1 i h m hall idx hs =>
    simp only [firstSet, m, List.map_map, List.findIdx?_map] at hs
    rw [drop_split, takeWhile_append_stop (k := idx)]
    exact hs
  | case2 i h m hall hs ih =>
    exfalso
    simp only [firstSet, m, List.map_map, List.findIdx?_map, List.findIdx?_eq_none_iff] at hs
    simp only [m, Bool.not_eq_true'] at hall
    rw [List.all_eq_false] at hall
    obtain ⟨x, hx, hxf⟩ := hall
    simp at hx
    obtain ⟨y, hy, rfl⟩ := hx
    have := hs y hy
    simp at this hxf
    rw [this] at hxf; exact absurd hxf (by simp)
  | case3 i h m hall ih =>
    rw [ih h, drop_split text i]
    have hall' : ∀ x ∈ lanesAt text i, mask x = true := by
      simp [m] at hall
      exact hall
    rw [takeWhile_append_all hall', List.length_append, length_lanesAt h]
    omega
  | case4 i h =>
    rw [hmask]; exact skipTail_eq stop text i hi

theorem untilLoop_eq (mask stop : UInt8 → Bool) (hm : ∀ b, mask b = stop b)
    (text : List UInt8) (i : Nat) (hi : i ≤ text.length) :
    untilLoop mask stop text i = i + ((text.drop i).takeWhile (fun b => !stop b)).length := by
  have hmask : mask = stop := funext hm
  subst hmask
  fun_induction untilLoop with
  | case1 i h m hany idx hs =>
    simp only [firstSet, m, List.findIdx?_map] at hs
    rw [drop_split, takeWhile_append_stop (k := idx)]
    simpa using hs
  | case2 i h m hany hs ih =>
    exfalso
    simp only [firstSet, m, List.findIdx?_map, List.findIdx?_eq_none_iff] at hs
    simp only [m] at hany
    rw [List.any_eq_true] at hany
    obtain ⟨x, hx, hxf⟩ := hany
    simp at hx
    obtain ⟨y, hy, rfl⟩ := hx
    have := hs y hy
    simp at this hxf
    rw [this] at hxf; exact absurd hxf (by simp)
  | case3 i h m hany ih =>
    rw [ih h, drop_split text i]
    have hall' : ∀ x ∈ lanesAt text i, (!mask x) = true := by
      simp [m] at hany
      simpa using hany
    rw [takeWhile_append_all hall', List.length_append, length_lanesAt h]
    omega
  | case4 i h =>
    exact skipTail_eq mask text i hi

open Oaks.Spec

theorem takeWhile_isFirstOrEnd (p : UInt8 → Bool) (l : List UInt8) :
    IsFirstOrEnd (fun b => p b = false) l (l.takeWhile p).length := by
  induction l with
  | nil => exact ⟨by simp, by simp, by simp⟩
  | cons a l ih =>
    obtain ⟨h1, h2, h3⟩ := ih
    by_cases h : p a
    · simp only [List.takeWhile_cons, h]
      refine ⟨by simpa using h1, ?_, ?_⟩
      · intro j hj hlt
        cases j with
        | zero => simp [h]
        | succ j => simpa using h2 j (by simpa using hj) (by simpa using hlt)
      · intro hl; simpa using h3 (by simpa using hl)
    · simp only [List.takeWhile_cons, h]
      exact ⟨by simp, by simp, by simp [h]⟩

theorem findIdx?_isFirst (p : UInt8 → Bool) (l : List UInt8) (i : Nat) :
    l.findIdx? p = some i ↔ IsFirst (fun b => p b = true) l i := by
  rw [List.findIdx?_eq_some_iff_getElem]
  unfold IsFirst
  constructor
  · rintro ⟨h, hp, hn⟩
    exact ⟨⟨h, hp⟩, fun j _ hlt => hn j hlt⟩
  · rintro ⟨⟨h, hp⟩, hn⟩
    exact ⟨h, hp, fun j hlt => hn j (by omega) hlt⟩

theorem firstOrEnd_congr {p q : UInt8 → Prop} {l : List UInt8} {i : Nat}
    (h : ∀ b, p b ↔ q b) (hi : IsFirstOrEnd p l i) : IsFirstOrEnd q l i := by
  have : p = q := funext fun b => propext (h b)
  exact this ▸ hi


end Oaks.Simd
