import Verif.Base.Str

/-! Facts about UTF-8 encoding used for byte-level scanners. -/

namespace Oaks

theorem encode_ascii {c : Char} (h : c.toNat ≤ 127) :
    String.utf8EncodeChar c = [UInt8.ofNat c.toNat] := by
  unfold String.utf8EncodeChar
  have h' : c.val.toNat ≤ 127 := h
  simp only [h', if_true]
  rfl

theorem encode_high {c : Char} (h : 128 ≤ c.toNat) :
    ∀ b ∈ String.utf8EncodeChar c, 128 ≤ b.toNat := by
  intro b hb
  unfold String.utf8EncodeChar at hb
  have h' : ¬ c.val.toNat ≤ 127 := by
    have : c.val.toNat = c.toNat := rfl
    omega
  simp only [h', if_false] at hb
  have key : ∀ x, 128 ≤ x → x < 256 → 128 ≤ (UInt8.ofNat x).toNat := by
    intro x h1 h2
    simp [UInt8.toNat_ofNat']; omega
  split at hb
  · simp only [List.mem_cons, List.not_mem_nil, or_false] at hb
    rcases hb with rfl | rfl
    · exact key _ (by omega) (by omega)
    · exact key _ (by omega) (by omega)
  · split at hb
    · simp only [List.mem_cons, List.not_mem_nil, or_false] at hb
      rcases hb with rfl | rfl | rfl
      · exact key _ (by omega) (by omega)
      · exact key _ (by omega) (by omega)
      · exact key _ (by omega) (by omega)
    · simp only [List.mem_cons, List.not_mem_nil, or_false] at hb
      rcases hb with rfl | rfl | rfl | rfl
      · exact key _ (by omega) (by omega)
      · exact key _ (by omega) (by omega)
      · exact key _ (by omega) (by omega)
      · exact key _ (by omega) (by omega)

theorem utf8Size_ascii {c : Char} (h : c.toNat ≤ 127) : c.utf8Size = 1 := by
  have := congrArg List.length (encode_ascii h)
  simpa using this

theorem encode_ne_nil (c : Char) : String.utf8EncodeChar c ≠ [] := by
  intro h
  have := congrArg List.length h
  have := utf8Size_pos c
  simp at *

/-- A byte predicate that holds of ASCII bytes only, scanned over the bytes of a text, stops where
the corresponding character predicate stops. -/
theorem takeWhile_bytes_ascii (p : UInt8 → Bool) (hp : ∀ b, p b = true → b.toNat < 128) (s : Str) :
    ((bytes s).takeWhile p).length =
      blen (s.takeWhile (fun c => decide (c.toNat < 128) && p (UInt8.ofNat c.toNat))) := by
  induction s with
  | nil => rfl
  | cons c s ih =>
    by_cases hc : c.toNat < 128
    · rw [bytes_cons, encode_ascii (by omega)]
      by_cases hpc : p (UInt8.ofNat c.toNat) = true
      · rw [List.takeWhile_cons_of_pos (by simp [hc, hpc])]
        simp [List.takeWhile_cons_of_pos hpc, ih, utf8Size_ascii (show c.toNat ≤ 127 by omega),
          Nat.add_comm]
      · rw [List.takeWhile_cons_of_neg (by simp [hc, hpc])]
        simp [List.takeWhile_cons_of_neg hpc]
    · rw [List.takeWhile_cons_of_neg (by simp [hc])]
      have hne := encode_ne_nil c
      have hh := encode_high (c := c) (by omega)
      rw [bytes_cons]
      cases he : String.utf8EncodeChar c with
      | nil => exact absurd he hne
      | cons b bs =>
        have hb : ¬ p b = true := by
          intro hpb
          have := hp b hpb
          have := hh b (by rw [he]; simp)
          omega
        simp [List.takeWhile_cons_of_neg hb]

/-- A byte predicate that holds of every non-ASCII byte stops only at ASCII characters. -/
theorem takeWhile_bytes_until (p : UInt8 → Bool) (hp : ∀ b, 128 ≤ b.toNat → p b = true) (s : Str) :
    ((bytes s).takeWhile p).length =
      blen (s.takeWhile (fun c => !decide (c.toNat < 128) || p (UInt8.ofNat c.toNat))) := by
  induction s with
  | nil => rfl
  | cons c s ih =>
    by_cases hc : c.toNat < 128
    · rw [bytes_cons, encode_ascii (by omega)]
      by_cases hpc : p (UInt8.ofNat c.toNat) = true
      · rw [List.takeWhile_cons_of_pos (by simp [hpc])]
        simp [List.takeWhile_cons_of_pos hpc, ih, utf8Size_ascii (show c.toNat ≤ 127 by omega),
          Nat.add_comm]
      · rw [List.takeWhile_cons_of_neg (by simp [hc, hpc])]
        simp [List.takeWhile_cons_of_neg hpc]
    · rw [List.takeWhile_cons_of_pos (by simp [hc])]
      have hh := encode_high (c := c) (by omega)
      rw [bytes_cons]
      have : ∀ (xs ys : List UInt8), (∀ x ∈ xs, p x = true) →
          (xs ++ ys).takeWhile p = xs ++ ys.takeWhile p := by
        intro xs ys h
        induction xs with
        | nil => rfl
        | cons x xs ihx =>
          rw [List.cons_append, List.takeWhile_cons_of_pos (h x (by simp))]
          simp [ihx (fun y hy => h y (by simp [hy]))]
      rw [this _ _ (fun x hx => hp x (hh x hx))]
      simp [ih]

end Oaks
