import Verif.Proofs.LexCodeCheck
import Verif.Proofs.Lexer

/-! Sets as bits; the sorts of characters. -/
namespace Oaks.Lc
open Spec

theorem tb_minus (a b i : Nat) : (minus a b).testBit i = (a.testBit i && !b.testBit i) := by
  unfold minus
  rw [Nat.testBit_xor, Nat.testBit_and]
  cases a.testBit i <;> cases b.testBit i <;> rfl

theorem tb_span (a n i : Nat) : (span a n).testBit i = decide (a ≤ i ∧ i < a + n) := by
  unfold span
  rw [Nat.testBit_shiftLeft, Nat.testBit_two_pow_sub_one, ← Bool.decide_and, decide_eq_decide]
  omega

theorem tb_top (i : Nat) : top.testBit i = decide (i < 153) := Nat.testBit_two_pow_sub_one 153 i

theorem tb_pow (n i : Nat) : (2 ^ n).testBit i = decide (n = i) := Nat.testBit_two_pow

theorem tb_one (i : Nat) : Nat.testBit 1 i = decide (0 = i) := tb_pow 0 i

theorem tb_low (a b i : Nat) : (lowRange a b).testBit i = decide (a + 1 ≤ i ∧ i ≤ b + 1 ∧ i ≤ 128) := by
  unfold lowRange
  rw [tb_span, decide_eq_decide]
  omega

theorem size_cases (c : Char) :
    (c.toNat < 128 ∧ c.utf8Size = 1) ∨ (0x80 ≤ c.toNat ∧ c.toNat ≤ 0x7ff ∧ c.utf8Size = 2) ∨
    (0x800 ≤ c.toNat ∧ c.toNat ≤ 0xffff ∧ c.utf8Size = 3) ∨ (0x10000 ≤ c.toNat ∧ c.toNat ≤ 0x10ffff ∧ c.utf8Size = 4) := by
  have hmax : c.toNat ≤ 0x10ffff := by
    have := c.valid
    simp only [UInt32.isValidChar, Nat.isValidChar] at this
    show c.val.toNat ≤ _
    omega
  have hv : c.val.toNat = c.toNat := rfl
  unfold Char.utf8Size
  simp only [UInt32.le_iff_toNat_le, hv]
  by_cases h1 : c.toNat ≤ 127
  · left; refine ⟨by omega, ?_⟩; simp [h1]
  · by_cases h2 : c.toNat ≤ 2047
    · right; left; refine ⟨by omega, by omega, ?_⟩; simp [h1, h2]
    · by_cases h3 : c.toNat ≤ 65535
      · right; right; left; refine ⟨by omega, by omega, ?_⟩; simp [h1, h2, h3]
      · right; right; right; refine ⟨by omega, by omega, ?_⟩; simp [h1, h2, h3]

variable {u : Uni}

theorem atom_ascii {c : Char} (h : c.toNat < 128) : atom u (some c) = c.toNat + 1 := by simp [atom, h]

theorem atom_wide {c : Char} (h : 128 ≤ c.toNat) :
    ∃ w k, w < 3 ∧ k < 8 ∧ c.utf8Size = w + 2 ∧ atom u (some c) = 129 + 8 * w + k ∧
      k.testBit 0 = u.alpha c ∧ k.testBit 1 = u.num c ∧ k.testBit 2 = u.white c := by
  have hn : ¬ c.toNat < 128 := by omega
  refine ⟨c.utf8Size - 2, cond (u.alpha c) 1 0 + cond (u.num c) 2 0 + cond (u.white c) 4 0, ?_, ?_, ?_, ?_, ?_⟩
  · rcases size_cases c with h | h | h | h <;> omega
  · cases u.alpha c <;> cases u.num c <;> cases u.white c <;> decide
  · rcases size_cases c with h | h | h | h <;> omega
  · simp [atom, hn]
  · cases u.alpha c <;> cases u.num c <;> cases u.white c <;> decide

theorem atom_lt (o : Option Char) : atom u o < 153 := by
  cases o with
  | none => simp [atom]
  | some c =>
    by_cases h : c.toNat < 128
    · rw [atom_ascii h]; omega
    · obtain ⟨w, k, h1, h2, _, h3, _⟩ := atom_wide (u := u) (c := c) (by omega)
      omega

theorem atom_zero {o : Option Char} : atom u o = 0 ↔ o = none := by
  cases o with
  | none => simp [atom]
  | some c =>
    by_cases h : c.toNat < 128
    · rw [atom_ascii h]; simp
    · obtain ⟨w, k, h1, h2, _, h3, _⟩ := atom_wide (u := u) (c := c) (by omega)
      simp [h3]

theorem top_atom (o : Option Char) : top.testBit (atom u o) = true := by rw [tb_top]; simpa using atom_lt o

theorem class_low {p : Nat} (hp : p = 0xaa ∨ p = 0xcc ∨ p = 0xf0 ∨ p = 0xff) {i : Nat} (hi : i < 129) : (classed p).testBit i = false := by
  unfold classed
  simp only [Nat.testBit_or, Nat.testBit_shiftLeft]
  have a1 : ¬ 129 ≤ i := by omega
  have a2 : ¬ 137 ≤ i := by omega
  have a3 : ¬ 145 ≤ i := by omega
  simp [a1, a2, a3]

theorem class_wide : ∀ w < 3, ∀ k < 8,
    (classed 0xaa).testBit (129 + 8 * w + k) = k.testBit 0 ∧ (classed 0xcc).testBit (129 + 8 * w + k) = k.testBit 1 ∧
    (classed 0xf0).testBit (129 + 8 * w + k) = k.testBit 2 ∧ (classed 0xff).testBit (129 + 8 * w + k) = true := by
  decide

theorem wide_wide {w k : Nat} (hw : w < 3) (hk : k < 8) (v : Nat) (hv : 2 ≤ v) :
    (wide v).testBit (129 + 8 * w + k) = decide (v = w + 2) := by
  unfold wide
  rw [tb_span, decide_eq_decide]
  omega

theorem wide_low {i : Nat} (hi : i < 129) (v : Nat) : (wide v).testBit i = false := by
  unfold wide
  rw [tb_span, decide_eq_false_iff_not]
  omega

theorem between_iff {a b n : Nat} : between a b n = true ↔ a ≤ n ∧ n ≤ b := by simp [between, Nat.ble_eq]

theorem chars_some (c : Char) : chars.testBit (atom u (some c)) = true := by
  unfold chars
  rw [tb_span, decide_eq_true_eq]
  have h1 := atom_lt (u := u) (some c)
  have h2 : atom u (some c) ≠ 0 := fun h => by simpa using atom_zero.mp h
  omega

theorem sorts_sound (x : CSet) (c : Char) :
    (x.has u c = true → x.up.testBit (atom u (some c)) = true) ∧ (x.lo.testBit (atom u (some c)) = true → x.has u c = true) := by
  induction x with
  | or x y hx hy =>
    simp only [CSet.has, CSet.up, CSet.lo, Nat.testBit_or, Bool.or_eq_true]
    exact ⟨Or.imp hx.1 hy.1, Or.imp hx.2 hy.2⟩
  | and x y hx hy =>
    simp only [CSet.has, CSet.up, CSet.lo, Nat.testBit_and, Bool.and_eq_true]
    exact ⟨And.imp hx.1 hy.1, And.imp hx.2 hy.2⟩
  | not x hx =>
    simp only [CSet.has, CSet.up, CSet.lo, tb_minus, chars_some, Bool.true_and, Bool.not_eq_true']
    constructor
    · intro h
      cases h1 : x.lo.testBit (atom u (some c)) with
      | false => rfl
      | true => rw [hx.2 h1] at h; cases h
    · intro h
      cases h1 : x.has u c with
      | false => rfl
      | true => rw [hx.1 h1] at h; cases h
  | rg a b =>
    simp only [CSet.has, CSet.up, CSet.lo, Nat.testBit_or, Bool.or_eq_true, between_iff, upWide, loWide]
    by_cases h : c.toNat < 128
    · have hi : c.toNat + 1 < 129 := by omega
      rw [atom_ascii h, tb_low, decide_eq_true_eq]
      constructor
      · intro ⟨h1, h2⟩; left; omega
      · rintro (h1 | h1 | h1 | h1)
        · omega
        all_goals
          split at h1
          · rw [wide_low hi] at h1; cases h1
          · simp at h1
    · obtain ⟨w, k, h1, h2, h3, h4, _⟩ := atom_wide (u := u) (c := c) (by omega)
      rw [h4, tb_low, decide_eq_true_eq]
      have hz : ¬ (a + 1 ≤ 129 + 8 * w + k ∧ 129 + 8 * w + k ≤ b + 1 ∧ 129 + 8 * w + k ≤ 128) := by omega
      simp only [hz, false_or, Bool.and_eq_true, Nat.ble_eq]
      have hb : ∀ v, 2 ≤ v → ∀ P : Prop, [Decidable P] → (((if P then wide v else 0).testBit (129 + 8 * w + k)) = true ↔ (P ∧ v = w + 2)) := by
        intro v hv P _
        by_cases hP : P
        · rw [if_pos hP, wide_wide h1 h2 v hv]; simp [hP]
        · rw [if_neg hP]; simp [hP]
      rw [hb 2 (by omega), hb 3 (by omega), hb 4 (by omega), hb 2 (by omega), hb 3 (by omega), hb 4 (by omega)]
      rcases size_cases c with h | h | h | h <;> constructor <;> intro h5 <;> omega
  | alpha =>
    simp only [CSet.has, isAlpha, CSet.up, CSet.lo, letters]
    by_cases h : c.toNat < 128
    · rw [if_pos h, atom_ascii h]
      simp only [Nat.testBit_or, tb_low, class_low (p := 0xaa) (by simp) (show c.toNat + 1 < 129 by omega), Bool.or_eq_true, between_iff, decide_eq_true_eq]
      constructor <;> intro h1 <;> (try simp) <;> (try simp at h1) <;> omega
    · obtain ⟨w, k, h1, h2, h3, h4, h5, h6, h7⟩ := atom_wide (u := u) (c := c) (by omega)
      rw [if_neg h, h4]
      simp only [Nat.testBit_or, tb_low, (class_wide w h1 k h2).1, h5]
      have : ∀ a b, decide (a + 1 ≤ 129 + 8 * w + k ∧ 129 + 8 * w + k ≤ b + 1 ∧ 129 + 8 * w + k ≤ 128) = false := by intro a b; simp; omega
      simp [this]
  | num =>
    simp only [CSet.has, isNum, CSet.up, CSet.lo, digits]
    by_cases h : c.toNat < 128
    · rw [if_pos h, atom_ascii h]
      simp only [Nat.testBit_or, tb_low, class_low (p := 0xcc) (by simp) (show c.toNat + 1 < 129 by omega), Bool.or_eq_true, between_iff, decide_eq_true_eq]
      constructor <;> intro h1 <;> (try simp) <;> (try simp at h1) <;> omega
    · obtain ⟨w, k, h1, h2, h3, h4, h5, h6, h7⟩ := atom_wide (u := u) (c := c) (by omega)
      rw [if_neg h, h4]
      simp only [Nat.testBit_or, tb_low, (class_wide w h1 k h2).2.1, h6]
      have : ∀ a b, decide (a + 1 ≤ 129 + 8 * w + k ∧ 129 + 8 * w + k ≤ b + 1 ∧ 129 + 8 * w + k ≤ 128) = false := by intro a b; simp; omega
      simp [this]
  | alnum =>
    simp only [CSet.has, isAlpha, isNum, CSet.up, CSet.lo, letters, digits]
    by_cases h : c.toNat < 128
    · rw [if_pos h, if_pos h, atom_ascii h]
      simp only [Nat.testBit_or, tb_low, class_low (p := 0xcc) (by simp) (show c.toNat + 1 < 129 by omega),
        class_low (p := 0xaa) (by simp) (show c.toNat + 1 < 129 by omega), Bool.or_eq_true, between_iff, decide_eq_true_eq]
      constructor <;> intro h1 <;> (try simp) <;> (try simp at h1) <;> omega
    · obtain ⟨w, k, h1, h2, h3, h4, h5, h6, h7⟩ := atom_wide (u := u) (c := c) (by omega)
      rw [if_neg h, if_neg h, h4]
      simp only [Nat.testBit_or, tb_low, (class_wide w h1 k h2).2.1, (class_wide w h1 k h2).1, h5, h6]
      have : ∀ a b, decide (a + 1 ≤ 129 + 8 * w + k ∧ 129 + 8 * w + k ≤ b + 1 ∧ 129 + 8 * w + k ≤ 128) = false := by intro a b; simp; omega
      simp [this]
  | white =>
    simp only [CSet.has, isWhite, CSet.up, CSet.lo, whites]
    by_cases h : c.toNat < 128
    · rw [if_pos h, atom_ascii h]
      simp only [Nat.testBit_or, tb_low, class_low (p := 0xf0) (by simp) (show c.toNat + 1 < 129 by omega), Bool.or_eq_true, between_iff, decide_eq_true_eq]
      constructor <;> intro h1 <;> (try simp) <;> (try simp at h1) <;> omega
    · obtain ⟨w, k, h1, h2, h3, h4, h5, h6, h7⟩ := atom_wide (u := u) (c := c) (by omega)
      rw [if_neg h, h4]
      simp only [Nat.testBit_or, tb_low, (class_wide w h1 k h2).2.2.1, h7]
      have : ∀ a b, decide (a + 1 ≤ 129 + 8 * w + k ∧ 129 + 8 * w + k ≤ b + 1 ∧ 129 + 8 * w + k ≤ 128) = false := by intro a b; simp; omega
      simp [this]
  | upper =>
    simp only [CSet.has, CSet.up, CSet.lo]
    by_cases h : c.toNat < 128
    · rw [if_pos h, atom_ascii h]
      simp only [Nat.testBit_or, tb_low, Bool.or_eq_true, between_iff, decide_eq_true_eq]
      constructor <;> intro h1
      · left; omega
      · omega
    · obtain ⟨w, k, h1, h2, h3, h4, h5, h6, h7⟩ := atom_wide (u := u) (c := c) (by omega)
      rw [if_neg h, h4]
      simp only [Nat.testBit_or, tb_low, (class_wide w h1 k h2).2.2.2]
      simp
      omega
  | lower =>
    simp only [CSet.has, CSet.up, CSet.lo]
    by_cases h : c.toNat < 128
    · rw [if_pos h, atom_ascii h]
      simp only [Nat.testBit_or, tb_low, Bool.or_eq_true, between_iff, decide_eq_true_eq]
      constructor <;> intro h1
      · left; omega
      · omega
    · obtain ⟨w, k, h1, h2, h3, h4, h5, h6, h7⟩ := atom_wide (u := u) (c := c) (by omega)
      rw [if_neg h, h4]
      simp only [Nat.testBit_or, tb_low, (class_wide w h1 k h2).2.2.2]
      simp
      omega
  | ctrl =>
    simp only [CSet.has, CSet.up, CSet.lo]
    by_cases h : c.toNat < 128
    · rw [if_pos h, atom_ascii h]
      simp only [Nat.testBit_or, tb_low, Bool.or_eq_true, between_iff, decide_eq_true_eq]
      constructor <;> intro h1
      · left; omega
      · omega
    · obtain ⟨w, k, h1, h2, h3, h4, h5, h6, h7⟩ := atom_wide (u := u) (c := c) (by omega)
      rw [if_neg h, h4]
      simp only [Nat.testBit_or, tb_low, (class_wide w h1 k h2).2.2.2]
      simp
      omega

theorem lo_none (x : CSet) : x.lo.testBit (atom u none) = false ∧ x.up.testBit (atom u none) = false := by
  have hw : ∀ v, (wide v).testBit 0 = false := fun v => wide_low (by omega) v
  have hl : ∀ a b, (lowRange a b).testBit 0 = false := by intro a b; rw [tb_low]; simp
  have hu : ∀ (P : Prop) [Decidable P] v, (if P then wide v else 0).testBit 0 = false := by
    intro P _ v; split
    · exact hw v
    · simp
  have hc : ∀ p, p = 0xaa ∨ p = 0xcc ∨ p = 0xf0 ∨ p = 0xff → (classed p).testBit 0 = false := fun p hp => class_low hp (by omega)
  show x.lo.testBit 0 = false ∧ x.up.testBit 0 = false
  induction x with
  | rg a b => simp only [CSet.lo, CSet.up, upWide, loWide, Nat.testBit_or, hl, hu, Bool.or_self, and_self]
  | or x y hx hy => simp only [CSet.lo, CSet.up, Nat.testBit_or, hx.1, hx.2, hy.1, hy.2, Bool.or_self, and_self]
  | and x y hx hy => simp only [CSet.lo, CSet.up, Nat.testBit_and, hx.1, hx.2, Bool.false_and, and_self]
  | not x hx => simp only [CSet.lo, CSet.up, tb_minus, chars, tb_span]; simp
  | alpha => simp only [CSet.lo, CSet.up, letters, Nat.testBit_or, hl, hc 0xaa (by simp), Bool.or_self, and_self]
  | num => simp only [CSet.lo, CSet.up, digits, Nat.testBit_or, hl, hc 0xcc (by simp), Bool.or_self, and_self]
  | alnum => simp only [CSet.lo, CSet.up, letters, digits, Nat.testBit_or, hl, hc 0xaa (by simp), hc 0xcc (by simp), Bool.or_self, and_self]
  | white => simp only [CSet.lo, CSet.up, whites, Nat.testBit_or, hl, hc 0xf0 (by simp), Bool.or_self, and_self]
  | upper => simp only [CSet.lo, CSet.up, Nat.testBit_or, hl, hc 0xff (by simp), Bool.or_self, and_self]
  | lower => simp only [CSet.lo, CSet.up, Nat.testBit_or, hl, hc 0xff (by simp), Bool.or_self, and_self]
  | ctrl => simp only [CSet.lo, CSet.up, Nat.testBit_or, hl, hc 0xff (by simp), Bool.or_self, and_self]

theorem minus_none {m n i : Nat} (h : minus m n = 0) (hi : m.testBit i = true) : n.testBit i = true := by
  have := tb_minus m n i
  rw [h, hi] at this
  simp at this
  exact this

theorem width_sound {m w : Nat} {o : Option Char} (h : widthOf m = some w) (hb : m.testBit (atom u o) = true) :
    ∃ c, o = some c ∧ c.utf8Size = w := by
  have key : ∀ v, 2 ≤ v → (wide v).testBit (atom u o) = true → ∃ c, o = some c ∧ c.utf8Size = v := by
    intro v hv hw
    cases o with
    | none => rw [show atom u none = 0 from rfl, wide_low (by omega)] at hw; cases hw
    | some c =>
      refine ⟨c, rfl, ?_⟩
      by_cases h : c.toNat < 128
      · rw [atom_ascii h, wide_low (by omega)] at hw; cases hw
      · obtain ⟨w, k, h1, h2, h3, h4, _⟩ := atom_wide (u := u) (c := c) (by omega)
        rw [h4, wide_wide h1 h2 v hv] at hw
        simp at hw; omega
  unfold widthOf at h
  split at h
  · rename_i hz
    have hw := minus_none hz hb
    cases h
    cases o with
    | none => rw [show atom u none = 0 from rfl] at hw; unfold ascii at hw; rw [tb_span] at hw; simp at hw
    | some c =>
      refine ⟨c, rfl, ?_⟩
      by_cases h : c.toNat < 128
      · rcases size_cases c with h | h | h | h <;> omega
      · obtain ⟨w, k, h1, h2, h3, h4, _⟩ := atom_wide (u := u) (c := c) (by omega)
        rw [h4] at hw; unfold ascii at hw; rw [tb_span] at hw; simp at hw; omega
  split at h
  · rename_i hz; cases h; exact key 2 (by omega) (minus_none hz hb)
  split at h
  · rename_i hz; cases h; exact key 3 (by omega) (minus_none hz hb)
  split at h
  · rename_i hz; cases h; exact key 4 (by omega) (minus_none hz hb)
  · cases h

theorem sortOf_sound (c : Char) : (sortOf c).testBit (atom u (some c)) = true := by
  unfold sortOf
  by_cases h : c.toNat < 128
  · rw [if_pos h, atom_ascii h, tb_pow]; simp
  · obtain ⟨w, k, h1, h2, h3, h4, _⟩ := atom_wide (u := u) (c := c) (by omega)
    rw [if_neg h, h4, wide_wide h1 h2 _ (by omega)]
    simp [h3]

theorem sortOf_exact {c d : Char} (hc : c.toNat < 128) (h : (sortOf c).testBit (atom u (some d)) = true) : d = c := by
  unfold sortOf at h
  rw [if_pos hc, tb_pow] at h
  simp at h
  by_cases hd : d.toNat < 128
  · rw [atom_ascii hd] at h
    apply Char.ext
    apply UInt32.toNat.inj
    show d.toNat = c.toNat
    omega
  · obtain ⟨w, k, h1, h2, h3, h4, _⟩ := atom_wide (u := u) (c := d) (by omega)
    omega

theorem uncode_code (o : Option Char) : uncode (code o) = o := by
  cases o with
  | none => rfl
  | some c => simp [code, uncode, Char.ofNat_toNat]

theorem code_inj {o p : Option Char} (h : code o = code p) : o = p := by rw [← uncode_code o, h, uncode_code]

end Oaks.Lc
