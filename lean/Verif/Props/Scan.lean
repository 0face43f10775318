import Verif.Proofs.Simd
import Verif.Spec.Scan

/-! # C01: vectorised scanners agree with a plain scan -/

namespace Oaks.Props
open Oaks.Simd Oaks.Spec

/-- `find_byte` returns the index of the first occurrence of the needle. -/
theorem C01_find_byte_some (text : List UInt8) (needle : UInt8) (i : Nat) :
    findByte text needle = some i ↔ IsFirst (fun b => b = needle) text i := by
  simp only [findByte, findLoop_eq _ _ (fun _ => rfl), List.drop_zero]
  simp only [Nat.zero_add, Option.map_id', findIdx?_isFirst, beq_iff_eq]

/-- `find_byte` returns `None` exactly when the needle does not occur. -/
theorem C01_find_byte_none (text : List UInt8) (needle : UInt8) :
    findByte text needle = none ↔ needle ∉ text := by
  simp only [findByte, findLoop_eq _ _ (fun _ => rfl), List.drop_zero]
  simp only [Nat.zero_add, Option.map_id', List.findIdx?_eq_none_iff]
  constructor
  · intro h hm; simpa using h _ hm
  · intro h x hx; simp; rintro rfl; exact h hx

/-- `find_first_of_4` returns the index of the first occurrence of any of the four bytes. -/
theorem C01_find_first_of_4_some (text : List UInt8) (a b c d : UInt8) (i : Nat) :
    findFirstOf4 text a b c d = some i ↔
      IsFirst (fun x => x = a ∨ x = b ∨ x = c ∨ x = d) text i := by
  simp only [findFirstOf4, findLoop_eq _ _ (fun _ => rfl), List.drop_zero]
  simp only [Nat.zero_add, Option.map_id', findIdx?_isFirst, Bool.or_eq_true, beq_iff_eq, or_assoc]

/-- `find_first_of_4` returns `None` exactly when none of the four bytes occurs. -/
theorem C01_find_first_of_4_none (text : List UInt8) (a b c d : UInt8) :
    findFirstOf4 text a b c d = none ↔ ∀ x ∈ text, x ≠ a ∧ x ≠ b ∧ x ≠ c ∧ x ≠ d := by
  simp only [findFirstOf4, findLoop_eq _ _ (fun _ => rfl), List.drop_zero]
  simp [Nat.zero_add, Option.map_id', List.findIdx?_eq_none_iff, and_assoc]

/-- `skip_byte` stops at the first different byte. -/
theorem C01_skip_byte (text : List UInt8) (byte : UInt8) :
    IsFirstOrEnd (fun b => b ≠ byte) text (skipByte text byte) := by
  simp only [skipByte, skipLoop_eq (fun b => b == byte) (fun b => b != byte)
    (by intro b; simp [bne]) text 0 (Nat.zero_le _), List.drop_zero, Nat.zero_add]
  exact firstOrEnd_congr (by intro b; simp) (takeWhile_isFirstOrEnd _ _)

/-- `skip_two_bytes` stops at the first byte different from both. -/
theorem C01_skip_two_bytes (text : List UInt8) (b1 b2 : UInt8) :
    IsFirstOrEnd (fun b => b ≠ b1 ∧ b ≠ b2) text (skipTwoBytes text b1 b2) := by
  simp only [skipTwoBytes, skipLoop_eq (fun b => (b == b1) || (b == b2))
    (fun b => b != b1 && b != b2)
    (by intro b; simp [bne]) text 0 (Nat.zero_le _), List.drop_zero, Nat.zero_add]
  exact firstOrEnd_congr (by intro b; simp) (takeWhile_isFirstOrEnd _ _)

/-- `skip_ascii_whitespace` stops at the first byte that is not space, tab, LF or CR. -/
theorem C01_skip_ascii_whitespace (text : List UInt8) :
    IsFirstOrEnd (fun b => b.toNat ∉ [' '.toNat, '\t'.toNat, '\n'.toNat, '\r'.toNat]) text
      (skipAsciiWhitespace text) := by
  simp only [skipAsciiWhitespace, skipLoop_eq
    (fun b => (b == 0x20) || (b == 0x09) || (b == 0x0A) || (b == 0x0D))
    (fun b => b != 0x20 && b != 0x09 && b != 0x0A && b != 0x0D)
    (by intro b; simp [bne]) text 0 (Nat.zero_le _), List.drop_zero, Nat.zero_add]
  refine firstOrEnd_congr (by
    intro b
    simp [← UInt8.toNat_inj, and_assoc]) (takeWhile_isFirstOrEnd _ _)

/-- `skip_ascii_digits` stops at the first byte outside `'0'..='9'`. -/
theorem C01_skip_ascii_digits (text : List UInt8) :
    IsFirstOrEnd (fun b => ¬ ('0'.toNat ≤ b.toNat ∧ b.toNat ≤ '9'.toNat)) text
      (skipAsciiDigits text) := by
  simp only [skipAsciiDigits, skipLoop_eq (fun b => decide (0x30 ≤ b) && decide (b ≤ 0x39))
    (fun b => !isAsciiDigit b) (by intro b; simp [isAsciiDigit]) text 0 (Nat.zero_le _),
    List.drop_zero, Nat.zero_add]
  refine firstOrEnd_congr (by
    intro b
    simp [UInt8.le_iff_toNat_le]) (takeWhile_isFirstOrEnd _ _)

/-- `skip_ascii_ident_continue` stops at the first byte that is not an ASCII letter, digit or
underscore. -/
theorem C01_skip_ascii_ident_continue (text : List UInt8) :
    IsFirstOrEnd
      (fun b => ¬ (('a'.toNat ≤ b.toNat ∧ b.toNat ≤ 'z'.toNat) ∨
        ('A'.toNat ≤ b.toNat ∧ b.toNat ≤ 'Z'.toNat) ∨
        ('0'.toNat ≤ b.toNat ∧ b.toNat ≤ '9'.toNat) ∨ b.toNat = '_'.toNat)) text
      (skipAsciiIdentContinue text) := by
  unfold skipAsciiIdentContinue
  rw [skipLoop_eq _ _ (by intro b; simp [isAsciiAlnum, isAsciiDigit, bne]) text 0 (Nat.zero_le _)]
  simp only [List.drop_zero, Nat.zero_add]
  refine firstOrEnd_congr (by
    intro b
    simp [UInt8.le_iff_toNat_le, ← UInt8.toNat_inj, and_assoc]) (takeWhile_isFirstOrEnd _ _)

/-- `skip_ascii_hexdigits` stops at the first byte that is not an ASCII hexadecimal digit. -/
theorem C01_skip_ascii_hexdigits (text : List UInt8) :
    IsFirstOrEnd
      (fun b => ¬ (('0'.toNat ≤ b.toNat ∧ b.toNat ≤ '9'.toNat) ∨
        ('a'.toNat ≤ b.toNat ∧ b.toNat ≤ 'f'.toNat) ∨
        ('A'.toNat ≤ b.toNat ∧ b.toNat ≤ 'F'.toNat))) text
      (skipAsciiHexdigits text) := by
  unfold skipAsciiHexdigits
  rw [skipLoop_eq _ _ (by intro b; simp [isAsciiHex, isAsciiDigit]) text 0 (Nat.zero_le _)]
  simp only [List.drop_zero, Nat.zero_add]
  refine firstOrEnd_congr (by
    intro b
    simp [UInt8.le_iff_toNat_le, and_assoc]) (takeWhile_isFirstOrEnd _ _)

/-- `skip_until` stops at the first occurrence of the target, or at the end. -/
theorem C01_skip_until (text : List UInt8) (target : UInt8) :
    IsFirstOrEnd (fun b => b = target) text (skipUntil text target) := by
  simp only [skipUntil, untilLoop_eq _ _ (fun _ => rfl) text 0 (Nat.zero_le _),
    List.drop_zero, Nat.zero_add]
  exact firstOrEnd_congr (by intro b; simp) (takeWhile_isFirstOrEnd _ _)

/-- Non-vacuity: a hit beyond the first 32-byte lane block, in the scalar tail. -/
example : skipByte (List.replicate 33 7 ++ [1, 7]) 7 = 33 :=
  IsFirstOrEnd.unique (C01_skip_byte _ _) (by unfold IsFirstOrEnd; decide)
example : findByte (List.replicate 40 7 ++ [1, 7]) 1 = some 40 :=
  (C01_find_byte_some _ _ _).mpr (by unfold IsFirst; decide)

end Oaks.Props
