/-
Model of `projects/oak-core/src/source/simd.rs` (`SimdScanner`).

A 32-lane vector comparison is a `List Bool` (one entry per lane), `first_set` is the index of
the first `true` lane, `all` holds iff every lane is set. Simplification: the vector type itself is
not modelled, only lane-wise comparison (this is the documented meaning of `std::simd`).
-/

namespace Oaks.Simd

/-- `const LANES: usize = 32` (simd.rs:12). -/
def LANES : Nat := 32

/-- `mask.first_set()` (standard library; simd.rs:20). -/
def firstSet (mask : List Bool) : Option Nat := mask.findIdx? id

/-- The lanes loaded at `i` (`Simd::from_slice(text.get_unchecked(i..i + LANES))`, simd.rs:17). -/
def lanesAt (text : List UInt8) (i : Nat) : List UInt8 := (text.drop i).take LANES

/-- Scalar tail of the "find" scanners (simd.rs:26-32, 239-246). -/
def findTail (hit : UInt8 → Bool) (text : List UInt8) (i : Nat) : Option Nat :=
  if h : i < text.length then
    if hit text[i] then some i else findTail hit text (i + 1)
  else none
termination_by text.length - i

/-- Block loop of the "find" scanners (simd.rs:15-23, 224-237): returns the first lane where the
mask is set, then falls through to the scalar tail. -/
def findLoop (mask hit : UInt8 → Bool) (text : List UInt8) (i : Nat) : Option Nat :=
  if _h : i + LANES ≤ text.length then
    match firstSet ((lanesAt text i).map mask) with
    | some idx => some (i + idx)
    | none => findLoop mask hit text (i + LANES)
  else findTail hit text i
termination_by text.length - i
decreasing_by simp [LANES] at *; omega

/-- Scalar tail of the "skip" scanners (simd.rs:56-62 and the like): stops at the first byte for
which `stop` holds. -/
def skipTail (stop : UInt8 → Bool) (text : List UInt8) (i : Nat) : Nat :=
  if h : i < text.length then
    if stop text[i] then i else skipTail stop text (i + 1)
  else i
termination_by text.length - i

/-- Block loop of the "skip" scanners (simd.rs:42-54 and the like):
`if !mask.all() { if let Some(idx) = (!mask).first_set() { return i + idx } } i += LANES`. -/
def skipLoop (mask stop : UInt8 → Bool) (text : List UInt8) (i : Nat) : Nat :=
  if _h : i + LANES ≤ text.length then
    let m := (lanesAt text i).map mask
    if !(m.all id) then
      match firstSet (m.map not) with
      | some idx => i + idx
      | none => skipLoop mask stop text (i + LANES)
    else skipLoop mask stop text (i + LANES)
  else skipTail stop text i
termination_by text.length - i
decreasing_by all_goals (simp [LANES] at *; omega)

/-- Block loop of `skip_until` (simd.rs:256-265): `if mask.any() { ... first_set ... }`. -/
def untilLoop (mask stop : UInt8 → Bool) (text : List UInt8) (i : Nat) : Nat :=
  if _h : i + LANES ≤ text.length then
    let m := (lanesAt text i).map mask
    if m.any id then
      match firstSet m with
      | some idx => i + idx
      | none => untilLoop mask stop text (i + LANES)
    else untilLoop mask stop text (i + LANES)
  else skipTail stop text i
termination_by text.length - i
decreasing_by all_goals (simp [LANES] at *; omega)

/-- `u8::is_ascii_digit` (standard library; simd.rs, scalar tails of the skip functions). -/
def isAsciiDigit (b : UInt8) : Bool := 0x30 ≤ b && b ≤ 0x39
/-- `u8::is_ascii_alphanumeric` (standard library; simd.rs, scalar tails of the skip functions). -/
def isAsciiAlnum (b : UInt8) : Bool :=
  (0x61 ≤ b && b ≤ 0x7A) || (0x41 ≤ b && b ≤ 0x5A) || isAsciiDigit b
/-- `u8::is_ascii_hexdigit` (standard library; simd.rs, scalar tails of the skip functions). -/
def isAsciiHex (b : UInt8) : Bool :=
  isAsciiDigit b || (0x61 ≤ b && b ≤ 0x66) || (0x41 ≤ b && b ≤ 0x46)

/-- simd.rs:9-33 `find_byte`. -/
def findByte (text : List UInt8) (needle : UInt8) : Option Nat :=
  findLoop (fun b => b == needle) (fun b => b == needle) text 0

/-- simd.rs:37-63 `skip_byte`. -/
def skipByte (text : List UInt8) (byte : UInt8) : Nat :=
  skipLoop (fun b => b == byte) (fun b => b != byte) text 0

/-- simd.rs:67-94 `skip_two_bytes`. -/
def skipTwoBytes (text : List UInt8) (b1 b2 : UInt8) : Nat :=
  skipLoop (fun b => (b == b1) || (b == b2)) (fun b => b != b1 && b != b2) text 0

/-- simd.rs:98-125 `skip_ascii_whitespace`. -/
def skipAsciiWhitespace (text : List UInt8) : Nat :=
  skipLoop (fun b => (b == 0x20) || (b == 0x09) || (b == 0x0A) || (b == 0x0D))
    (fun b => b != 0x20 && b != 0x09 && b != 0x0A && b != 0x0D) text 0

/-- simd.rs:129-154 `skip_ascii_digits`. -/
def skipAsciiDigits (text : List UInt8) : Nat :=
  skipLoop (fun b => decide (0x30 ≤ b) && decide (b ≤ 0x39)) (fun b => !isAsciiDigit b) text 0

/-- simd.rs:158-185 `skip_ascii_ident_continue`. -/
def skipAsciiIdentContinue (text : List UInt8) : Nat :=
  skipLoop
    (fun b =>
      (decide (0x61 ≤ b) && decide (b ≤ 0x7A)) || (decide (0x41 ≤ b) && decide (b ≤ 0x5A)) ||
        (decide (0x30 ≤ b) && decide (b ≤ 0x39)) || (b == 0x5F))
    (fun b => !isAsciiAlnum b && b != 0x5F) text 0

/-- simd.rs:189-215 `skip_ascii_hexdigits`. -/
def skipAsciiHexdigits (text : List UInt8) : Nat :=
  skipLoop
    (fun b =>
      (decide (0x30 ≤ b) && decide (b ≤ 0x39)) || (decide (0x61 ≤ b) && decide (b ≤ 0x66)) ||
        (decide (0x41 ≤ b) && decide (b ≤ 0x46)))
    (fun b => !isAsciiHex b) text 0

/-- simd.rs:219-247 `find_first_of_4`. (`mask.any()` before `first_set` is redundant.) -/
def findFirstOf4 (text : List UInt8) (a b c d : UInt8) : Option Nat :=
  findLoop (fun x => (x == a) || (x == b) || (x == c) || (x == d))
    (fun x => x == a || x == b || x == c || x == d) text 0

/-- simd.rs:251-274 `skip_until`. -/
def skipUntil (text : List UInt8) (target : UInt8) : Nat :=
  untilLoop (fun b => b == target) (fun b => b == target) text 0

end Oaks.Simd
