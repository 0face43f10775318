/-
Rust `str` as a list of Unicode scalar values with UTF-8 byte offsets.

Trusted reading of the Rust standard library:
* `str::len`              -> `blen`
* `str::is_char_boundary` -> `isBoundary`
* `str::get(a..b)`        -> `strGet` (`none` exactly where Rust returns `None`)
* `str::find(&str)`       -> `findSub`
* `str::find(char)`       -> `findCh`
* `str::as_bytes`         -> `bytes`
-/

namespace Oaks

abbrev Str := List Char

/-- `str::len`: number of UTF-8 bytes. -/
def blen (s : Str) : Nat := (s.map Char.utf8Size).sum

/-- Split at a byte offset; `none` if the offset is not a character boundary (or is past the end). -/
def splitAt? : Str → Nat → Option (Str × Str)
  | s, 0 => some ([], s)
  | [], _ + 1 => none
  | c :: cs, n + 1 =>
    if c.utf8Size ≤ n + 1 then
      match splitAt? cs (n + 1 - c.utf8Size) with
      | some (l, r) => some (c :: l, r)
      | none => none
    else none

/-- `str::is_char_boundary`. -/
def isBoundary (s : Str) (n : Nat) : Bool := (splitAt? s n).isSome

/-- `str::get(a..b)`. -/
def strGet (s : Str) (a b : Nat) : Option Str :=
  match splitAt? s b with
  | some (l, _) =>
    match splitAt? l a with
    | some (_, m) => some m
    | none => none
  | none => none

/-- `str::get(a..)`. -/
def strFrom (s : Str) (a : Nat) : Option Str :=
  match splitAt? s a with
  | some (_, m) => some m
  | none => none

/-- `str::find(&str)`: byte offset of the first occurrence of `p` in `s`. -/
def findSub (p : Str) : Str → Option Nat
  | [] => if p = [] then some 0 else none
  | c :: cs =>
    if p.isPrefixOf (c :: cs) then some 0
    else match findSub p cs with
      | some n => some (c.utf8Size + n)
      | none => none

/-- `str::find(char)`: byte offset of the first occurrence of `ch` in `s`. -/
def findCh (ch : Char) : Str → Option Nat
  | [] => none
  | c :: cs =>
    if c = ch then some 0
    else match findCh ch cs with
      | some n => some (c.utf8Size + n)
      | none => none

/-- `str::as_bytes`. -/
def bytes (s : Str) : List UInt8 := s.flatMap String.utf8EncodeChar

/-! ### Basic facts -/

@[simp] theorem blen_nil : blen [] = 0 := rfl
@[simp] theorem blen_cons (c : Char) (s : Str) : blen (c :: s) = c.utf8Size + blen s := by
  simp [blen]
@[simp] theorem blen_append (a b : Str) : blen (a ++ b) = blen a + blen b := by
  simp [blen]

theorem utf8Size_pos (c : Char) : 0 < c.utf8Size := Char.utf8Size_pos c

theorem utf8Size_le_four (c : Char) : c.utf8Size ≤ 4 := Char.utf8Size_le_four c

theorem blen_eq_zero {s : Str} : blen s = 0 ↔ s = [] := by
  cases s with
  | nil => simp
  | cons c cs => have := utf8Size_pos c; simp; omega

theorem blen_pos {s : Str} (h : s ≠ []) : 0 < blen s := by
  have := mt blen_eq_zero.mp h; omega

theorem length_le_blen (s : Str) : s.length ≤ blen s := by
  induction s with
  | nil => simp
  | cons c cs ih => have := utf8Size_pos c; simp; omega

theorem splitAt?_zero (s : Str) : splitAt? s 0 = some ([], s) := by
  cases s <;> rfl

theorem splitAt?_eq_some {s : Str} {n : Nat} {l r : Str} :
    splitAt? s n = some (l, r) ↔ s = l ++ r ∧ blen l = n := by
  induction s generalizing n l r with
  | nil =>
    cases n with
    | zero =>
      simp [splitAt?]
      rintro rfl rfl; simp
    | succ n =>
      simp [splitAt?]
      rintro rfl rfl; simp
  | cons c cs ih =>
    cases n with
    | zero =>
      simp only [splitAt?_zero, Option.some.injEq, Prod.mk.injEq, blen_eq_zero]
      constructor
      · rintro ⟨rfl, rfl⟩; simp
      · rintro ⟨h, rfl⟩; simpa using h
    | succ n =>
      have hc := utf8Size_pos c
      simp only [splitAt?]
      constructor
      · intro h
        split at h
        · split at h
          · rename_i l' r' heq
            obtain ⟨h1, h2⟩ := ih.mp heq
            simp at h
            obtain ⟨rfl, rfl⟩ := h
            exact ⟨by simp [h1], by simp; omega⟩
          · simp at h
        · simp at h
      · rintro ⟨h, hl⟩
        cases l with
        | nil => simp at hl
        | cons d l' =>
          simp at h hl
          obtain ⟨rfl, rfl⟩ := h
          rw [if_pos (by omega)]
          have : splitAt? (l' ++ r) (n + 1 - c.utf8Size) = some (l', r) := ih.mpr ⟨rfl, by omega⟩
          rw [this]

theorem splitAt?_append (l r : Str) : splitAt? (l ++ r) (blen l) = some (l, r) :=
  splitAt?_eq_some.mpr ⟨rfl, rfl⟩

/-- Two decompositions at the same byte offset coincide. -/
theorem append_inj_blen {a b c d : Str} (h : a ++ b = c ++ d) (hl : blen a = blen c) :
    a = c ∧ b = d := by
  have h1 := splitAt?_append a b
  have h2 := splitAt?_append c d
  rw [h, hl, h2] at h1
  simpa [eq_comm] using h1

theorem isBoundary_iff {s : Str} {n : Nat} :
    isBoundary s n = true ↔ ∃ l r, s = l ++ r ∧ blen l = n := by
  unfold isBoundary
  constructor
  · intro h
    obtain ⟨⟨l, r⟩, h⟩ := Option.isSome_iff_exists.mp h
    exact ⟨l, r, splitAt?_eq_some.mp h⟩
  · rintro ⟨l, r, h⟩
    rw [splitAt?_eq_some.mpr h]; rfl

theorem strGet_eq_some {s m : Str} {a b : Nat} :
    strGet s a b = some m ↔ ∃ l r, s = l ++ m ++ r ∧ blen l = a ∧ blen l + blen m = b := by
  unfold strGet
  constructor
  · intro h
    split at h
    · rename_i l r heq
      split at h
      · rename_i l' m' heq'
        simp at h; subst h
        obtain ⟨rfl, rfl⟩ := splitAt?_eq_some.mp heq
        obtain ⟨rfl, rfl⟩ := splitAt?_eq_some.mp heq'
        exact ⟨l', r, by simp, rfl, by simp⟩
      · simp at h
    · simp at h
  · rintro ⟨l, r, rfl, rfl, rfl⟩
    rw [show blen l + blen m = blen (l ++ m) by simp, splitAt?_append]
    simp [splitAt?_append]

theorem strFrom_eq_some {s m : Str} {a : Nat} :
    strFrom s a = some m ↔ ∃ l, s = l ++ m ∧ blen l = a := by
  unfold strFrom
  constructor
  · intro h
    split at h
    · rename_i l r heq
      simp at h; subst h
      exact ⟨l, splitAt?_eq_some.mp heq⟩
    · simp at h
  · rintro ⟨l, rfl, rfl⟩
    rw [splitAt?_append]

theorem strFrom_append (l m : Str) : strFrom (l ++ m) (blen l) = some m :=
  strFrom_eq_some.mpr ⟨l, rfl, rfl⟩

@[simp] theorem bytes_nil : bytes [] = [] := rfl
@[simp] theorem bytes_cons (c : Char) (s : Str) :
    bytes (c :: s) = String.utf8EncodeChar c ++ bytes s := by simp [bytes]
@[simp] theorem bytes_append (a b : Str) : bytes (a ++ b) = bytes a ++ bytes b := by
  simp [bytes]

theorem length_bytes (s : Str) : (bytes s).length = blen s := by
  induction s with
  | nil => rfl
  | cons c cs ih => simp [ih]

end Oaks
