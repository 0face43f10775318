/-
Outcomes of Rust code: a value, a panic, or a loop that ran out of the fuel given to it.
-/
namespace Oaks

inductive Fail where
  /-- the Rust code panics here (index out of bounds, slice off a character boundary, ...) -/
  | panic
  /-- the loop was still running when the fuel given to the model ran out -/
  | spin
deriving DecidableEq, Repr

abbrev Run := Except Fail

instance {α} [DecidableEq α] : DecidableEq (Run α) := fun a b =>
  match a, b with
  | .ok x, .ok y => if h : x = y then isTrue (by rw [h]) else isFalse (by simpa using h)
  | .error x, .error y => if h : x = y then isTrue (by rw [h]) else isFalse (by simpa using h)
  | .ok _, .error _ => isFalse (by simp)
  | .error _, .ok _ => isFalse (by simp)

/-- `xs[i]` with Rust's bounds check. -/
def index {α} (xs : List α) (i : Nat) : Run α :=
  match xs[i]? with
  | some x => .ok x
  | none => .error .panic

/-- `a - b` on `usize` with overflow check (debug build); a release build would wrap. -/
def checkedSub (a b : Nat) : Run Nat := if b ≤ a then .ok (a - b) else .error .panic

/-- Result of `slice::binary_search`. -/
inductive Search where
  | ok (i : Nat)
  | err (i : Nat)
deriving DecidableEq, Repr

/-- `slice::binary_search(&x)` on a sorted slice without duplicates: the index of `x`, else the
number of smaller elements. (The Rust contract determines the answer only for sorted input;
the theorems using this establish that the input is strictly increasing.) -/
def bsearch (l : List Nat) (x : Nat) : Search :=
  match l.idxOf? x with
  | some i => .ok i
  | none => .err (l.takeWhile (fun y => decide (y < x))).length

@[simp] theorem run_bind_ok {α β} (a : α) (f : α → Run β) : (Except.ok a >>= f) = f a := rfl
@[simp] theorem run_pure {α} (a : α) : (pure a : Run α) = .ok a := rfl
@[simp] theorem run_bind_error {α β} (e : Fail) (f : α → Run β) :
    ((Except.error e : Run α) >>= f) = .error e := rfl

theorem index_ok {α} {xs : List α} {i : Nat} (h : i < xs.length) : index xs i = .ok xs[i] := by
  simp [index, h]

theorem checkedSub_ok {a b : Nat} (h : b ≤ a) : checkedSub a b = .ok (a - b) := by
  simp [checkedSub, h]

end Oaks
