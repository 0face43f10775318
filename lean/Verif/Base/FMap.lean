/-
Finite maps seen through `get`, `insert` and `remove` only (Rust `HashMap` without iteration).
-/
namespace Oaks

/-- A map, as its lookup function. -/
abbrev FMap (K V : Type) := K → Option V

namespace FMap
variable {K V : Type} [DecidableEq K]

def empty : FMap K V := fun _ => none
def insert (m : FMap K V) (k : K) (v : V) : FMap K V := fun x => if x = k then some v else m x
def remove (m : FMap K V) (k : K) : FMap K V := fun x => if x = k then none else m x

@[simp] theorem empty_get (k : K) : (empty : FMap K V) k = none := rfl
theorem insert_get (m : FMap K V) (k x : K) (v : V) :
    m.insert k v x = if x = k then some v else m x := rfl
theorem remove_get (m : FMap K V) (k x : K) : m.remove k x = if x = k then none else m x := rfl
@[simp] theorem insert_self (m : FMap K V) (k : K) (v : V) : m.insert k v k = some v := by simp [insert]
@[simp] theorem remove_self (m : FMap K V) (k : K) : m.remove k k = none := by simp [remove]
theorem insert_ne (m : FMap K V) {k x : K} (v : V) (h : x ≠ k) : m.insert k v x = m x := by simp [insert, h]
theorem remove_ne (m : FMap K V) {k x : K} (h : x ≠ k) : m.remove k x = m x := by simp [remove, h]

end FMap
end Oaks
