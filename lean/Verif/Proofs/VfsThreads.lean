import Verif.Proofs.Vfs

/-! The in-memory file system under threads. -/

namespace Oaks
open Spec

/-- How many of the locks, in order, a thread holds for writing. -/
def heldBy : Pc → Nat
  | .acquire _ k => k
  | .body _ _ => 3
  | .release _ k => k
  | _ => 0

/-- The lock a thread holds for reading. -/
def readsBy : Pc → Option Nat
  | .readHeld q => some q.lock
  | .readDone q _ => some q.lock
  | _ => none

def inBody : Pc → Bool
  | .body _ _ => true
  | _ => false

/-- Positions that occur. -/
def pcOk : Pc → Prop
  | .acquire _ k => k ≤ 2
  | .release _ k => 1 ≤ k ∧ k ≤ 3
  | _ => True

structure LockInv (s : VfsSys) : Prop where
  ok : ∀ t, pcOk (s.pc t)
  w : ∀ j, j < 3 → ∀ t, (s.locks j).writer = some t ↔ j < heldBy (s.pc t)
  r : ∀ j, j < 3 → ∀ t, t ∈ (s.locks j).readers ↔ readsBy (s.pc t) = some j
  nd : ∀ j, j < 3 → (s.locks j).readers.Nodup
  excl : ∀ j, j < 3 → ∀ t, (s.locks j).writer = some t → (s.locks j).readers = []

theorem VfsRead.lock_lt (q : VfsRead) : q.lock < 3 := by cases q <;> simp [VfsRead.lock]

theorem LockInv.unique {s : VfsSys} (h : LockInv s) {t t' : Nat} {j : Nat} (hj : j < 3)
    (h1 : j < heldBy (s.pc t)) (h2 : j < heldBy (s.pc t')) : t = t' := by
  have a := (h.w j hj t).2 h1
  have b := (h.w j hj t').2 h2
  rw [a] at b; exact Option.some.inj b

/-- Changing the place of a thread without touching locks. -/
theorem LockInv.setPc {s : VfsSys} (h : LockInv s) (t : Nat) (p : Pc) (h1 : pcOk p)
    (h2 : heldBy p = heldBy (s.pc t)) (h3 : readsBy p = readsBy (s.pc t)) : LockInv (setPc s t p) := by
  refine ⟨?_, ?_, ?_, h.nd, h.excl⟩
  · intro x; simp only [Oaks.setPc]; split
    · exact h1
    · exact h.ok x
  · intro j hj x; simp only [Oaks.setPc]; split
    · next hx => subst hx; rw [h2]; exact h.w j hj x
    · exact h.w j hj x
  · intro j hj x; simp only [Oaks.setPc]; split
    · next hx => subst hx; rw [h3]; exact h.r j hj x
    · exact h.r j hj x

theorem LockInv.mem {s : VfsSys} (h : LockInv s) (m : MemFs) : LockInv { s with mem := m } :=
  ⟨h.ok, h.w, h.r, h.nd, h.excl⟩

/-- Taking a free lock for writing. -/
theorem LockInv.acquire {s : VfsSys} (h : LockInv s) {t k : Nat} {p : Pc} (hk : k ≤ 2)
    (hfree : s.locks k = ⟨none, []⟩) (h0 : heldBy (s.pc t) = k) (h1 : pcOk p) (h2 : heldBy p = k + 1)
    (h3 : readsBy (s.pc t) = none) (h4 : readsBy p = none) :
    LockInv (Oaks.setPc (setLock s k ⟨some t, []⟩) t p) := by
  refine ⟨?_, ?_, ?_, ?_, ?_⟩
  · intro x; simp only [Oaks.setPc, setLock]; split
    · exact h1
    · exact h.ok x
  · intro j hj x
    simp only [Oaks.setPc, setLock]
    by_cases hjk : j = k
    · subst hjk
      rw [if_pos rfl]
      by_cases hx : x = t
      · subst hx; rw [if_pos rfl]; simp; omega
      · rw [if_neg hx]
        have := h.w j hj x
        rw [hfree] at this
        simp only [reduceCtorEq, false_iff] at this
        simp only [Option.some.injEq]
        constructor
        · intro h'; exact absurd h'.symm hx
        · intro h'; exact absurd h' this
    · rw [if_neg hjk]
      by_cases hx : x = t
      · subst hx; rw [if_pos rfl, h.w j hj x]; omega
      · rw [if_neg hx]; exact h.w j hj x
  · intro j hj x
    simp only [Oaks.setPc, setLock]
    by_cases hjk : j = k
    · subst hjk
      rw [if_pos rfl]
      have := h.r j hj x
      rw [hfree] at this
      by_cases hx : x = t
      · subst hx; rw [if_pos rfl, h4]; simp
      · rw [if_neg hx]; exact this
    · rw [if_neg hjk]
      by_cases hx : x = t
      · subst hx; rw [if_pos rfl, h.r j hj x, h3, h4]
      · rw [if_neg hx]; exact h.r j hj x
  · intro j hj
    simp only [Oaks.setPc, setLock]
    split
    · simp
    · exact h.nd j hj
  · intro j hj x
    simp only [Oaks.setPc, setLock]
    split
    · simp
    · exact h.excl j hj x

/-- Releasing the last lock taken for writing. -/
theorem LockInv.release {s : VfsSys} (h : LockInv s) {t k : Nat} {p : Pc} (hk : k ≤ 2)
    (h0 : heldBy (s.pc t) = k + 1) (h1 : pcOk p) (h2 : heldBy p = k)
    (h3 : readsBy (s.pc t) = none) (h4 : readsBy p = none) :
    LockInv (Oaks.setPc (setLock s k ⟨none, (s.locks k).readers⟩) t p) := by
  have hw := (h.w k (by omega) t).2 (by omega)
  refine ⟨?_, ?_, ?_, ?_, ?_⟩
  · intro x; simp only [Oaks.setPc, setLock]; split
    · exact h1
    · exact h.ok x
  · intro j hj x
    simp only [Oaks.setPc, setLock]
    by_cases hjk : j = k
    · subst hjk
      rw [if_pos rfl]
      by_cases hx : x = t
      · subst hx; rw [if_pos rfl]; simp; omega
      · rw [if_neg hx]
        have := h.w j hj x
        rw [hw] at this
        simp only [reduceCtorEq, false_iff]
        intro h'
        exact hx (Option.some.inj (this.2 h')).symm
    · rw [if_neg hjk]
      by_cases hx : x = t
      · subst hx; rw [if_pos rfl, h.w j hj x]; omega
      · rw [if_neg hx]; exact h.w j hj x
  · intro j hj x
    simp only [Oaks.setPc, setLock]
    by_cases hx : x = t
    · subst hx
      rw [if_pos rfl, h4]
      have := h.r j hj x
      rw [h3] at this
      by_cases hjk : j = k
      · subst hjk; rw [if_pos rfl]; exact this
      · rw [if_neg hjk]; exact this
    · rw [if_neg hx]
      by_cases hjk : j = k
      · subst hjk; rw [if_pos rfl]; exact h.r j hj x
      · rw [if_neg hjk]; exact h.r j hj x
  · intro j hj
    simp only [Oaks.setPc, setLock]
    split
    · next hjk => subst hjk; exact h.nd j hj
    · exact h.nd j hj
  · intro j hj x
    simp only [Oaks.setPc, setLock]
    split
    · simp
    · exact h.excl j hj x

/-- Taking a lock for reading. -/
theorem LockInv.acquireRead {s : VfsSys} (h : LockInv s) {t : Nat} {q : VfsRead}
    (hpc : s.pc t = .readWant q) (hfree : (s.locks q.lock).writer = none) :
    LockInv (Oaks.setPc (setLock s q.lock ⟨none, t :: (s.locks q.lock).readers⟩) t (.readHeld q)) := by
  have hq := q.lock_lt
  refine ⟨?_, ?_, ?_, ?_, ?_⟩
  · intro x; simp only [Oaks.setPc, setLock]; split
    · trivial
    · exact h.ok x
  · intro j hj x
    have hx' : heldBy (if x = t then Pc.readHeld q else s.pc x) = heldBy (s.pc x) := by
      split
      · next hx => subst hx; rw [hpc]; rfl
      · rfl
    simp only [Oaks.setPc, setLock, hx']
    by_cases hjk : j = q.lock
    · rw [if_pos hjk, ← h.w j hj x, hjk, hfree]
    · rw [if_neg hjk]; exact h.w j hj x
  · intro j hj x
    simp only [Oaks.setPc, setLock]
    by_cases hx : x = t
    · subst hx
      rw [if_pos rfl]
      by_cases hjk : j = q.lock
      · rw [if_pos hjk]; simp [readsBy, hjk]
      · rw [if_neg hjk, h.r j hj x, hpc]; simp [readsBy]; exact fun h => hjk h.symm
    · rw [if_neg hx]
      by_cases hjk : j = q.lock
      · subst hjk; rw [if_pos rfl, ← h.r _ hj x]; simp [hx]
      · rw [if_neg hjk]; exact h.r j hj x
  · intro j hj
    simp only [Oaks.setPc, setLock]
    split
    · next hjk =>
      subst hjk
      refine List.nodup_cons.2 ⟨?_, h.nd _ hj⟩
      rw [h.r _ hj, hpc]; simp [readsBy]
    · exact h.nd j hj
  · intro j hj x
    simp only [Oaks.setPc, setLock]
    split
    · simp
    · exact h.excl j hj x

/-- Giving back a lock taken for reading. -/
theorem LockInv.releaseRead {s : VfsSys} (h : LockInv s) {t : Nat} {q : VfsRead} {a : VfsAnswer}
    (hpc : s.pc t = .readDone q a) :
    LockInv (Oaks.setPc (setLock s q.lock
      ⟨(s.locks q.lock).writer, (s.locks q.lock).readers.erase t⟩) t .idle) := by
  have hq := q.lock_lt
  refine ⟨?_, ?_, ?_, ?_, ?_⟩
  · intro x; simp only [Oaks.setPc, setLock]; split
    · trivial
    · exact h.ok x
  · intro j hj x
    have hx' : heldBy (if x = t then Pc.idle else s.pc x) = heldBy (s.pc x) := by
      split
      · next hx => subst hx; rw [hpc]; rfl
      · rfl
    simp only [Oaks.setPc, setLock, hx']
    by_cases hjk : j = q.lock
    · subst hjk; rw [if_pos rfl, ← h.w _ hj x]
    · rw [if_neg hjk]; exact h.w j hj x
  · intro j hj x
    simp only [Oaks.setPc, setLock]
    by_cases hx : x = t
    · subst hx
      rw [if_pos rfl]
      by_cases hjk : j = q.lock
      · subst hjk
        rw [if_pos rfl]
        simp only [readsBy, reduceCtorEq, iff_false]
        intro h'
        exact ((h.nd _ hj).mem_erase_iff.1 h').1 rfl
      · rw [if_neg hjk, h.r j hj x, hpc]; simp [readsBy]; exact fun h => hjk h.symm
    · rw [if_neg hx]
      by_cases hjk : j = q.lock
      · subst hjk; rw [if_pos rfl, ← h.r _ hj x]; simp only []
        exact List.mem_erase_of_ne hx
      · rw [if_neg hjk]; exact h.r j hj x
  · intro j hj
    simp only [Oaks.setPc, setLock]
    split
    · next hjk => subst hjk; exact (h.nd _ hj).erase _
    · exact h.nd j hj
  · intro j hj x
    simp only [Oaks.setPc, setLock]
    split
    · next hjk => subst hjk; intro hw; simp only [] at hw ⊢; rw [h.excl _ hj x hw]; rfl
    · exact h.excl j hj x

theorem LockInv.step {s s' : VfsSys} {e : Option VfsEvent} (h : LockInv s) (hs : VfsStep s e s') :
    LockInv s' := by
  cases hs with
  | callWrite hpc => exact h.setPc _ _ (Nat.zero_le _) (by rw [hpc]; rfl) (by rw [hpc]; rfl)
  | @acquire t op k hpc hfree =>
    have hk : k ≤ 2 := by have := h.ok t; rw [hpc] at this; exact this
    refine h.acquire hk hfree (by rw [hpc]; rfl) ?_ ?_ (by rw [hpc]; rfl) ?_
    · split
      · trivial
      · simp only [pcOk]; omega
    · split
      · next h' => rw [h']; rfl
      · rfl
    · split <;> rfl
  | bodyMore hpc _ => exact (h.mem _).setPc _ _ trivial (by simp only [hpc]; rfl) (by simp only [hpc]; rfl)
  | bodyEnd hpc _ =>
    exact (h.mem _).setPc _ _ (by simp [pcOk]) (by simp only [hpc]; rfl) (by simp only [hpc]; rfl)
  | @release t op k hpc =>
    have hk : k ≤ 2 := by have := h.ok t; rw [hpc] at this; simp [pcOk] at this; omega
    refine h.release hk (by rw [hpc]; rfl) ?_ ?_ (by rw [hpc]; rfl) ?_
    · split
      · trivial
      · simp only [pcOk]; omega
    · split
      · next h' => rw [h']; rfl
      · rfl
    · split <;> rfl
  | callRead hpc => exact h.setPc _ _ trivial (by rw [hpc]; rfl) (by rw [hpc]; rfl)
  | acquireRead hpc hfree => exact h.acquireRead hpc hfree
  | read hpc => exact h.setPc _ _ trivial (by rw [hpc]; rfl) (by rw [hpc]; rfl)
  | releaseRead hpc => exact h.releaseRead hpc

/-- How far the maps are from `A`, the file system after all calls that have done their work, while
a call is between its last acquisition and the end of its work. -/
def BodyRel (m A : MemFs) : VfsWrite → Body → Prop
  | .write _ _, .start => m = A
  | .write u _, .fresh => A.uriToId u = none ∧ m = A
  | .write u _, .alloc id => A.uriToId u = none ∧ id = A.nextId ∧
      m = { A with nextId := (A.nextId + 1) % 2 ^ 32 }
  | .write u _, .mapped id => A.uriToId u = none ∧ id = A.nextId ∧
      m = { A with nextId := (A.nextId + 1) % 2 ^ 32, uriToId := A.uriToId.insert u id }
  | .write u c, .ready id => { m with files := m.files.insert u ⟨c, id⟩ } = A.write u c
  | .remove _, .start => m = A
  | .remove u, .taken e => A.files u = some e ∧ m = { A with files := A.files.remove u }
  | .remove u, .unmapped e => A.files u = some e ∧
      m = { A with files := A.files.remove u, uriToId := A.uriToId.remove u }
  | _, _ => False

theorem BodyRel.more {m m' A : MemFs} {op : VfsWrite} {b b' : Body} (h : BodyRel m A op b)
    (hs : bodyStep m op b = (m', some b')) : BodyRel m' A op b' := by
  cases op with
  | write u c =>
    cases b with
    | start =>
      simp only [BodyRel] at h; subst h
      simp only [bodyStep] at hs
      split at hs
      · next hu => cases hs; simp [BodyRel, MemFs.write, hu]
      · next hu => cases hs; exact ⟨hu, rfl⟩
    | fresh =>
      obtain ⟨h1, rfl⟩ := h
      simp only [bodyStep] at hs; cases hs
      exact ⟨h1, rfl, rfl⟩
    | alloc id =>
      obtain ⟨h1, h2, rfl⟩ := h
      simp only [bodyStep] at hs; cases hs
      exact ⟨h1, h2, rfl⟩
    | mapped id =>
      obtain ⟨h1, h2, rfl⟩ := h
      simp only [bodyStep] at hs; cases hs
      simp [BodyRel, MemFs.write, h1, h2]
    | ready id => simp only [bodyStep] at hs; cases hs
    | taken e => exact h.elim
    | unmapped e => exact h.elim
  | remove u =>
    cases b with
    | start =>
      simp only [BodyRel] at h; subst h
      simp only [bodyStep] at hs
      split at hs
      · next hu => cases hs; exact ⟨hu, rfl⟩
      · cases hs
    | taken e =>
      obtain ⟨h1, rfl⟩ := h
      simp only [bodyStep] at hs; cases hs
      exact ⟨h1, rfl⟩
    | unmapped e => simp only [bodyStep] at hs; cases hs
    | fresh => exact h.elim
    | alloc id => exact h.elim
    | mapped id => exact h.elim
    | ready id => exact h.elim

theorem BodyRel.last {m m' A : MemFs} {op : VfsWrite} {b : Body} (h : BodyRel m A op b)
    (hs : bodyStep m op b = (m', none)) : m' = A.apply op := by
  cases op with
  | write u c =>
    cases b with
    | start =>
      simp only [bodyStep] at hs
      split at hs <;> cases hs
    | fresh => simp only [bodyStep] at hs; cases hs
    | alloc id => simp only [bodyStep] at hs; cases hs
    | mapped id => simp only [bodyStep] at hs; cases hs
    | ready id => simp only [bodyStep] at hs; cases hs; exact h
    | taken e => exact h.elim
    | unmapped e => exact h.elim
  | remove u =>
    cases b with
    | start =>
      simp only [BodyRel] at h; subst h
      simp only [bodyStep] at hs
      split at hs
      · cases hs
      · next hu => cases hs; simp [MemFs.apply, MemFs.remove, hu]
    | taken e => simp only [bodyStep] at hs; cases hs
    | unmapped e =>
      obtain ⟨h1, rfl⟩ := h
      simp only [bodyStep] at hs; cases hs
      simp [MemFs.apply, MemFs.remove, h1]
    | fresh => exact h.elim
    | alloc id => exact h.elim
    | mapped id => exact h.elim
    | ready id => exact h.elim

structure DataInv (s : VfsSys) (A : MemFs) : Prop where
  body : ∀ t op b, s.pc t = .body op b → BodyRel s.mem A op b
  rest : (∀ t, inBody (s.pc t) = false) → s.mem = A

/-- Steps of threads outside their body, to a place outside a body. -/
theorem DataInv.outside {s s' : VfsSys} {A : MemFs} (h : DataInv s A) (t : Nat) (hm : s'.mem = s.mem)
    (hpc : ∀ x, x ≠ t → s'.pc x = s.pc x) (h1 : inBody (s.pc t) = false)
    (h2 : inBody (s'.pc t) = false) : DataInv s' A := by
  refine ⟨?_, ?_⟩
  · intro x op b hx
    by_cases hxt : x = t
    · subst hxt; rw [hx] at h2; cases h2
    · rw [hpc x hxt] at hx; rw [hm]; exact h.body x op b hx
  · intro hall
    rw [hm]
    apply h.rest
    intro x
    by_cases hxt : x = t
    · rw [hxt]; exact h1
    · rw [← hpc x hxt]; exact hall x

theorem body_held {p : Pc} (h : inBody p = true) : heldBy p = 3 := by
  cases p <;> simp [inBody] at h; rfl

/-- Nobody is in a body when a lock is not held for writing by anyone. -/
theorem LockInv.nobody {s : VfsSys} (h : LockInv s) {j : Nat} (hj : j < 3)
    (hw : (s.locks j).writer = none) (t : Nat) : inBody (s.pc t) = false := by
  cases hb : inBody (s.pc t) with
  | false => rfl
  | true =>
    have := (h.w j hj t).2 (by rw [body_held hb]; exact hj)
    rw [hw] at this; cases this

/-- The file system after a visible step. -/
def workOf (A : MemFs) : Option VfsEvent → MemFs
  | some (.workWrite _ op) => A.apply op
  | _ => A

theorem DataInv.step {s s' : VfsSys} {A : MemFs} {e : Option VfsEvent} (hl : LockInv s)
    (h : DataInv s A) (hs : VfsStep s e s') :
    DataInv s' (workOf A e) ∧
      (∀ t q a, e = some (.workRead t q a) → a = A.answer q) := by
  cases hs with
  | @callWrite t op hpc =>
    exact ⟨h.outside t rfl (by intro x hx; simp [setPc, hx]) (by rw [hpc]; rfl) (by simp [setPc, inBody]),
      by simp⟩
  | @acquire t op k hpc hfree =>
    refine ⟨?_, by simp⟩
    by_cases hk : k = 2
    · subst hk
      have hno := hl.nobody (j := 2) (by omega) (by rw [hfree])
      have hmA := h.rest hno
      refine ⟨?_, ?_⟩
      · intro x op' b hx
        simp only [setPc, setLock] at hx
        split at hx
        · simp at hx
          obtain ⟨rfl, rfl⟩ := hx
          cases op <;> exact hmA
        · have := hno x; rw [hx] at this; cases this
      · intro _; exact hmA
    · refine h.outside t rfl (by intro x hx; simp [setPc, setLock, hx]) (by rw [hpc]; rfl) ?_
      simp [setPc, hk, inBody]
  | @bodyMore t op b b' m' hpc hb =>
    refine ⟨⟨?_, ?_⟩, by simp⟩
    · intro x op' b'' hx
      simp only [setPc] at hx
      split at hx
      · cases hx; exact (h.body t op b hpc).more hb
      · next hxt =>
        exact absurd (hl.unique (j := 0) (by omega) (by rw [hx]; exact Nat.zero_lt_succ _)
          (by rw [hpc]; exact Nat.zero_lt_succ _)) hxt
    · intro hall
      have := hall t
      simp [setPc, inBody] at this
  | @bodyEnd t op b m' hpc hb =>
    have hm := (h.body t op b hpc).last hb
    refine ⟨⟨?_, ?_⟩, by simp⟩
    · intro x op' b'' hx
      simp only [setPc] at hx
      split at hx
      · cases hx
      · next hxt =>
        exact absurd (hl.unique (j := 0) (by omega) (by rw [hx]; exact Nat.zero_lt_succ _)
          (by rw [hpc]; exact Nat.zero_lt_succ _)) hxt
    · intro _; exact hm
  | @release t op k hpc =>
    have : DataInv (setPc (setLock s k ⟨none, (s.locks k).readers⟩) t
        (if k = 0 then .idle else .release op k)) A := by
      refine h.outside t rfl (by intro x hx; simp [setPc, setLock, hx]) (by rw [hpc]; rfl) ?_
      simp only [setPc, if_true]; split <;> rfl
    by_cases hk : k = 0
    · subst hk; exact ⟨this, by simp⟩
    · rw [if_neg hk] at this; simp only [if_neg hk]; exact ⟨this, by simp⟩
  | @callRead t q hpc =>
    exact ⟨h.outside t rfl (by intro x hx; simp [setPc, hx]) (by rw [hpc]; rfl) (by simp [setPc, inBody]),
      by simp⟩
  | @acquireRead t q hpc hfree =>
    exact ⟨h.outside t rfl (by intro x hx; simp [setPc, setLock, hx]) (by rw [hpc]; rfl)
      (by simp [setPc, inBody]), by simp⟩
  | @read t q hpc =>
    refine ⟨h.outside t rfl (by intro x hx; simp [setPc, hx]) (by rw [hpc]; rfl)
      (by simp [setPc, inBody]), ?_⟩
    intro t' q' a he
    cases he
    have hr := (hl.r q.lock q.lock_lt t).2 (by rw [hpc]; rfl)
    have hw : (s.locks q.lock).writer = none := by
      cases hw : (s.locks q.lock).writer with
      | none => rfl
      | some x => rw [hl.excl _ q.lock_lt x hw] at hr; simp at hr
    rw [h.rest (hl.nobody q.lock_lt hw)]
  | @releaseRead t q a hpc =>
    exact ⟨h.outside t rfl (by intro x hx; simp [setPc, setLock, hx]) (by rw [hpc]; rfl)
      (by simp [setPc, inBody]), by simp⟩

/-- Finished calls of one thread. -/
inductive Complete (t : Nat) : List VfsEvent → Prop where
  | nil : Complete t []
  | write {op es} : Complete t es → Complete t (.callWrite t op :: .workWrite t op :: .retWrite t op :: es)
  | read {q a es} : Complete t es → Complete t (.callRead t q :: .workRead t q a :: .retRead t q a :: es)

theorem Complete.append {t : Nat} {es fs : List VfsEvent} (h : Complete t es) (h' : Complete t fs) :
    Complete t (es ++ fs) := by
  induction h with
  | nil => exact h'
  | write _ ih => exact .write ih
  | read _ ih => exact .read ih

theorem Complete.callByCall {t : Nat} {es fs : List VfsEvent} (h : Complete t es) (h' : CallByCall fs) :
    CallByCall (es ++ fs) := by
  induction h with
  | nil => exact h'
  | write _ ih => exact .write ih
  | read _ ih => exact .read ih

/-- What the thread did since its last finished call, by where it is. -/
def pending (t : Nat) : Pc → List VfsEvent
  | .idle => []
  | .acquire op _ => [.callWrite t op]
  | .body op _ => [.callWrite t op]
  | .release op _ => [.callWrite t op, .workWrite t op]
  | .readWant q => [.callRead t q]
  | .readHeld q => [.callRead t q]
  | .readDone q a => [.callRead t q, .workRead t q a]

theorem pending_callByCall (t : Nat) (p : Pc) : CallByCall (pending t p) := by
  cases p <;> simp only [pending]
  · exact .nil
  · exact .calledWrite
  · exact .calledWrite
  · exact .workedWrite
  · exact .calledRead
  · exact .calledRead
  · exact .workedRead

def ThreadInv (tr : List VfsEvent) (s : VfsSys) : Prop :=
  ∀ t, ∃ es, Complete t es ∧ tr.filter (fun e => thread e == t) = es ++ pending t (s.pc t)

theorem ThreadInv.step {tr : List VfsEvent} {s s' : VfsSys} {e : Option VfsEvent}
    (h : ThreadInv tr s) (hs : VfsStep s e s') : ThreadInv (tr ++ e.toList) s' := by
  intro x
  obtain ⟨es, h1, h2⟩ := h x
  -- a step of thread `t` that adds its visible part to what is pending
  have more : ∀ t p, s'.pc = (setPc s t p).pc → (∀ ev, e = some ev → thread ev = t) →
      (pending t p = pending t (s.pc t) ++ e.toList ∨
        (pending t p = [] ∧ Complete t (pending t (s.pc t) ++ e.toList))) →
      ∃ es, Complete x es ∧ (tr ++ e.toList).filter (fun e => thread e == x) = es ++ pending x (s'.pc x) := by
    intro t p hp hth hcase
    rw [List.filter_append, h2, hp]
    by_cases hx : x = t
    · subst hx
      have hf : e.toList.filter (fun e => thread e == x) = e.toList := by
        rw [List.filter_eq_self]
        intro ev hev
        rw [Option.mem_toList] at hev
        simpa using hth ev hev
      simp only [setPc, if_true, hf]
      rcases hcase with hc | ⟨hc1, hc2⟩
      · exact ⟨es, h1, by rw [hc]; simp⟩
      · exact ⟨_, h1.append hc2, by rw [hc1]; simp⟩
    · have hf : e.toList.filter (fun e => thread e == x) = [] := by
        rw [List.filter_eq_nil_iff]
        intro ev hev
        rw [Option.mem_toList] at hev
        have := hth ev hev
        simp only [this, beq_iff_eq]
        exact fun h => hx h.symm
      simp only [setPc, hx, if_false, hf]
      exact ⟨es, h1, by simp⟩
  cases hs with
  | callWrite hpc => exact more _ _ rfl (by simp [thread]) (.inl (by rw [hpc]; rfl))
  | @acquire t op k hpc _ =>
    refine more t _ rfl (by simp) (.inl ?_)
    rw [hpc]; split <;> simp [pending]
  | bodyMore hpc _ => exact more _ _ rfl (by simp) (.inl (by rw [hpc]; simp [pending]))
  | bodyEnd hpc _ => exact more _ _ rfl (by simp [thread]) (.inl (by rw [hpc]; simp [pending]))
  | @release t op k hpc =>
    by_cases hk : k = 0
    · refine more t _ rfl (by simp [hk, thread]) (.inr ?_)
      rw [hpc]
      simp only [hk, if_true, pending, true_and]
      exact Complete.write .nil
    · refine more t _ rfl (by simp [hk]) (.inl ?_)
      rw [hpc]; simp [hk, pending]
  | callRead hpc => exact more _ _ rfl (by simp [thread]) (.inl (by rw [hpc]; rfl))
  | acquireRead hpc _ => exact more _ _ rfl (by simp) (.inl (by rw [hpc]; simp [pending]))
  | read hpc => exact more _ _ rfl (by simp [thread]) (.inl (by rw [hpc]; simp [pending]))
  | releaseRead hpc =>
    refine more _ _ rfl (by simp [thread]) (.inr ?_)
    rw [hpc]
    exact ⟨rfl, Complete.read .nil⟩

theorem worked_append (a b : List VfsEvent) : worked (a ++ b) = worked a ++ worked b := by
  simp [worked]

theorem answers_snoc (m : MemFs) (tr : List VfsEvent) (e : VfsEvent) :
    Answers m (tr ++ [e]) ↔ Answers m tr ∧
      ∀ t q a, e = .workRead t q a → a = (m.applyAll (worked tr)).answer q := by
  induction tr generalizing m with
  | nil =>
    cases e <;> simp [Answers, worked, MemFs.applyAll]
  | cons x tr ih =>
    cases x <;> simp only [List.cons_append, Answers, ih, and_assoc] <;>
      simp [worked, MemFs.applyAll]

theorem exec_inv {tr : List VfsEvent} {s : VfsSys} (h : VfsExec tr s) :
    LockInv s ∧ DataInv s (MemFs.new.applyAll (worked tr)) ∧ Answers MemFs.new tr ∧ ThreadInv tr s := by
  induction h with
  | nil =>
    refine ⟨⟨fun _ => trivial, ?_, ?_, ?_, ?_⟩, ⟨?_, fun _ => rfl⟩, trivial, ?_⟩
    · simp [VfsSys.new, heldBy]
    · simp [VfsSys.new, readsBy]
    · simp [VfsSys.new]
    · simp [VfsSys.new]
    · simp [VfsSys.new]
    · exact fun t => ⟨[], .nil, rfl⟩
  | @step tr s s' e _ hs ih =>
    obtain ⟨h1, h2, h3, h4⟩ := ih
    obtain ⟨g1, g2⟩ := h2.step h1 hs
    refine ⟨h1.step hs, ?_, ?_, h4.step hs⟩
    · cases e with
      | none => simpa [workOf] using g1
      | some e =>
        cases e <;> simp only [Option.toList_some, worked_append] <;>
          first
          | (simp only [worked, List.filterMap_cons, List.filterMap_nil, List.append_nil]; exact g1)
          | (rw [show worked [VfsEvent.workWrite _ _] = [_] from rfl, applyAll_snoc]; exact g1)
    · cases e with
      | none => simpa using h3
      | some e =>
        simp only [Option.toList_some]
        rw [answers_snoc]
        exact ⟨h3, fun t q a he => g2 t q a (by rw [he])⟩

/-- Steps that are not the beginning of a new call. -/
def isCall : Option VfsEvent → Bool
  | some (.callWrite _ _) => true
  | some (.callRead _ _) => true
  | _ => false

theorem no_deadlock {s : VfsSys} (h : LockInv s) {t : Nat} (ht : s.pc t ≠ .idle) :
    ∃ e s', VfsStep s e s' ∧ isCall e = false := by
  by_cases hr : ∃ x, (∀ op k, s.pc x ≠ .acquire op k) ∧ (∀ q, s.pc x ≠ .readWant q) ∧ s.pc x ≠ .idle
  · obtain ⟨x, h1, h2, h3⟩ := hr
    cases hx : s.pc x with
    | idle => exact absurd hx h3
    | acquire op k => exact absurd hx (h1 op k)
    | readWant q => exact absurd hx (h2 q)
    | body op b =>
      rcases hb : bodyStep s.mem op b with ⟨m', _ | b'⟩
      · exact ⟨_, _, .bodyEnd hx hb, rfl⟩
      · exact ⟨_, _, .bodyMore hx hb, rfl⟩
    | release op k =>
      cases k with
      | zero => have := h.ok x; rw [hx] at this; simp [pcOk] at this
      | succ k => exact ⟨_, _, .release hx, by split <;> rfl⟩
    | readHeld q => exact ⟨_, _, .read hx, rfl⟩
    | readDone q a => exact ⟨_, _, .releaseRead hx, rfl⟩
  · have hall : ∀ x, (∃ op k, s.pc x = .acquire op k) ∨ (∃ q, s.pc x = .readWant q) ∨ s.pc x = .idle := by
      intro x
      cases hx : s.pc x with
      | idle => exact .inr (.inr rfl)
      | acquire op k => exact .inl ⟨op, k, rfl⟩
      | readWant q => exact .inr (.inl ⟨q, rfl⟩)
      | body op b => exact absurd ⟨x, by simp [hx]⟩ hr
      | release op b => exact absurd ⟨x, by simp [hx]⟩ hr
      | readHeld op => exact absurd ⟨x, by simp [hx]⟩ hr
      | readDone op a => exact absurd ⟨x, by simp [hx]⟩ hr
    have hreaders : ∀ j, j < 3 → (s.locks j).readers = [] := by
      intro j hj
      rw [List.eq_nil_iff_forall_not_mem]
      intro x hx
      rw [h.r j hj x] at hx
      rcases hall x with ⟨op, k, hp⟩ | ⟨q, hp⟩ | hp <;> rw [hp] at hx <;> cases hx
    have hfree : ∀ j, j < 3 → (∀ x op k, s.pc x = .acquire op k → k ≤ j) → s.locks j = ⟨none, []⟩ := by
      intro j hj hmax
      have h1 := hreaders j hj
      have h2 : (s.locks j).writer = none := by
        cases hw : (s.locks j).writer with
        | none => rfl
        | some x =>
          have hx := (h.w j hj x).1 hw
          rcases hall x with ⟨op, k, hp⟩ | ⟨q, hp⟩ | hp
          · have := hmax x op k hp; rw [hp] at hx; simp only [heldBy] at hx; omega
          · rw [hp] at hx; simp [heldBy] at hx
          · rw [hp] at hx; simp [heldBy] at hx
      calc s.locks j = ⟨(s.locks j).writer, (s.locks j).readers⟩ := rfl
        _ = _ := by rw [h1, h2]
    have hok : ∀ x op k, s.pc x = .acquire op k → k ≤ 2 := by
      intro x op k hx; have := h.ok x; rw [hx] at this; exact this
    by_cases h2 : ∃ x op, s.pc x = .acquire op 2
    · obtain ⟨x, op, hx⟩ := h2
      exact ⟨_, _, .acquire hx (hfree 2 (by omega) hok), rfl⟩
    · have hok1 : ∀ x op k, s.pc x = .acquire op k → k ≤ 1 := by
        intro x op k hx
        have := hok x op k hx
        rcases Nat.lt_or_ge k 2 with g | g
        · omega
        · exact absurd ⟨x, op, by rw [hx, show k = 2 by omega]⟩ h2
      by_cases h1 : ∃ x op, s.pc x = .acquire op 1
      · obtain ⟨x, op, hx⟩ := h1
        exact ⟨_, _, .acquire hx (hfree 1 (by omega) hok1), rfl⟩
      · have hok0 : ∀ x op k, s.pc x = .acquire op k → k ≤ 0 := by
          intro x op k hx
          have := hok1 x op k hx
          rcases Nat.lt_or_ge k 1 with g | g
          · omega
          · exact absurd ⟨x, op, by rw [hx, show k = 1 by omega]⟩ h1
        rcases hall t with ⟨op, k, hp⟩ | ⟨q, hp⟩ | hp
        · have hk := hok0 t op k hp
          have : k = 0 := by omega
          subst this
          exact ⟨_, _, .acquire hp (hfree 0 (by omega) hok0), rfl⟩
        · refine ⟨_, _, .acquireRead hp ?_, rfl⟩
          cases hw : (s.locks q.lock).writer with
          | none => rfl
          | some x =>
            have hx := (h.w _ q.lock_lt x).1 hw
            rcases hall x with ⟨op, k, hp'⟩ | ⟨q', hp'⟩ | hp'
            · have := hok0 x op k hp'; rw [hp'] at hx; simp only [heldBy] at hx; omega
            · rw [hp'] at hx; simp [heldBy] at hx
            · rw [hp'] at hx; simp [heldBy] at hx
        · exact absurd hp ht

end Oaks
