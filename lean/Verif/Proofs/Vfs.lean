import Verif.Spec.Vfs

/-! The in-memory file system, one call at a time. -/

namespace Oaks
open Spec

theorem lastContent_snoc (uri : Str) (ops : List VfsWrite) (op : VfsWrite) :
    lastContent uri (ops ++ [op]) = match op with
      | .write u c => if u = uri then some c else lastContent uri ops
      | .remove u => if u = uri then none else lastContent uri ops := by
  simp [lastContent]
  cases op <;> rfl

theorem creationsAfter_append (b xs ys : List VfsWrite) :
    creationsAfter b (xs ++ ys) = creationsAfter b xs + creationsAfter (b ++ xs) ys := by
  induction xs generalizing b with
  | nil => simp [creationsAfter]
  | cons x xs ih => simp only [List.cons_append, creationsAfter, ih]; simp; omega

theorem creations_snoc (ops : List VfsWrite) (op : VfsWrite) :
    creations (ops ++ [op]) = creations ops + if creates ops op then 1 else 0 := by
  simp [creations, creationsAfter_append, creationsAfter]

theorem creations_le (xs ys : List VfsWrite) : creations xs ≤ creations (xs ++ ys) := by
  simp [creations, creationsAfter_append]

theorem applyAll_snoc (m : MemFs) (ops : List VfsWrite) (op : VfsWrite) :
    m.applyAll (ops ++ [op]) = (m.applyAll ops).apply op := by simp [MemFs.applyAll]

theorem snoc_induction {α} {P : List α → Prop} (nil : P [])
    (snoc : ∀ xs x, P xs → P (xs ++ [x])) (l : List α) : P l := by
  suffices h : ∀ l : List α, P l.reverse by simpa using h l.reverse
  intro l
  induction l with
  | nil => exact nil
  | cons x xs ih => rw [List.reverse_cons]; exact snoc _ _ ih

theorem content_spec (ops : List VfsWrite) (uri : Str) :
    ((MemFs.new.applyAll ops).files uri).map FileEntry.content = lastContent uri ops := by
  induction ops using snoc_induction with
  | nil => rfl
  | snoc ops op ih =>
    rw [applyAll_snoc, lastContent_snoc]
    cases op with
    | write u c =>
      simp only [MemFs.apply, MemFs.write]
      split <;> simp only [FMap.insert_get] <;> by_cases h : uri = u
      · subst h; simp
      · rw [if_neg h, if_neg (Ne.symm h), ih]
      · subst h; simp
      · rw [if_neg h, if_neg (Ne.symm h), ih]
    | remove u =>
      simp only [MemFs.apply, MemFs.remove]
      split
      · simp only [FMap.remove_get]
        by_cases h : uri = u
        · subst h; simp
        · rw [if_neg h, if_neg (Ne.symm h), ih]
      · next hn =>
        by_cases h : uri = u
        · subst h; simp [hn]
        · rw [if_neg (Ne.symm h), ih]

/-- What holds after `n` creations. -/
structure MemFs.Good (m : MemFs) (n : Nat) : Prop where
  next : m.nextId = n % 2 ^ 32
  small : ∀ u i, m.uriToId u = some i → i < n
  inv : ∀ u i, m.uriToId u = some i ↔ m.ids i = some u
  same : ∀ u, (m.files u).map FileEntry.id = m.uriToId u

theorem good_spec (ops : List VfsWrite) (h : creations ops ≤ 2 ^ 32) :
    (MemFs.new.applyAll ops).Good (creations ops) := by
  induction ops using snoc_induction with
  | nil => exact ⟨rfl, by simp [MemFs.applyAll, MemFs.new], by simp [MemFs.applyAll, MemFs.new], fun _ => rfl⟩
  | snoc ops op ih =>
    rw [creations_snoc] at h ⊢
    have g := ih (by omega)
    have hc := content_spec ops
    rw [applyAll_snoc]
    generalize MemFs.new.applyAll ops = m at g hc
    cases op with
    | write u c =>
      have hcr : creates ops (.write u c) = (m.uriToId u).isNone := by
        simp only [creates]; rw [← hc u, ← g.same u]; cases m.files u <;> rfl
      rw [hcr] at h ⊢
      simp only [MemFs.apply, MemFs.write]
      cases hu : m.uriToId u with
      | some i =>
        refine ⟨by simpa using g.next, by simpa using g.small, g.inv, ?_⟩
        intro v
        simp only [FMap.insert_get]
        by_cases hv : v = u
        · subst hv; simp [hu]
        · rw [if_neg hv]; exact g.same v
      | none =>
        rw [hu] at h
        simp only [Option.isNone_none, if_true] at h ⊢
        have hn : m.nextId = creations ops := by rw [g.next]; exact Nat.mod_eq_of_lt (by omega)
        have hfree : m.ids m.nextId = none := by
          cases hi : m.ids m.nextId with
          | none => rfl
          | some v => have := g.small v _ ((g.inv v _).2 hi); omega
        refine ⟨?_, ?_, ?_, ?_⟩
        · simp only [hn]
        · intro v i hi
          simp only [FMap.insert_get] at hi
          by_cases hv : v = u
          · rw [if_pos hv] at hi; cases hi; omega
          · rw [if_neg hv] at hi; have := g.small v i hi; omega
        · intro v i
          simp only [FMap.insert_get]
          by_cases hv : v = u <;> by_cases hi : i = m.nextId
          · simp [hv, hi]
          · subst hv
            rw [if_pos rfl, if_neg hi]
            constructor
            · intro h'; cases h'; exact absurd rfl hi
            · intro h'; rw [(g.inv _ _).2 h'] at hu; cases hu
          · subst hi
            rw [if_neg hv, if_pos rfl]
            constructor
            · intro h'; have := g.small _ _ h'; omega
            · intro h'; cases h'; exact absurd rfl hv
          · rw [if_neg hv, if_neg hi]; exact g.inv v i
        · intro v
          simp only [FMap.insert_get]
          by_cases hv : v = u
          · simp [hv]
          · rw [if_neg hv, if_neg hv]; exact g.same v
    | remove u =>
      simp only [creates, Bool.false_eq_true, if_false, Nat.add_zero, MemFs.apply, MemFs.remove]
      cases hf : m.files u with
      | none => exact g
      | some e =>
        have hue : m.uriToId u = some e.id := by rw [← g.same u, hf]; rfl
        refine ⟨g.next, ?_, ?_, ?_⟩
        · intro v i hi
          simp only [FMap.remove_get] at hi
          by_cases hv : v = u
          · rw [if_pos hv] at hi; cases hi
          · rw [if_neg hv] at hi; exact g.small v i hi
        · intro v i
          simp only [FMap.remove_get]
          by_cases hv : v = u <;> by_cases hi : i = e.id
          · simp [hv, hi]
          · subst hv
            rw [if_pos rfl, if_neg hi]
            constructor
            · intro h'; cases h'
            · intro h'; rw [(g.inv _ _).2 h'] at hue; cases hue; exact absurd rfl hi
          · subst hi
            rw [if_neg hv, if_pos rfl]
            constructor
            · intro h'
              have := (g.inv _ _).1 h'
              rw [(g.inv _ _).1 hue] at this; cases this; exact absurd rfl hv
            · intro h'; cases h'
          · rw [if_neg hv, if_neg hi]; exact g.inv v i
        · intro v
          simp only [FMap.remove_get]
          by_cases hv : v = u
          · simp [hv]
          · rw [if_neg hv, if_neg hv]; exact g.same v

/-- Ids given out later are at least the number of creations so far. -/
theorem later_ids (xs ys : List VfsWrite) (h : creations (xs ++ ys) ≤ 2 ^ 32) (u : Str) (i : Nat)
    (hu : (MemFs.new.applyAll (xs ++ ys)).uriToId u = some i) (hi : i < creations xs) :
    (MemFs.new.applyAll xs).uriToId u = some i := by
  induction ys using snoc_induction with
  | nil => simpa using hu
  | snoc ys op ih =>
    rw [← List.append_assoc] at h hu
    have hle : creations (xs ++ ys) ≤ creations (xs ++ ys ++ [op]) := creations_le _ _
    have g := good_spec (xs ++ ys) (by omega)
    have hcr := creations_snoc (xs ++ ys) op
    have hc := content_spec (xs ++ ys)
    rw [applyAll_snoc] at hu
    have ih := ih (by omega)
    generalize hm : MemFs.new.applyAll (xs ++ ys) = m at hu g ih hc
    have hxs := creations_le xs ys
    cases op with
    | write v c =>
      simp only [MemFs.apply, MemFs.write] at hu
      cases hv : m.uriToId v with
      | some j => rw [hv] at hu; exact ih hu
      | none =>
        rw [hv] at hu
        simp only [FMap.insert_get] at hu
        split at hu
        · cases hu
          have hcrs : creates (xs ++ ys) (.write v c) = true := by
            simp only [creates]; rw [← hc v]
            have := g.same v
            rw [hv] at this
            cases hf : m.files v with
            | none => rfl
            | some e => rw [hf] at this; cases this
          rw [hcrs] at hcr
          simp only [if_true] at hcr
          rw [g.next, Nat.mod_eq_of_lt (by omega)] at hi
          omega
        · exact ih hu
    | remove v =>
      simp only [MemFs.apply, MemFs.remove] at hu
      split at hu
      · simp only [FMap.remove_get] at hu
        split at hu
        · cases hu
        · exact ih hu
      · exact ih hu

/-- A write or a removal of another file leaves the id of `u` alone. -/
theorem keep_id (m : MemFs) (ops : List VfsWrite) (u : Str) (i : Nat) (hu : m.uriToId u = some i)
    (hr : VfsWrite.remove u ∉ ops) : (m.applyAll ops).uriToId u = some i := by
  induction ops generalizing m with
  | nil => exact hu
  | cons op ops ih =>
    simp only [List.mem_cons, not_or] at hr
    refine ih (m.apply op) ?_ hr.2
    cases op with
    | write v c =>
      simp only [MemFs.apply, MemFs.write]
      split
      · exact hu
      · next hn =>
        simp only [FMap.insert_get]
        by_cases hv : u = v
        · subst hv; rw [hu] at hn; cases hn
        · rw [if_neg hv]; exact hu
    | remove v =>
      simp only [MemFs.apply, MemFs.remove]
      split
      · simp only [FMap.remove_get]
        by_cases hv : u = v
        · exact absurd (by rw [hv]) hr.1
        · rw [if_neg hv]; exact hu
      · exact hu

end Oaks
