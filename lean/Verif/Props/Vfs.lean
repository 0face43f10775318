import Verif.Proofs.VfsThreads

/-! # C33: the in-memory file system -/

namespace Oaks.Props
open Oaks Oaks.Spec

/-- After any history of calls, reading a URI gives the content last written and not removed since;
`exists` and `metadata` agree with it. -/
theorem C33_last_content (ops : List VfsWrite) (uri : Str) :
    ((MemFs.new.applyAll ops).getSource uri).map Prod.fst = lastContent uri ops ∧
      ((MemFs.new.applyAll ops).exist uri = (lastContent uri ops).isSome) ∧
      (MemFs.new.applyAll ops).metadataLen uri = (lastContent uri ops).map blen := by
  have h := content_spec ops uri
  rw [← h]
  unfold MemFs.getSource MemFs.exist MemFs.metadataLen
  cases (MemFs.new.applyAll ops).files uri <;> simp

/-- In a history with at most `2^32` creations, files and ids correspond one to one, and the source
of a file carries the id of its URI. -/
theorem C33_one_to_one (ops : List VfsWrite) (h : creations ops ≤ 2 ^ 32) :
    (∀ uri id, (MemFs.new.applyAll ops).getId uri = some id ↔ (MemFs.new.applyAll ops).getUri id = some uri) ∧
    (∀ uri, (MemFs.new.applyAll ops).getId uri = ((MemFs.new.applyAll ops).getSource uri).map Prod.snd) ∧
    (∀ uri, ((MemFs.new.applyAll ops).getId uri).isSome = (lastContent uri ops).isSome) := by
  have g := good_spec ops h
  refine ⟨g.inv, ?_, ?_⟩
  · intro uri
    unfold MemFs.getId MemFs.getSource
    rw [← g.same uri]
    cases (MemFs.new.applyAll ops).files uri <;> rfl
  · intro uri
    unfold MemFs.getId
    rw [← content_spec ops uri, ← g.same uri]
    cases (MemFs.new.applyAll ops).files uri <;> rfl

/-- An id is stable: as long as a file is not removed it keeps its id (any number of creations). -/
theorem C33_stable (xs ys : List VfsWrite) (uri : Str) (id : Nat)
    (h : (MemFs.new.applyAll xs).getId uri = some id) (hr : VfsWrite.remove uri ∉ ys) :
    (MemFs.new.applyAll (xs ++ ys)).getId uri = some id := by
  rw [show MemFs.new.applyAll (xs ++ ys) = (MemFs.new.applyAll xs).applyAll ys by simp [MemFs.applyAll]]
  exact keep_id _ ys uri id h hr

/-- Within `2^32` creations an id never goes to another URI. -/
theorem C33_never_reassigned (xs ys : List VfsWrite) (h : creations (xs ++ ys) ≤ 2 ^ 32)
    (u v : Str) (id : Nat) (h1 : (MemFs.new.applyAll xs).getId u = some id)
    (h2 : (MemFs.new.applyAll (xs ++ ys)).getId v = some id) : u = v := by
  have g := good_spec xs (by have := creations_le xs ys; omega)
  have hv := later_ids xs ys h v id h2 (g.small u id h1)
  have a := (g.inv u id).1 h1
  have b := (g.inv v id).1 hv
  rw [a] at b; exact Option.some.inj b

/-- Within `2^32` creations the id of a removed file resolves to nothing, for ever, even when the
file is created again. -/
theorem C33_removed (xs ys : List VfsWrite) (u : Str) (id : Nat)
    (h : creations (xs ++ [.remove u] ++ ys) ≤ 2 ^ 32)
    (h1 : (MemFs.new.applyAll xs).getId u = some id) :
    (MemFs.new.applyAll (xs ++ [.remove u] ++ ys)).getUri id = none := by
  cases hu : (MemFs.new.applyAll (xs ++ [.remove u] ++ ys)).getUri id with
  | none => rfl
  | some v =>
    exfalso
    have g := good_spec _ h
    have hv := (g.inv v id).2 hu
    have hle := creations_le xs [VfsWrite.remove u]
    have hle2 := creations_le (xs ++ [VfsWrite.remove u]) ys
    have gx := good_spec xs (by omega)
    have hid : id < creations (xs ++ [VfsWrite.remove u]) := by
      have := gx.small u id h1; omega
    have hv' := later_ids _ ys h v id hv hid
    have hvx := later_ids xs [.remove u] (by omega) v id hv' (gx.small u id h1)
    have : u = v := by
      have a := (gx.inv u id).1 h1
      have b := (gx.inv v id).1 hvx
      rw [a] at b; exact Option.some.inj b
    subst this
    have g' := good_spec (xs ++ [VfsWrite.remove u]) (by omega)
    have hc := content_spec (xs ++ [VfsWrite.remove u]) u
    rw [lastContent_snoc] at hc
    simp at hc
    have := g'.same u
    rw [hv', hc] at this
    cases this

theorem filler (m : MemFs) (u c : Str) (n : Nat) (h1 : m.uriToId u = none) (h2 : m.nextId < 2 ^ 32) :
    let m' := m.applyAll (List.replicate n [VfsWrite.write u c, .remove u]).flatten
    m'.nextId = (m.nextId + n) % 2 ^ 32 ∧ m'.uriToId = m.uriToId := by
  induction n generalizing m with
  | zero => exact ⟨(Nat.mod_eq_of_lt h2).symm, rfl⟩
  | succ n ih =>
    have hstep : (m.write u c).remove u =
        { files := (m.files.insert u ⟨c, m.nextId⟩).remove u,
          ids := (m.ids.insert m.nextId u).remove m.nextId,
          uriToId := (m.uriToId.insert u m.nextId).remove u,
          nextId := (m.nextId + 1) % 2 ^ 32 } := by
      simp [MemFs.write, h1, MemFs.remove]
    have huri : (m.uriToId.insert u m.nextId).remove u = m.uriToId := by
      funext x
      simp only [FMap.remove_get, FMap.insert_get]
      by_cases hx : x = u
      · simp [hx, h1]
      · simp [hx]
    have := ih ((m.write u c).remove u) (by rw [hstep]; simp) (by rw [hstep]; exact Nat.mod_lt _ (by decide))
    rw [List.replicate_succ, List.flatten_cons]
    show (((m.write u c).remove u).applyAll _).nextId = _ ∧ (((m.write u c).remove u).applyAll _).uriToId = _
    refine ⟨this.1.trans ?_, this.2.trans (by rw [hstep]; exact huri)⟩
    rw [hstep]
    simp only [Nat.mod_add_mod]
    congr 1
    omega

/-- The bound is needed: the counter wraps. After `2^32` creations two existing files can have the
same id, and the id of the older one resolves to the newer one. -/
theorem C33_wraps : ∃ ops a b, a ≠ b ∧ (MemFs.new.applyAll ops).getId a = some 0 ∧
    (MemFs.new.applyAll ops).getId b = some 0 ∧ (MemFs.new.applyAll ops).getUri 0 = some b := by
  obtain ⟨n, hn⟩ : ∃ n : Nat, n + 1 = 2 ^ 32 := ⟨4294967295, rfl⟩
  obtain ⟨f1, f2⟩ := filler (MemFs.new.applyAll [.write ['a'] []]) ['x'] [] n (by decide) (by decide)
  refine ⟨[.write ['a'] []] ++ (List.replicate n [VfsWrite.write ['x'] [], .remove ['x']]).flatten ++
      [.write ['b'] []], ['a'], ['b'], by decide, ?_⟩
  rw [applyAll_snoc, show MemFs.new.applyAll ([.write ['a'] []] ++
      (List.replicate n [VfsWrite.write ['x'] [], .remove ['x']]).flatten) =
      (MemFs.new.applyAll [.write ['a'] []]).applyAll
        (List.replicate n [VfsWrite.write ['x'] [], .remove ['x']]).flatten from List.foldl_append]
  generalize MemFs.applyAll (MemFs.new.applyAll [.write ['a'] []]) _ = m at f1 f2
  have hb : m.uriToId ['b'] = none := by rw [f2]; decide
  have h1 : (MemFs.new.applyAll [.write ['a'] []]).nextId = 1 := by decide
  have hn : m.nextId = 0 := by rw [f1, h1, Nat.add_comm, hn, Nat.mod_self]
  have ha : m.uriToId ['a'] = some 0 := by rw [f2]; decide
  simp only [MemFs.apply, MemFs.write, hb, hn, MemFs.getId, MemFs.getUri]
  refine ⟨?_, by simp, by simp⟩
  rw [FMap.insert_ne _ _ (by decide)]; exact ha

/-- Threads: in every interleaving of any number of threads, each call does its work at one moment
between its call and its return; every reading call answers from the file system left by the
writing calls that worked before it, in that order; when no call is inside, the maps are those of
that sequential history. So everything above holds of concurrent runs. -/
theorem C33_linearizable {tr : List VfsEvent} {s : VfsSys} (h : VfsExec tr s) :
    Answers MemFs.new tr ∧ (∀ t, CallByCall (tr.filter fun e => thread e == t)) ∧
      ((∀ t, s.pc t = .idle) → s.mem = MemFs.new.applyAll (worked tr)) := by
  obtain ⟨_, h2, h3, h4⟩ := exec_inv h
  refine ⟨h3, ?_, ?_⟩
  · intro t
    obtain ⟨es, g1, g2⟩ := h4 t
    rw [g2]
    exact g1.callByCall (pending_callByCall t _)
  · intro hall
    exact h2.rest (fun t => by rw [hall t]; rfl)

/-- Threads never deadlock: while some call is unfinished, some unfinished call can go on. -/
theorem C33_no_deadlock {tr : List VfsEvent} {s : VfsSys} (h : VfsExec tr s) {t : Nat}
    (ht : s.pc t ≠ .idle) : ∃ e s', VfsStep s e s' ∧ isCall e = false :=
  no_deadlock (exec_inv h).1 ht

/-! Non-vacuity. -/

example : (MemFs.new.applyAll [.write "a".toList "1".toList, .write "b".toList "2".toList,
    .write "a".toList "3".toList, .remove "b".toList, .write "b".toList []]).getSource "b".toList =
      some ([], 2) := by decide
example : creations [.write "a".toList "1".toList, .write "b".toList "2".toList,
    .write "a".toList "3".toList, .remove "b".toList, .write "b".toList []] = 3 := by decide

/-- Thread 2 wants to write while thread 1 is inside. -/
example : ∃ s, VfsExec [.callWrite 1 (.write ['a'] []), .callWrite 2 (.remove ['a'])] s ∧
    s.pc 1 = .acquire (.write ['a'] []) 1 ∧ s.pc 2 = .acquire (.remove ['a']) 0 := by
  have e0 := VfsExec.nil
  have e1 := e0.step (.callWrite (t := 1) (op := .write ['a'] []) rfl)
  have e2 := e1.step (.acquire (t := 1) (op := .write ['a'] []) (k := 0) rfl rfl)
  have e3 := e2.step (.callWrite (t := 2) (op := .remove ['a']) rfl)
  exact ⟨_, e3, rfl, rfl⟩

end Oaks.Props
