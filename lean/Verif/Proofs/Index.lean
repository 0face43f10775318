import Verif.Spec.Index
import Verif.Proofs.Visit
import Verif.Proofs.Vfs

/-! References, symbols and the workspace index. -/

namespace Oaks
open Spec

/-! ### references -/

theorem refFold (isName : Nat → Bool) (name source : Str) (ls : List (Nat × Nat × Nat)) (refs : List (Nat × Nat))
    (h : ∀ l ∈ ls, isName l.1 = true → (strGet source l.2.1 l.2.2).isSome) :
    ls.foldlM (fun s l => refToken isName name source l s) refs =
      .ok (refs ++ (ls.filter fun l => isName l.1 && decide (strGet source l.2.1 l.2.2 = some name)).map (·.2)) := by
  induction ls generalizing refs with
  | nil => simp
  | cons l ls ih =>
    have ih' := fun r => ih r (fun l hl => h l (List.mem_cons_of_mem _ hl))
    rw [List.foldlM_cons, List.filter_cons]
    by_cases hn : isName l.1 = true
    · have := h l (List.mem_cons_self ..) hn
      cases hg : strGet source l.2.1 l.2.2 with
      | none => simp [hg] at this
      | some t =>
        by_cases ht : t = name
        · have hr : refToken isName name source l refs = .ok (refs ++ [(l.2.1, l.2.2)]) := by
            simp [refToken, hn, hg, ht]
          rw [hr, run_bind_ok, ih']
          simp [hn, ht]
        · have hr : refToken isName name source l refs = .ok refs := by
            simp [refToken, hn, hg, ht]
          rw [hr, run_bind_ok, ih']
          simp [ht]
    · have hr : refToken isName name source l refs = .ok refs := by
        simp [refToken, hn]
      rw [hr, run_bind_ok, ih']
      simp [hn]

theorem refFold_panic (isName : Nat → Bool) (name source : Str) (ls : List (Nat × Nat × Nat)) (refs : List (Nat × Nat))
    (h : ∃ l ∈ ls, isName l.1 = true ∧ strGet source l.2.1 l.2.2 = none) :
    ls.foldlM (fun s l => refToken isName name source l s) refs = .error .panic := by
  induction ls generalizing refs with
  | nil => simp at h
  | cons l ls ih =>
    rw [List.foldlM_cons]
    by_cases hl : isName l.1 = true ∧ strGet source l.2.1 l.2.2 = none
    · simp [refToken, hl.1, hl.2, run_bind_error]
    · have h' : ∃ l ∈ ls, isName l.1 = true ∧ strGet source l.2.1 l.2.2 = none := by
        obtain ⟨x, hx, hx2⟩ := h
        rcases List.mem_cons.1 hx with rfl | hx
        · exact absurd hx2 hl
        · exact ⟨x, hx, hx2⟩
      have hok : ∃ r, refToken isName name source l refs = .ok r := by
        unfold refToken
        by_cases hn : isName l.1 = true
        · rw [if_pos hn]
          cases hg : strGet source l.2.1 l.2.2 with
          | none => exact absurd ⟨hn, hg⟩ hl
          | some t => by_cases ht : t = name <;> simp [ht]
        · simp [hn]
      obtain ⟨r, hr⟩ := hok
      rw [hr, run_bind_ok]
      exact ih r h'

/-! ### symbols -/

theorem firstName_loop (isName : Nat → Bool) (src : Source) (text : Str) (hs : Lawful src text) (cs : List Green)
    (hb : ∀ c ∈ cs, Built c) (o : Nat)
    (hn : ∀ l ∈ place o (leavesOfList cs), isName l.1 = true → (strGet text l.2.1 l.2.2).isSome) :
    firstNameLoop isName src ((placeRow o cs).map (fun x => Red.ofGreen x.1 x.2)) =
      .ok ((firstName isName o cs).map fun x => (strGet text x.1 x.2).getD []) := by
  induction cs generalizing o with
  | nil => rfl
  | cons c cs ih =>
    have hc := (hb c (List.mem_cons_self ..)).len_eq.1
    have hb' : ∀ c ∈ cs, Built c := fun c hc => hb c (List.mem_cons_of_mem _ hc)
    have hn' : ∀ l ∈ place (o + c.len) (leavesOfList cs), isName l.1 = true → (strGet text l.2.1 l.2.2).isSome := by
      intro l hl
      refine hn l ?_
      rw [leavesOfList, place_append, List.mem_append]
      right
      rw [hc] at hl
      exact hl
    cases c with
    | leaf k n m =>
      simp only [placeRow, List.map_cons, Red.ofGreen, firstNameLoop, firstName]
      by_cases hk : isName k = true
      · rw [if_pos hk, if_pos hk]
        have := hn (k, o, o + n) (by simp [leavesOfList, leavesOf, place]) hk
        obtain ⟨t, ht⟩ := Option.isSome_iff_exists.1 this
        simp only [] at ht
        obtain ⟨l, r, e1, e2, e3⟩ := strGet_eq_some.1 ht
        rw [hs.textIn _ _ t ⟨l, r, e1, e2, e3⟩]
        simp [run_bind_ok, ht]
      · rw [if_neg hk, if_neg hk]
        exact ih hb' _ hn'
    | node k n cs' =>
      simp only [placeRow, List.map_cons, Red.ofGreen, firstNameLoop, firstName]
      rw [← hc]
      exact ih hb' _ hn'

theorem symbols_row (R : Roles) (src : Source) (text uri : Str) (fuel : Nat) (container : Option Str)
    (around : List (Green × Nat)) (cs : List Green) (hb : ∀ c ∈ cs, Built c)
    (ih : ∀ c ∈ cs, ∀ (k n : Nat) (cs' : List Green) (o : Nat) (syms : List SymInfo), c = .node k n cs' →
      (∀ l ∈ place o (leavesOf c), R.isName l.1 = true → (strGet text l.2.1 l.2.2).isSome) →
      collectSymbols R src uri fuel ⟨k, n, cs', o⟩ container syms =
        .ok (syms ++ (enclosed around o c).filterMap (symbolOf R text uri)))
    (o : Nat) (syms : List SymInfo)
    (hn : ∀ l ∈ place o (leavesOfList cs), R.isName l.1 = true → (strGet text l.2.1 l.2.2).isSome) :
    ((placeRow o cs).map (fun x => Red.ofGreen x.1 x.2)).foldlM
      (collectChild fun n s => collectSymbols R src uri fuel n container s) syms =
      .ok (syms ++ (enclosedList around o cs).filterMap (symbolOf R text uri)) := by
  induction cs generalizing o syms with
  | nil => simp [placeRow, enclosedList]
  | cons c cs ihc =>
    have hc := (hb c (List.mem_cons_self ..)).len_eq.1
    have hb' : ∀ c ∈ cs, Built c := fun c hc => hb c (List.mem_cons_of_mem _ hc)
    have hn1 : ∀ l ∈ place o (leavesOf c), R.isName l.1 = true → (strGet text l.2.1 l.2.2).isSome := by
      intro l hl
      refine hn l ?_
      rw [leavesOfList, place_append, List.mem_append]
      left; exact hl
    have hn' : ∀ l ∈ place (o + c.len) (leavesOfList cs), R.isName l.1 = true → (strGet text l.2.1 l.2.2).isSome := by
      intro l hl
      refine hn l ?_
      rw [leavesOfList, place_append, List.mem_append]
      right
      rw [hc] at hl
      exact hl
    have key := fun s => ihc hb' (fun c hc => ih c (List.mem_cons_of_mem _ hc)) (o + c.len) s hn'
    simp only [placeRow, List.map_cons, List.foldlM_cons, enclosedList, List.filterMap_append]
    have h1 : collectChild (fun n s => collectSymbols R src uri fuel n container s) syms (Red.ofGreen c o) =
        .ok (syms ++ (enclosed around o c).filterMap (symbolOf R text uri)) := by
      cases c with
      | leaf k n m => simp [Red.ofGreen, collectChild, enclosed, symbolOf, isDefinition]
      | node k n cs' => exact ih _ (List.mem_cons_self ..) k n cs' o syms rfl hn1
    rw [h1, run_bind_ok, key, hc, List.append_assoc]

theorem symbols_ok (R : Roles) (src : Source) (text uri : Str) (hs : Lawful src text) {g : Green} (hg : Built g) :
    ∀ (k n : Nat) (cs : List Green) (o fuel : Nat) (around : List (Green × Nat)) (container : Option Str)
      (syms : List SymInfo), g = .node k n cs → sizeOf' g ≤ fuel →
      container = (around.find? fun y => isDefinition R y.1).map (nameOf R text) →
      (∀ l ∈ place o (leavesOf g), R.isName l.1 = true → (strGet text l.2.1 l.2.2).isSome) →
      collectSymbols R src uri fuel ⟨k, n, cs, o⟩ container syms =
        .ok (syms ++ (enclosed around o g).filterMap (symbolOf R text uri)) := by
  refine Built.rec' (P := fun g => ∀ (k n : Nat) (cs : List Green) (o fuel : Nat) (around : List (Green × Nat))
      (container : Option Str) (syms : List SymInfo), g = .node k n cs → sizeOf' g ≤ fuel →
      container = (around.find? fun y => isDefinition R y.1).map (nameOf R text) →
      (∀ l ∈ place o (leavesOf g), R.isName l.1 = true → (strGet text l.2.1 l.2.2).isSome) →
      collectSymbols R src uri fuel ⟨k, n, cs, o⟩ container syms =
        .ok (syms ++ (enclosed around o g).filterMap (symbolOf R text uri))) ?_ ?_ hg
  · intro k n m _ k' n' cs' o fuel around container syms he; cases he
  · intro k cs hb ih hlt k' n' cs' o fuel around container syms he hf hcont hn
    cases he
    cases fuel with
    | zero => simp [sizeOf'] at hf
    | succ fuel =>
      have hc := childIter_ok ⟨k, lenSum cs, cs, o⟩
      simp only [] at hc
      have hrow := fun cont around hcont' syms => symbols_row R src text uri fuel cont around cs hb (by
        intro c hc k2 n2 cs2 o2 syms2 he hn2
        have := sizeOf'_le_list hc
        refine ih c hc k2 n2 cs2 o2 fuel around cont syms2 he ?_ hcont' hn2
        simp only [sizeOf'] at hf
        omega) o syms (by rw [leavesOf] at hn; exact hn)
      have hlen : lenSum cs = bytesBelow (.node k (lenSum cs) cs) := by
        have := (Built.node hb (mkNode_ok.2 ⟨rfl, hlt⟩) : Built (.node k (lenSum cs) cs)).len_eq.1
        simpa [Green.len] using this
      unfold collectSymbols
      by_cases hd : R.isDef k = true
      · rw [if_pos hd]
        have hname : defName R src ⟨k, lenSum cs, cs, o⟩ = .ok (nameOf R text (.node k (lenSum cs) cs, o)) := by
          unfold defName
          simp only []
          rw [hc, run_bind_ok, firstName_loop R.isName src text hs cs hb o (by rw [leavesOf] at hn; exact hn), run_bind_ok]
          simp only [nameOf]
          cases firstName R.isName o cs with
          | none => rfl
          | some x => rfl
        rw [hname, run_bind_ok]
        simp only []
        rw [hc, run_bind_ok, hrow _ ((.node k (lenSum cs) cs, o) :: around) (by simp [isDefinition, hd]) _]
        have h1 : symbolOf R text uri (around, .node k (lenSum cs) cs, o) =
            some ⟨nameOf R text (.node k (lenSum cs) cs, o), uri, o, o + lenSum cs, container⟩ := by
          simp only [symbolOf, isDefinition, hd, if_true]
          rw [← hlen, hcont]
          rfl
        rw [enclosed, List.filterMap_cons, h1]
        simp [RedNode.span]
      · rw [if_neg hd]
        simp only []
        rw [hc, run_bind_ok, hrow container ((.node k (lenSum cs) cs, o) :: around) (by simp [isDefinition, hd, hcont]) _]
        have h1 : symbolOf R text uri (around, .node k (lenSum cs) cs, o) = none := by
          simp [symbolOf, isDefinition, hd]
        rw [enclosed, List.filterMap_cons, h1]

theorem enclosed_preorder (g : Green) : ∀ around o, (enclosed around o g).map (·.2) = preorder o g := by
  refine Green.rec (motive_1 := fun g => ∀ around o, (enclosed around o g).map (·.2) = preorder o g)
    (motive_2 := fun gs => ∀ around o, (enclosedList around o gs).map (·.2) = preorderList o gs) ?_ ?_ ?_ ?_ g
  · intro k n cs ih around o; simp [enclosed, preorder, ih]
  · intro k n m around o; simp [enclosed, preorder]
  · intro around o; rfl
  · intro g gs h1 h2 around o; simp [enclosedList, preorderList, h1, h2]

/-! ### the workspace index -/

theorem dmGet_remove {V : Type} (m : List (Str × V)) (k x : Str) :
    dmGet (dmRemove m k) x = if x = k then none else dmGet m x := by
  unfold dmGet dmRemove
  induction m with
  | nil => simp
  | cons a m ih =>
    by_cases h1 : a.1 = k
    · simp only [List.filter_cons, bne_iff_ne, ne_eq, h1, not_true, if_false, ih, List.find?_cons]
      by_cases h2 : x = k
      · simp [h2]
      · have : (k == x) = false := by simpa using fun e => h2 e.symm
        simp [h2, this]
    · simp only [List.filter_cons, bne_iff_ne, ne_eq, h1, not_false_iff, if_true, List.find?_cons]
      by_cases h2 : a.1 = x
      · subst h2; simp [h1]
      · have : (a.1 == x) = false := by simpa using h2
        simp only [this]
        exact ih

theorem dmGet_insert {V : Type} (m : List (Str × V)) (k x : Str) (v : V) :
    dmGet (dmInsert m k v) x = if x = k then some v else dmGet m x := by
  have h := dmGet_remove m k x
  unfold dmInsert
  unfold dmGet at h ⊢
  rw [List.find?_append, Option.map_or, h]
  by_cases hx : x = k
  · subst hx; simp
  · have : (k == x) = false := by simpa using fun e => hx e.symm
    simp [hx, this]

/-- Distinct keys. -/
def DistinctKeys {V : Type} (m : List (Str × V)) : Prop := (m.map (·.1)).Nodup

theorem DistinctKeys.remove {V : Type} {m : List (Str × V)} (h : DistinctKeys m) (k : Str) : DistinctKeys (dmRemove m k) := by
  unfold DistinctKeys dmRemove at *
  exact List.Nodup.sublist (List.Sublist.map _ List.filter_sublist) h

theorem DistinctKeys.insert {V : Type} {m : List (Str × V)} (h : DistinctKeys m) (k : Str) (v : V) :
    DistinctKeys (dmInsert m k v) := by
  have h1 := h.remove k
  unfold DistinctKeys dmInsert at *
  rw [List.map_append, List.nodup_append]
  refine ⟨h1, by simp, ?_⟩
  intro a ha b hb
  simp only [List.map_cons, List.map_nil, List.mem_singleton] at hb
  obtain ⟨y, hy, rfl⟩ := List.mem_map.1 ha
  have := (List.mem_filter.1 hy).2
  subst hb
  simpa using this

theorem DistinctKeys.foldRemove {old : List SymInfo} {q : List (Str × SymInfo)} (h : DistinctKeys q) :
    DistinctKeys (old.foldl (fun q s => dmRemove q (qualifiedName s)) q) := by
  induction old generalizing q with
  | nil => exact h
  | cons s old ih => exact ih (h.remove _)

theorem DistinctKeys.foldInsert {new : List SymInfo} {q : List (Str × SymInfo)} (h : DistinctKeys q) :
    DistinctKeys (new.foldl (fun q s => dmInsert q (qualifiedName s) s) q) := by
  induction new generalizing q with
  | nil => exact h
  | cons s new ih => exact ih (h.insert _ _)

theorem foldRemove_get (old : List SymInfo) (q : List (Str × SymInfo)) (f : Str) :
    dmGet (old.foldl (fun q s => dmRemove q (qualifiedName s)) q) f =
      if (old.any fun s => qualifiedName s = f) then none else dmGet q f := by
  induction old generalizing q with
  | nil => simp
  | cons s old ih =>
    rw [List.foldl_cons, ih, dmGet_remove]
    by_cases h : qualifiedName s = f
    · simp [h]
    · have : f ≠ qualifiedName s := fun e => h e.symm
      simp [h, this]

theorem foldInsert_get (new : List SymInfo) (q : List (Str × SymInfo)) (f : Str) :
    dmGet (new.foldl (fun q s => dmInsert q (qualifiedName s) s) q) f =
      (new.reverse.find? fun s => qualifiedName s = f).or (dmGet q f) := by
  induction new generalizing q with
  | nil => simp
  | cons s new ih =>
    rw [List.foldl_cons, ih, dmGet_insert, List.reverse_cons, List.find?_append, Option.or_assoc]
    congr 1
    by_cases h : qualifiedName s = f
    · simp [h]
    · have : f ≠ qualifiedName s := fun e => h e.symm
      simp [h, this]

theorem isQualified_iff (s : SymInfo) (f : Str) : IsQualified s f ↔ qualifiedName s = f := by
  unfold IsQualified qualifiedName
  cases s.container with
  | none => simp [eq_comm]
  | some c => simp [eq_comm]

theorem latest_snoc (h : SymHistory) (u : Str) (l : List SymInfo) (x : Str) :
    latest (h ++ [(u, l)]) x = if x = u then l else latest h x := by
  unfold latest
  rw [List.reverse_append, List.reverse_singleton, List.singleton_append, List.find?_cons]
  by_cases hx : x = u
  · subst hx; simp
  · have : ¬ u = x := fun e => hx e.symm
    simp [hx, this]

theorem tableAfter_snoc (h : SymHistory) (u : Str × List SymInfo) :
    tableAfter (h ++ [u]) = (tableAfter h).update u.1 u.2 := by
  simp [tableAfter]

theorem files_get (h : SymHistory) (u : Str) : (tableAfter h).queryFile u = latest h u := by
  induction h using snoc_induction with
  | nil => rfl
  | snoc h x ih =>
    rw [tableAfter_snoc, latest_snoc]
    show (dmGet (dmInsert _ _ _) u).getD [] = _
    rw [dmGet_insert, dmGet_remove]
    by_cases hu : u = x.1
    · simp [hu]
    · simp only [hu, if_false]; exact ih

/-- One update seen through `lookup`. -/
theorem lookup_update (t : SymTable) (uri : Str) (new : List SymInfo) (f : Str) :
    (t.update uri new).lookup f = (new.reverse.find? fun s => qualifiedName s = f).or
      (if ((t.queryFile uri).any fun s => qualifiedName s = f) then none else t.lookup f) := by
  unfold SymTable.lookup SymTable.update SymTable.queryFile
  simp only [foldInsert_get]
  congr 1
  cases hf : dmGet t.files uri with
  | none => simp
  | some old => simp only [foldRemove_get, Option.getD_some]

theorem lookup_sound (h : SymHistory) (f : Str) (s : SymInfo) (hl : (tableAfter h).lookup f = some s) :
    qualifiedName s = f ∧ ∃ u, s ∈ latest h u := by
  induction h using snoc_induction generalizing s with
  | nil => simp [tableAfter, SymTable.new, SymTable.lookup, dmGet] at hl
  | snoc h x ih =>
    rw [tableAfter_snoc, lookup_update, Option.or_eq_some_iff] at hl
    rcases hl with hl | ⟨_, hl⟩
    · have h1 := List.find?_some hl
      have h2 := List.mem_of_find?_eq_some hl
      refine ⟨by simpa using h1, x.1, ?_⟩
      rw [latest_snoc]; simpa using h2
    · split at hl
      · simp at hl
      · next hno =>
        obtain ⟨hq, u, hu⟩ := ih s hl
        refine ⟨hq, u, ?_⟩
        rw [latest_snoc]
        by_cases hux : u = x.1
        · subst hux
          exfalso
          apply hno
          rw [files_get, List.any_eq_true]
          exact ⟨s, hu, by simpa using hq⟩
        · simp [hux, hu]

theorem lookup_complete (h : SymHistory) (f : Str)
    (huniq : ∀ p, p <+: h → ∀ u v, (∃ s ∈ latest p u, qualifiedName s = f) → (∃ s ∈ latest p v, qualifiedName s = f) → u = v)
    (u : Str) (hu : ∃ s ∈ latest h u, qualifiedName s = f) :
    (tableAfter h).lookup f = (latest h u).reverse.find? fun s => qualifiedName s = f := by
  induction h using snoc_induction generalizing u with
  | nil => simp [latest] at hu
  | snoc h x ih =>
    have huniq' : ∀ p, p <+: h → ∀ u v, (∃ s ∈ latest p u, qualifiedName s = f) →
        (∃ s ∈ latest p v, qualifiedName s = f) → u = v := fun p hp => huniq p (hp.trans (List.prefix_append ..))
    rw [tableAfter_snoc, lookup_update, files_get, latest_snoc]
    by_cases hux : u = x.1
    · rw [if_pos hux]
      rw [latest_snoc, if_pos hux] at hu
      obtain ⟨s, hs, hq⟩ := hu
      have : (x.2.reverse.find? fun s => qualifiedName s = f).isSome := by
        rw [List.find?_isSome]
        exact ⟨s, by simpa using hs, by simpa using hq⟩
      obtain ⟨y, hy⟩ := Option.isSome_iff_exists.1 this
      rw [hy]; rfl
    · rw [if_neg hux]
      have hold : ∃ s ∈ latest h u, qualifiedName s = f := by rw [latest_snoc, if_neg hux] at hu; exact hu
      have h1 : (x.2.reverse.find? fun s => qualifiedName s = f) = none := by
        rw [List.find?_eq_none]
        intro s hs hq
        exact hux (huniq _ (List.prefix_refl _) u x.1 hu ⟨s, by rw [latest_snoc]; simpa using hs, by simpa using hq⟩)
      have h2 : ((latest h x.1).any fun s => qualifiedName s = f) = false := by
        rw [List.any_eq_false]
        intro s hs hq
        exact hux (huniq' h (List.prefix_refl _) u x.1 hold ⟨s, hs, by simpa using hq⟩)
      rw [h1, h2]
      simpa using ih huniq' u hold

theorem strContains_iff (q s : Str) : strContains q s = true ↔ q <:+: s := by
  induction s with
  | nil => simp [strContains]
  | cons c s ih =>
    rw [strContains, Bool.or_eq_true, ih, List.isPrefixOf_iff_prefix, List.infix_cons_iff]

theorem qualified_distinct (h : SymHistory) : DistinctKeys (tableAfter h).qualified := by
  induction h using snoc_induction with
  | nil => simp [tableAfter, SymTable.new, DistinctKeys]
  | snoc h x ih =>
    rw [tableAfter_snoc]
    unfold SymTable.update
    simp only []
    apply DistinctKeys.foldInsert
    split
    · exact DistinctKeys.foldRemove ih
    · exact ih

theorem dmGet_iff {V : Type} {m : List (Str × V)} (h : DistinctKeys m) (k : Str) (v : V) :
    dmGet m k = some v ↔ (k, v) ∈ m := by
  induction m with
  | nil => simp [dmGet]
  | cons a m ih =>
    have hd : DistinctKeys m := by unfold DistinctKeys at *; exact (List.nodup_cons.1 h).2
    have hn : a.1 ∉ m.map (·.1) := by unfold DistinctKeys at h; exact (List.nodup_cons.1 h).1
    have ih' := ih hd
    unfold dmGet at ih' ⊢
    rw [List.find?_cons, List.mem_cons]
    by_cases hk : a.1 = k
    · subst hk
      simp only [beq_self_eq_true, Option.map_some, Option.some.injEq]
      constructor
      · rintro rfl; left; rfl
      · rintro (he | hm)
        · exact (congrArg Prod.snd he).symm
        · exact absurd (List.mem_map.2 ⟨_, hm, rfl⟩) hn
    · have : (a.1 == k) = false := by simpa using hk
      simp only [this]
      rw [ih']
      constructor
      · exact Or.inr
      · rintro (rfl | hm)
        · exact absurd rfl hk
        · exact hm

end Oaks
